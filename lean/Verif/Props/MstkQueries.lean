import Verif.Proof.MstkQueries
import Verif.Props.MstkNumbering
/-
C105: queries up and down agree, and respect the entity type.  C106: neighbours.
-/
namespace Jali.Mstk

/-! ### Up and down -/

/-- **C105** a face belongs to a cell exactly if the cell is one of the cells of the face (3D and 2D) -/
theorem faces_cells_agree3 (j : JMesh) (h : j.Ready3) (c f : Nat) :
    HasFst (j.cellFaces3 c) f ↔ Has (j.faceCells3 f .ALL) c := by
  rw [hasFst_cellFaces3 h, has_faceCells3 h.faces]
  constructor
  · rintro ⟨r, fh, a, b, m⟩; exact ⟨r, fh, a, b, m, by cases (j.m.region r).ptype <;> rfl⟩
  · rintro ⟨r, fh, a, b, m, _⟩; exact ⟨r, fh, a, b, m⟩

theorem faces_cells_agree2 (j : JMesh) (h : j.Ready2) (c f : Nat) :
    HasFst (j.cellFaces2 c) f ↔ Has (j.faceCells2 f .ALL) c := by
  rw [hasFst_cellFaces2 h, has_faceCells2 h.faces]
  constructor
  · rintro ⟨r, fh, a, b, m⟩; exact ⟨r, fh, a, b, m, by cases (j.m.face r).ptype <;> rfl⟩
  · rintro ⟨r, fh, a, b, m, _⟩; exact ⟨r, fh, a, b, m⟩

/-- **C105** a node belongs to a cell exactly if the cell is one of the cells of the node -/
theorem nodes_cells_agree3 (j : JMesh) (c n : Nat) : Has (j.cellNodes3 c) n ↔ Has (j.nodeCells3 n .ALL) c := by
  rw [has_cellNodes3, has_nodeCells3]
  constructor
  · rintro ⟨r, fh, a, b, m⟩; exact ⟨r, fh, a, b, m, by cases (j.m.region r).ptype <;> rfl⟩
  · rintro ⟨r, fh, a, b, m, _⟩; exact ⟨r, fh, a, b, m⟩

theorem nodes_cells_agree2 (j : JMesh) (c n : Nat) : Has (j.cellNodes2 c) n ↔ Has (j.nodeCells2 n .ALL) c := by
  rw [has_cellNodes2, has_nodeCells2]
  constructor
  · rintro ⟨r, fh, a, b, m⟩; exact ⟨r, fh, a, b, m, by cases (j.m.face r).ptype <;> rfl⟩
  · rintro ⟨r, fh, a, b, m, _⟩; exact ⟨r, fh, a, b, m⟩

/-- **C105** a node belongs to a face exactly if the face is one of the faces of the node, whichever way the face is flipped -/
theorem nodes_faces_agree3 (j : JMesh) (h : j.Ready3) (hp : j.m.Polygons) (f n : Nat) :
    Has (j.faceNodes3 f) n ↔ Has (j.nodeFaces3 n .ALL) f := by
  rw [has_faceNodes3 h hp, has_nodeFaces3 h.faces]
  constructor
  · rintro ⟨r, fh, a, b, m⟩; exact ⟨r, fh, a, b, m, by cases (j.m.face r).ptype <;> rfl⟩
  · rintro ⟨r, fh, a, b, m, _⟩; exact ⟨r, fh, a, b, m⟩

theorem nodes_faces_agree2 (j : JMesh) (h : j.Ready2) (f n : Nat) :
    Has (j.faceNodes2 f) n ↔ Has (j.nodeFaces2 n .ALL) f := by
  rw [has_faceNodes2 h, has_nodeFaces2 h.faces]
  constructor
  · rintro ⟨r, fh, a, b, m⟩; exact ⟨r, fh, a, b, m, by cases (j.m.edge r).ptype <;> rfl⟩
  · rintro ⟨r, fh, a, b, m, _⟩; exact ⟨r, fh, a, b, m⟩

/-- **C105** the faces of a cell at a node are the faces of the cell that are faces of the node -/
theorem node_cell_faces3 (j : JMesh) (h : j.Ready3) (n c f : Nat) (ty : EntityType) :
    Has (j.nodeCellFaces3 n c ty) f ↔ HasFst (j.cellFaces3 c) f ∧ Has (j.nodeFaces3 n ty) f := by
  rw [has_nodeCellFaces3 h.faces, hasFst_cellFaces3 h, has_nodeFaces3 h.faces]
  constructor
  · rintro ⟨r, fh, v, a, b, c, d, e, f⟩
    exact ⟨⟨r, fh, a, b, d⟩, ⟨fh, v, b, c, e, f⟩⟩
  · rintro ⟨⟨r, fh, a, b, d⟩, ⟨fh', v, b', c, e, f⟩⟩
    have : fh' = fh := Option.some.inj (b'.symm.trans b)
    subst this
    exact ⟨r, fh', v, a, b, c, d, e, f⟩

theorem node_cell_faces2 (j : JMesh) (h : j.Ready2) (n c f : Nat) (ty : EntityType) :
    Has (j.nodeCellFaces2 n c ty) f ↔ HasFst (j.cellFaces2 c) f ∧ Has (j.nodeFaces2 n ty) f := by
  rw [has_nodeCellFaces2 h.faces, hasFst_cellFaces2 h, has_nodeFaces2 h.faces]
  constructor
  · rintro ⟨r, fh, v, a, b, c, d, e, f⟩
    exact ⟨⟨r, fh, a, b, d⟩, ⟨fh, v, b, c, e, f⟩⟩
  · rintro ⟨⟨r, fh, a, b, d⟩, ⟨fh', v, b', c, e, f⟩⟩
    have : fh' = fh := Option.some.inj (b'.symm.trans b)
    subst this
    exact ⟨r, fh', v, a, b, c, d, e, f⟩

/-- **C105** a cell given by a valid id always has an answer, any other id is an error -/
theorem answers3 (j : JMesh) (h : j.Ready3) (c : Nat) :
    ((∃ l, j.cellFaces3 c = some l) ↔ c < j.m.nr) ∧ ((∃ l, j.cellNodes3 c = some l) ↔ c < j.m.nr) := by
  constructor
  · constructor
    · rintro ⟨l, hl⟩
      cases hr : (j.m.rmap j.bg).at c with
      | none => simp [JMesh.cellFaces3, hr, h.faces] at hl
      | some r => exact (j.m.rnum j.bg).lt_of_at hr
    · intro hc
      obtain ⟨r, hr⟩ := (j.m.rnum j.bg).at_some hc
      exact ⟨_, cellFaces3_eq h hr⟩
  · constructor
    · rintro ⟨l, hl⟩
      cases hr : (j.m.rmap j.bg).at c with
      | none => simp [JMesh.cellNodes3, hr] at hl
      | some r => exact (j.m.rnum j.bg).lt_of_at hr
    · intro hc
      obtain ⟨r, hr⟩ := (j.m.rnum j.bg).at_some hc
      exact ⟨_, by unfold JMesh.cellNodes3; rw [hr]; rfl⟩

theorem answers2 (j : JMesh) (h : j.Ready2) (c : Nat) :
    ((∃ l, j.cellFaces2 c = some l) ↔ c < j.m.nf) ∧ ((∃ l, j.cellNodes2 c = some l) ↔ c < j.m.nf) := by
  constructor
  · constructor
    · rintro ⟨l, hl⟩
      cases hr : (j.m.cmap j.bg).at c with
      | none => simp [JMesh.cellFaces2, hr, h.faces] at hl
      | some r => exact (j.m.cnum j.bg).lt_of_at hr
    · intro hc
      obtain ⟨r, hr⟩ := (j.m.cnum j.bg).at_some hc
      exact ⟨_, cellFaces2_eq h hr⟩
  · constructor
    · rintro ⟨l, hl⟩
      cases hr : (j.m.cmap j.bg).at c with
      | none => simp [JMesh.cellNodes2, hr] at hl
      | some r => exact (j.m.cnum j.bg).lt_of_at hr
    · intro hc
      obtain ⟨r, hr⟩ := (j.m.cnum j.bg).at_some hc
      exact ⟨_, by unfold JMesh.cellNodes2; rw [hr]; rfl⟩

/-- **C105** no cell is listed twice among the cells of a face or node -/
theorem cells_listed_once (j : JMesh) (ty : EntityType) :
    (∀ f l, j.faceCells3 f ty = some l → l.Nodup) ∧ (∀ f l, j.faceCells2 f ty = some l → l.Nodup) ∧
    (∀ n l, j.nodeCells3 n ty = some l → l.Nodup) ∧ (∀ n l, j.nodeCells2 n ty = some l → l.Nodup) := by
  refine ⟨?_, ?_, ?_, ?_⟩
  · intro f l hl
    unfold JMesh.faceCells3 at hl
    split at hl
    · rw [Option.map_eq_some_iff] at hl
      obtain ⟨_, _, rfl⟩ := hl
      exact nodup_map_id (j.m.rnum j.bg) (((List.nodup_finRange _).filter _).filter _)
    · cases hl
  · intro f l hl
    unfold JMesh.faceCells2 at hl
    split at hl
    · rw [Option.map_eq_some_iff] at hl
      obtain ⟨_, _, rfl⟩ := hl
      exact nodup_map_id (j.m.cnum j.bg) (((List.nodup_finRange _).filter _).filter _)
    · cases hl
  · intro n l hl
    unfold JMesh.nodeCells3 at hl
    rw [Option.map_eq_some_iff] at hl
    obtain ⟨_, _, rfl⟩ := hl
    exact nodup_map_id (j.m.rnum j.bg) (((List.nodup_finRange _).filter _).filter _)
  · intro n l hl
    unfold JMesh.nodeCells2 at hl
    rw [Option.map_eq_some_iff] at hl
    obtain ⟨_, _, rfl⟩ := hl
    exact nodup_map_id (j.m.cnum j.bg) (((List.nodup_finRange _).filter _).filter _)

/-! ### Directions -/

theorem flipDir_ne (flip : List Bool) (lid : Nat) {d d' : Bool} (h : d ≠ d') :
    flipDir flip lid d' = - flipDir flip lid d := by
  unfold flipDir dirInt
  cases d <;> cases d' <;> simp at h ⊢ <;> split <;> rfl

/-- **C105** the two cells of a face see it in opposite directions (3D) -/
theorem opposite_dirs3 (j : JMesh) (h : j.Ready3) (hr : j.m.Regions) (c c' f : Nat) (d d' : Int) (l l' : List (Nat × Int))
    (hl : j.cellFaces3 c = some l) (hl' : j.cellFaces3 c' = some l') (hd : (f, d) ∈ l) (hd' : (f, d') ∈ l') (hc : c ≠ c') :
    d' = -d := by
  cases hrc : (j.m.rmap j.bg).at c with
  | none => simp [JMesh.cellFaces3, hrc, h.faces] at hl
  | some r =>
    cases hrc' : (j.m.rmap j.bg).at c' with
    | none => simp [JMesh.cellFaces3, hrc', h.faces] at hl'
    | some r' =>
      rw [cellFaces3_eq h hrc] at hl
      rw [cellFaces3_eq h hrc'] at hl'
      rw [← Option.some.inj hl, List.mem_map] at hd
      rw [← Option.some.inj hl', List.mem_map] at hd'
      obtain ⟨⟨fh, b⟩, hp, e⟩ := hd
      obtain ⟨⟨fh', b'⟩, hp', e'⟩ := hd'
      simp only [Prod.mk.injEq] at e e'
      have ef : fh' = fh := j.m.fnum.id_inj (e'.1.trans e.1.symm)
      subst ef
      have hb : b ≠ b' := by
        rintro rfl
        have := hr.sides _ _ _ _ hp hp'
        subst this
        exact hc (by rw [← (j.m.rnum j.bg).at_iff.mp hrc, ← (j.m.rnum j.bg).at_iff.mp hrc'])
      rw [← e.2, ← e'.2]
      exact flipDir_ne _ _ hb

/-- in 2D, if the cells are oriented alike -/
theorem opposite_dirs2 (j : JMesh) (h : j.Ready2) (hr : j.m.OrientedCells) (c c' f : Nat) (d d' : Int)
    (l l' : List (Nat × Int)) (hl : j.cellFaces2 c = some l) (hl' : j.cellFaces2 c' = some l') (hd : (f, d) ∈ l)
    (hd' : (f, d') ∈ l') (hc : c ≠ c') : d' = -d := by
  cases hrc : (j.m.cmap j.bg).at c with
  | none => simp [JMesh.cellFaces2, hrc, h.faces] at hl
  | some r =>
    cases hrc' : (j.m.cmap j.bg).at c' with
    | none => simp [JMesh.cellFaces2, hrc', h.faces] at hl'
    | some r' =>
      rw [cellFaces2_eq h hrc] at hl
      rw [cellFaces2_eq h hrc'] at hl'
      rw [← Option.some.inj hl, List.mem_map] at hd
      rw [← Option.some.inj hl', List.mem_map] at hd'
      obtain ⟨⟨fh, b⟩, hp, e⟩ := hd
      obtain ⟨⟨fh', b'⟩, hp', e'⟩ := hd'
      simp only [Prod.mk.injEq] at e e'
      have ef : fh' = fh := j.m.enum.id_inj (e'.1.trans e.1.symm)
      subst ef
      have hb : b ≠ b' := by
        rintro rfl
        have := hr _ _ _ _ hp hp'
        subst this
        exact hc (by rw [← (j.m.cnum j.bg).at_iff.mp hrc, ← (j.m.cnum j.bg).at_iff.mp hrc'])
      rw [← e.2, ← e'.2]
      exact flipDir_ne _ _ hb

/-- every direction is 1 or -1 -/
theorem dirs_unit (j : JMesh) (h : j.Ready3) (c f : Nat) (d : Int) (l : List (Nat × Int))
    (hl : j.cellFaces3 c = some l) (hd : (f, d) ∈ l) : d = 1 ∨ d = -1 := by
  cases hrc : (j.m.rmap j.bg).at c with
  | none => simp [JMesh.cellFaces3, hrc, h.faces] at hl
  | some r =>
    rw [cellFaces3_eq h hrc] at hl
    rw [← Option.some.inj hl, List.mem_map] at hd
    obtain ⟨⟨fh, b⟩, _, e⟩ := hd
    simp only [Prod.mk.injEq] at e
    rw [← e.2]
    unfold flipDir dirInt
    cases b <;> split <;> simp

/-! ### Entity types -/

/-- what the type argument of a query should mean: `q` is the query for each type, `L` the lists of ids of what it returns -/
structure TypeSplit (q : EntityType → Option (List Nat)) (L : IdLists) : Prop where
  owned : ∀ x, Has (q .PARALLEL_OWNED) x ↔ Has (q .ALL) x ∧ x ∈ L.owned
  ghost : ∀ x, Has (q .PARALLEL_GHOST) x ↔ Has (q .ALL) x ∧ x ∈ L.ghost
  bndry : ∀ x, Has (q .BOUNDARY_GHOST) x ↔ Has (q .ALL) x ∧ x ∈ L.bndry

theorem passes_ALL (p : PType) : passes .ALL p = true := by cases p <;> rfl
theorem passes_OWNED (p : PType) : passes .PARALLEL_OWNED p = true ↔ p ≠ .ghost := by cases p <;> decide
theorem passes_GHOST (p : PType) : passes .PARALLEL_GHOST p = true ↔ p = .ghost := by cases p <;> decide
theorem passes_BNDRY (p : PType) : ¬ (passes .BOUNDARY_GHOST p = true) := by cases p <;> decide

/-- how all the queries filter -/
theorem typeSplit_of {n : Nat} (q : EntityType → Option (List Nat)) (L : IdLists) (im : IdMap n) (pt : Fin n → PType)
    (R : Fin n → Prop)
    (hq : ∀ ty x, Has (q ty) x ↔ ∃ v, im.at x = some v ∧ R v ∧ passes ty (pt v) = true)
    (hn : Names im L (fun v => pt v ≠ .ghost) (fun v => pt v = .ghost) (fun _ => False)) : TypeSplit q L := by
  refine ⟨fun x => ?_, fun x => ?_, fun x => ?_⟩
  · rw [hq, hq]
    constructor
    · rintro ⟨v, a, b, c⟩
      exact ⟨⟨v, a, b, passes_ALL _⟩, (hn.owned_iff x v a).mpr ((passes_OWNED _).mp c)⟩
    · rintro ⟨⟨v, a, b, _⟩, c⟩
      exact ⟨v, a, b, (passes_OWNED _).mpr ((hn.owned_iff x v a).mp c)⟩
  · rw [hq, hq]
    constructor
    · rintro ⟨v, a, b, c⟩
      exact ⟨⟨v, a, b, passes_ALL _⟩, (hn.ghost_iff x v a).mpr ((passes_GHOST _).mp c)⟩
    · rintro ⟨⟨v, a, b, _⟩, c⟩
      exact ⟨v, a, b, (passes_GHOST _).mpr ((hn.ghost_iff x v a).mp c)⟩
  · rw [hq, hq]
    constructor
    · rintro ⟨v, a, b, c⟩
      exact absurd c (passes_BNDRY _)
    · rintro ⟨⟨v, a, b, _⟩, c⟩
      exact ((hn.bndry_iff x v a).mp c).elim

theorem names_cells3 (m : MMesh) : Names (m.rmap false) (m.cellIds3 false) (fun v => (m.region v).ptype ≠ .ghost)
    (fun v => (m.region v).ptype = .ghost) (fun _ => False) := by
  have := (ids_name_entities m false).2.2.2.1
  simpa using this

theorem names_cells2 (m : MMesh) : Names (m.cmap false) (m.cellIds2 false) (fun v => (m.face v).ptype ≠ .ghost)
    (fun v => (m.face v).ptype = .ghost) (fun _ => False) := by
  have := (ids_name_entities m false).2.2.2.2
  simpa using this

/-- **C105** (full statement proved except for meshes with boundary ghosts) the type argument selects from all answers
those in the list of that type -/
theorem types_respected_partial (j : JMesh) (hf : j.faces = true) (hbg : j.bg = false) (n c f : Nat) :
    TypeSplit (fun ty => j.nodeCells3 n ty) (j.m.cellIds3 j.bg) ∧ TypeSplit (fun ty => j.nodeCells2 n ty) (j.m.cellIds2 j.bg) ∧
    TypeSplit (fun ty => j.faceCells3 f ty) (j.m.cellIds3 j.bg) ∧ TypeSplit (fun ty => j.faceCells2 f ty) (j.m.cellIds2 j.bg) ∧
    TypeSplit (fun ty => j.nodeFaces3 n ty) j.m.faceIds3 ∧ TypeSplit (fun ty => j.nodeFaces2 n ty) j.m.edgeIds ∧
    TypeSplit (fun ty => j.nodeCellFaces3 n c ty) j.m.faceIds3 ∧ TypeSplit (fun ty => j.nodeCellFaces2 n c ty) j.m.edgeIds := by
  have N3 := names_cells3 j.m
  have N2 := names_cells2 j.m
  rw [← hbg] at N3 N2
  have NF := (ids_name_entities j.m false).2.2.1
  have NE := (ids_name_entities j.m false).2.1
  refine ⟨?_, ?_, ?_, ?_, ?_, ?_, ?_, ?_⟩
  · refine typeSplit_of _ _ _ _ (fun r => ∃ v, j.m.vmap.at n = some v ∧ v ∈ j.m.mrVertices (j.m.region r)) ?_ N3
    intro ty x; rw [has_nodeCells3]
    exact ⟨fun ⟨r, v, a, b, c, d⟩ => ⟨r, a, ⟨v, b, c⟩, d⟩, fun ⟨r, a, ⟨v, b, c⟩, d⟩ => ⟨r, v, a, b, c, d⟩⟩
  · refine typeSplit_of _ _ _ _ (fun r => ∃ v, j.m.vmap.at n = some v ∧ v ∈ j.m.mfVertices (j.m.face r) true) ?_ N2
    intro ty x; rw [has_nodeCells2]
    exact ⟨fun ⟨r, v, a, b, c, d⟩ => ⟨r, a, ⟨v, b, c⟩, d⟩, fun ⟨r, a, ⟨v, b, c⟩, d⟩ => ⟨r, v, a, b, c, d⟩⟩
  · refine typeSplit_of _ _ _ _ (fun r => ∃ fh, j.m.fmap.at f = some fh ∧ fh ∈ (j.m.region r).mrFaces) ?_ N3
    intro ty x; rw [has_faceCells3 hf]
    exact ⟨fun ⟨r, v, a, b, c, d⟩ => ⟨r, a, ⟨v, b, c⟩, d⟩, fun ⟨r, a, ⟨v, b, c⟩, d⟩ => ⟨r, v, a, b, c, d⟩⟩
  · refine typeSplit_of _ _ _ _ (fun r => ∃ fh, j.m.emap.at f = some fh ∧ fh ∈ (j.m.face r).mfEdges true) ?_ N2
    intro ty x; rw [has_faceCells2 hf]
    exact ⟨fun ⟨r, v, a, b, c, d⟩ => ⟨r, a, ⟨v, b, c⟩, d⟩, fun ⟨r, a, ⟨v, b, c⟩, d⟩ => ⟨r, v, a, b, c, d⟩⟩
  · refine typeSplit_of _ _ _ _ (fun r => ∃ v, j.m.vmap.at n = some v ∧ v ∈ j.m.mfVertices (j.m.face r) true) ?_ NF
    intro ty x; rw [has_nodeFaces3 hf]
    exact ⟨fun ⟨r, v, a, b, c, d⟩ => ⟨r, a, ⟨v, b, c⟩, d⟩, fun ⟨r, a, ⟨v, b, c⟩, d⟩ => ⟨r, v, a, b, c, d⟩⟩
  · refine typeSplit_of _ _ _ _ (fun r => ∃ v, j.m.vmap.at n = some v ∧ (v = (j.m.edge r).v0 ∨ v = (j.m.edge r).v1)) ?_ NE
    intro ty x; rw [has_nodeFaces2 hf]
    exact ⟨fun ⟨r, v, a, b, c, d⟩ => ⟨r, a, ⟨v, b, c⟩, d⟩, fun ⟨r, a, ⟨v, b, c⟩, d⟩ => ⟨r, v, a, b, c, d⟩⟩
  · refine typeSplit_of _ _ _ _ (fun fh => ∃ r v, (j.m.rmap j.bg).at c = some r ∧ j.m.vmap.at n = some v ∧
      fh ∈ (j.m.region r).mrFaces ∧ v ∈ j.m.mfVertices (j.m.face fh) true) ?_ NF
    intro ty x; rw [has_nodeCellFaces3 hf]
    exact ⟨fun ⟨r, fh, v, a, b, c, d, e, f⟩ => ⟨fh, b, ⟨r, v, a, c, d, e⟩, f⟩,
      fun ⟨fh, b, ⟨r, v, a, c, d, e⟩, f⟩ => ⟨r, fh, v, a, b, c, d, e, f⟩⟩
  · refine typeSplit_of _ _ _ _ (fun fh => ∃ r v, (j.m.cmap j.bg).at c = some r ∧ j.m.vmap.at n = some v ∧
      fh ∈ (j.m.face r).mfEdges true ∧ (v = (j.m.edge fh).v0 ∨ v = (j.m.edge fh).v1)) ?_ NE
    intro ty x; rw [has_nodeCellFaces2 hf]
    exact ⟨fun ⟨r, fh, v, a, b, c, d, e, f⟩ => ⟨fh, b, ⟨r, v, a, c, d, e⟩, f⟩,
      fun ⟨fh, b, ⟨r, v, a, c, d, e⟩, f⟩ => ⟨r, fh, v, a, b, c, d, e, f⟩⟩

/-- **C105** is false for every boundary ghost cell: the cells of a node of type `PARALLEL_OWNED` include it, those of type
`BOUNDARY_GHOST` do not. The same is true of the function of the framework for the cells of a face; the public function of the
base class calls it with type `ALL` only (C117). -/
theorem boundary_ghosts_returned_as_owned (j : JMesh) (hf : j.faces = true) (c f n : Nat) (hc : c ∈ (j.m.cellIds3 j.bg).bndry) :
    (Has (j.faceCells3 f .ALL) c → Has (j.faceCells3 f .PARALLEL_OWNED) c ∧ ¬ Has (j.faceCells3 f .BOUNDARY_GHOST) c) ∧
    (Has (j.nodeCells3 n .ALL) c → Has (j.nodeCells3 n .PARALLEL_OWNED) c ∧ ¬ Has (j.nodeCells3 n .BOUNDARY_GHOST) c) := by
  have hn := (ids_name_entities j.m j.bg).2.2.2.1
  refine ⟨?_, ?_⟩
  · rw [has_faceCells3 hf, has_faceCells3 hf, has_faceCells3 hf]
    rintro ⟨r, fh, a, b, m, _⟩
    have := (hn.bndry_iff c r a).mp hc
    refine ⟨⟨r, fh, a, b, m, (passes_OWNED _).mpr this.1⟩, ?_⟩
    rintro ⟨_, _, _, _, _, hp⟩
    exact passes_BNDRY _ hp
  · rw [has_nodeCells3, has_nodeCells3, has_nodeCells3]
    rintro ⟨r, v, a, b, m, _⟩
    have := (hn.bndry_iff c r a).mp hc
    refine ⟨⟨r, v, a, b, m, (passes_OWNED _).mpr this.1⟩, ?_⟩
    rintro ⟨_, _, _, _, _, hp⟩
    exact passes_BNDRY _ hp

/-- the mesh object of `sampleMesh`, edge 0 of the cell flipped -/
def sample2 : JMesh := ⟨sampleMesh, true, true, false, false, [false, false, false, true, false], [false, false, false, true, false]⟩

example : sample2.Ready2 ∧ sample2.cellFaces2 1 = some [(3, -1), (0, 1), (4, 1)] ∧ sample2.faceCells2 0 .ALL = some [1, 0] ∧
    sample2.faceCells2 0 .PARALLEL_GHOST = some [1] ∧ sample2.nodeCells2 0 .PARALLEL_OWNED = some [0] ∧
    sample2.faceNodes2 3 = some [0, 3] := by
  refine ⟨⟨rfl, rfl⟩, ?_, ?_, ?_, ?_, ?_⟩ <;> decide +kernel

/-- a tetrahedron and a boundary ghost behind its face 0 -/
abbrev sampleMesh3 : MMesh where
  nv := 4
  ne := 6
  nf := 4
  nr := 2
  vtx := fun i => ⟨.interior, i + 1⟩
  edge := ![⟨.interior, 1, 0, 1, false⟩, ⟨.interior, 2, 1, 2, false⟩, ⟨.interior, 3, 2, 0, false⟩, ⟨.interior, 4, 0, 3, false⟩,
    ⟨.interior, 5, 1, 3, false⟩, ⟨.interior, 6, 2, 3, false⟩]
  face := ![⟨.interior, 1, [(0, true), (1, true), (2, true)], false, false⟩,
    ⟨.interior, 2, [(0, true), (4, true), (3, false)], false, false⟩,
    ⟨.interior, 3, [(1, true), (5, true), (4, false)], false, false⟩,
    ⟨.interior, 4, [(2, true), (3, true), (5, false)], false, false⟩]
  region := ![⟨.interior, 1, [(0, false), (1, true), (2, true), (3, true)], false⟩,
    ⟨.interior, 0, [(0, true)], true⟩]

def sample3 : JMesh := ⟨sampleMesh3, true, true, true, true, List.replicate 4 false, List.replicate 6 false⟩

theorem sample3_ok : sampleMesh3.Regions ∧ sampleMesh3.Polygons := by
  refine ⟨⟨?_, ?_⟩, ⟨?_, ?_, ?_, ?_⟩⟩
  · show ∀ r : Fin 2, ((sampleMesh3.region r).faces.map Prod.fst).Nodup
    decide +kernel
  · show ∀ (f : Fin 4) (d : Bool) (r r' : Fin 2), (f, d) ∈ (sampleMesh3.region r).faces → (f, d) ∈ (sampleMesh3.region r').faces → r = r'
    decide +kernel
  · show ∀ e : Fin 6, (sampleMesh3.edge e).v0 ≠ (sampleMesh3.edge e).v1
    decide +kernel
  · show ∀ f : Fin 4, (sampleMesh3.face f).edges.map sampleMesh3.finish = ((sampleMesh3.face f).edges.map sampleMesh3.start).rotate 1
    decide +kernel
  · show ∀ f : Fin 4, ((sampleMesh3.face f).edges.map sampleMesh3.start).Nodup
    decide +kernel
  · show ∀ f : Fin 4, ((sampleMesh3.face f).edges.map Prod.fst).Nodup
    decide +kernel

example : sample3.Ready3 ∧ (sample3.m.cellIds3 sample3.bg).bndry = [1] ∧ Has (sample3.faceCells3 0 .ALL) 1 ∧
    Has (sample3.nodeCells3 0 .ALL) 1 := by
  refine ⟨⟨rfl, rfl⟩, ?_, ⟨[0, 1], ?_, by simp⟩, ⟨[0, 1], ?_, by simp⟩⟩ <;> decide +kernel

end Jali.Mstk
