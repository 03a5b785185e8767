import Verif.Spec.MstkMesh
import Verif.Proof.MstkMesh
import Mathlib.Data.List.Rotate
/- What the queries of `Mesh_MSTK` return, in terms of MSTK's handles. -/
namespace Jali.Mstk

theorem mapM_total {α β : Type} {l : List α} {f : α → Option β} {g : α → β} (h : ∀ a ∈ l, f a = some (g a)) :
    l.mapM f = some (l.map g) := by
  induction l with
  | nil => rfl
  | cons a l ih =>
    rw [List.mapM_cons, h a List.mem_cons_self, ih fun b hb => h b (List.mem_cons_of_mem _ hb)]
    rfl

/-- the direction after a flip, with a total flag -/
def flipDir (flip : List Bool) (lid : Nat) (d : Bool) : Int :=
  if flip[lid]?.getD false then - dirInt d else dirInt d

theorem flipped_total {flip : List Bool} {lid : Nat} (h : lid < flip.length) (d : Bool) :
    flipped flip lid d = some (flipDir flip lid d) := by
  unfold flipped flipDir
  rw [List.getElem?_eq_getElem h]; rfl

theorem Numbered.id_lt {n : Nat} {im : IdMap n} {L : List (Fin n)} (h : Numbered im L) (v : Fin n) : im.id v - 1 < n := by
  have := h.id_pos v; have := h.id_le v; omega

theorem mem_map_id {n : Nat} {im : IdMap n} {L : List (Fin n)} (h : Numbered im L) (A : List (Fin n)) {i : Nat} :
    i ∈ A.map (fun v => im.id v - 1) ↔ ∃ v, im.at i = some v ∧ v ∈ A := by
  rw [List.mem_map]
  constructor
  · rintro ⟨w, hw, e⟩; exact ⟨w, h.at_iff.mpr e, hw⟩
  · rintro ⟨v, hv, hm⟩; exact ⟨v, hm, h.at_iff.mp hv⟩

theorem nodup_map_id {n : Nat} {im : IdMap n} {L : List (Fin n)} (h : Numbered im L) {A : List (Fin n)} (hA : A.Nodup) :
    (A.map fun v => im.id v - 1).Nodup := by
  refine hA.map ?_
  intro v w e; exact h.id_inj e

section Three
variable {j : JMesh}

theorem cellFaces3_eq (h : j.Ready3) {c : Nat} {r : Fin j.m.nr} (hr : (j.m.rmap j.bg).at c = some r) :
    j.cellFaces3 c = some ((j.m.region r).faces.map fun p =>
      (j.m.fmap.id p.1 - 1, flipDir j.faceflip (j.m.fmap.id p.1 - 1) p.2)) := by
  unfold JMesh.cellFaces3
  rw [if_pos h.faces, hr]
  show List.mapM _ _ = _
  apply mapM_total
  intro p _
  rw [flipped_total (by rw [h.flips]; exact j.m.fnum.id_lt p.1)]
  rfl

theorem hasFst_cellFaces3 (h : j.Ready3) (c f : Nat) : HasFst (j.cellFaces3 c) f ↔
    ∃ r fh, (j.m.rmap j.bg).at c = some r ∧ j.m.fmap.at f = some fh ∧ fh ∈ (j.m.region r).mrFaces := by
  constructor
  · rintro ⟨l, hl, d, hd⟩
    cases hr : (j.m.rmap j.bg).at c with
    | none => simp [JMesh.cellFaces3, hr, h.faces] at hl
    | some r =>
      rw [cellFaces3_eq h hr] at hl
      rw [← Option.some.inj hl, List.mem_map] at hd
      obtain ⟨p, hp, e⟩ := hd
      refine ⟨r, p.1, rfl, j.m.fnum.at_iff.mpr (congrArg Prod.fst e), ?_⟩
      exact List.mem_map.mpr ⟨p, hp, rfl⟩
  · rintro ⟨r, fh, hr, hf, hm⟩
    obtain ⟨p, hp, rfl⟩ := List.mem_map.mp hm
    refine ⟨_, cellFaces3_eq h hr, flipDir j.faceflip f p.2, ?_⟩
    rw [List.mem_map]
    refine ⟨p, hp, ?_⟩
    rw [j.m.fnum.at_iff.mp hf]

theorem has_faceCells3 (h : j.faces = true) (f c : Nat) (ty : EntityType) : Has (j.faceCells3 f ty) c ↔
    ∃ r fh, (j.m.rmap j.bg).at c = some r ∧ j.m.fmap.at f = some fh ∧ fh ∈ (j.m.region r).mrFaces ∧
      passes ty (j.m.region r).ptype = true := by
  unfold JMesh.faceCells3 Has
  rw [if_pos h]
  constructor
  · rintro ⟨l, hl, hm⟩
    rw [Option.map_eq_some_iff] at hl
    obtain ⟨fh, hf, rfl⟩ := hl
    rw [mem_map_id (j.m.rnum j.bg)] at hm
    obtain ⟨r, hr, hm⟩ := hm
    rw [List.mem_filter] at hm
    have := hm.1
    simp only [MMesh.mfRegions, List.mem_filter, List.mem_finRange, true_and, decide_eq_true_eq] at this
    exact ⟨r, fh, hr, hf, this, hm.2⟩
  · rintro ⟨r, fh, hr, hf, hm, hp⟩
    refine ⟨_, by rw [hf]; rfl, ?_⟩
    rw [mem_map_id (j.m.rnum j.bg)]
    refine ⟨r, hr, ?_⟩
    rw [List.mem_filter]
    exact ⟨by simp [MMesh.mfRegions, hm], hp⟩

theorem has_cellNodes3 (c n : Nat) : Has (j.cellNodes3 c) n ↔
    ∃ r v, (j.m.rmap j.bg).at c = some r ∧ j.m.vmap.at n = some v ∧ v ∈ j.m.mrVertices (j.m.region r) := by
  unfold JMesh.cellNodes3 Has
  constructor
  · rintro ⟨l, hl, hm⟩
    rw [Option.map_eq_some_iff] at hl
    obtain ⟨r, hr, rfl⟩ := hl
    rw [mem_map_id j.m.vnum] at hm
    obtain ⟨v, hv, hm⟩ := hm
    exact ⟨r, v, hr, hv, hm⟩
  · rintro ⟨r, v, hr, hv, hm⟩
    exact ⟨_, by rw [hr]; rfl, (mem_map_id j.m.vnum _).mpr ⟨v, hv, hm⟩⟩

theorem has_nodeCells3 (n c : Nat) (ty : EntityType) : Has (j.nodeCells3 n ty) c ↔
    ∃ r v, (j.m.rmap j.bg).at c = some r ∧ j.m.vmap.at n = some v ∧ v ∈ j.m.mrVertices (j.m.region r) ∧
      passes ty (j.m.region r).ptype = true := by
  unfold JMesh.nodeCells3 Has
  constructor
  · rintro ⟨l, hl, hm⟩
    rw [Option.map_eq_some_iff] at hl
    obtain ⟨v, hv, rfl⟩ := hl
    rw [mem_map_id (j.m.rnum j.bg)] at hm
    obtain ⟨r, hr, hm⟩ := hm
    rw [List.mem_filter] at hm
    have := hm.1
    simp only [MMesh.mvRegions, List.mem_filter, List.mem_finRange, true_and, decide_eq_true_eq] at this
    exact ⟨r, v, hr, hv, this, hm.2⟩
  · rintro ⟨r, v, hr, hv, hm, hp⟩
    refine ⟨_, by rw [hv]; rfl, ?_⟩
    rw [mem_map_id (j.m.rnum j.bg)]
    refine ⟨r, hr, ?_⟩
    rw [List.mem_filter]
    exact ⟨by simp [MMesh.mvRegions, hm], hp⟩

theorem has_nodeFaces3 (h : j.faces = true) (n f : Nat) (ty : EntityType) : Has (j.nodeFaces3 n ty) f ↔
    ∃ fh v, j.m.fmap.at f = some fh ∧ j.m.vmap.at n = some v ∧ v ∈ j.m.mfVertices (j.m.face fh) true ∧
      passes ty (j.m.face fh).ptype = true := by
  unfold JMesh.nodeFaces3 Has
  rw [if_pos h]
  constructor
  · rintro ⟨l, hl, hm⟩
    rw [Option.map_eq_some_iff] at hl
    obtain ⟨v, hv, rfl⟩ := hl
    rw [mem_map_id j.m.fnum] at hm
    obtain ⟨r, hr, hm⟩ := hm
    rw [List.mem_filter] at hm
    have := hm.1
    simp only [MMesh.mvFaces, List.mem_filter, List.mem_finRange, true_and, decide_eq_true_eq] at this
    exact ⟨r, v, hr, hv, this, hm.2⟩
  · rintro ⟨r, v, hr, hv, hm, hp⟩
    refine ⟨_, by rw [hv]; rfl, ?_⟩
    rw [mem_map_id j.m.fnum]
    refine ⟨r, hr, ?_⟩
    rw [List.mem_filter]
    exact ⟨by simp [MMesh.mvFaces, hm], hp⟩

/-- the nodes of a face do not depend on the direction in which they are asked for, as a set -/
theorem mem_mfVertices (m : MMesh) (hp : m.Polygons) (f : Fin m.nf) (d : Bool) (v : Fin m.nv) :
    v ∈ m.mfVertices (m.face f) d ↔ v ∈ m.mfVertices (m.face f) true := by
  cases d with
  | true => exact Iff.rfl
  | false =>
    have e1 : m.mfVertices (m.face f) true = (m.face f).edges.map m.start := by
      unfold MMesh.mfVertices MMesh.start; simp
    have e2 : m.mfVertices (m.face f) false = ((m.face f).edges.map m.finish).reverse := by
      unfold MMesh.mfVertices MMesh.finish; rw [← List.map_reverse]; simp
    rw [e1, e2, hp.closed f, List.mem_reverse]
    exact List.mem_rotate

theorem has_faceNodes3 (h : j.Ready3) (hp : j.m.Polygons) (f n : Nat) : Has (j.faceNodes3 f) n ↔
    ∃ fh v, j.m.fmap.at f = some fh ∧ j.m.vmap.at n = some v ∧ v ∈ j.m.mfVertices (j.m.face fh) true := by
  unfold JMesh.faceNodes3 Has
  rw [if_pos h.faces]
  constructor
  · rintro ⟨l, hl, hm⟩
    rw [Option.bind_eq_some_iff] at hl
    obtain ⟨fh, hf, hl⟩ := hl
    rw [Option.map_eq_some_iff] at hl
    obtain ⟨fl, _, rfl⟩ := hl
    rw [mem_map_id j.m.vnum] at hm
    obtain ⟨v, hv, hm⟩ := hm
    exact ⟨fh, v, hf, hv, (mem_mfVertices _ hp _ _ _).mp hm⟩
  · rintro ⟨fh, v, hf, hv, hm⟩
    have hlt : f < j.faceflip.length := by rw [h.flips]; exact j.m.fnum.lt_of_at hf
    refine ⟨_, by rw [hf, Option.bind_some, List.getElem?_eq_getElem hlt]; rfl, ?_⟩
    rw [mem_map_id j.m.vnum]
    exact ⟨v, hv, (mem_mfVertices _ hp _ _ _).mpr hm⟩

theorem has_nodeCellFaces3 (h : j.faces = true) (n c f : Nat) (ty : EntityType) : Has (j.nodeCellFaces3 n c ty) f ↔
    ∃ r fh v, (j.m.rmap j.bg).at c = some r ∧ j.m.fmap.at f = some fh ∧ j.m.vmap.at n = some v ∧
      fh ∈ (j.m.region r).mrFaces ∧ v ∈ j.m.mfVertices (j.m.face fh) true ∧ passes ty (j.m.face fh).ptype = true := by
  unfold JMesh.nodeCellFaces3 Has
  rw [if_pos h]
  constructor
  · rintro ⟨l, hl, hm⟩
    rw [Option.bind_eq_some_iff] at hl
    obtain ⟨v, hv, hl⟩ := hl
    rw [Option.map_eq_some_iff] at hl
    obtain ⟨r, hr, rfl⟩ := hl
    rw [mem_map_id j.m.fnum] at hm
    obtain ⟨fh, hf, hm⟩ := hm
    simp only [List.mem_filter, decide_eq_true_eq] at hm
    exact ⟨r, fh, v, hr, hf, hv, hm.1.1, hm.1.2, hm.2⟩
  · rintro ⟨r, fh, v, hr, hf, hv, h1, h2, h3⟩
    refine ⟨_, by rw [hv, Option.bind_some, hr]; rfl, ?_⟩
    rw [mem_map_id j.m.fnum]
    refine ⟨fh, hf, ?_⟩
    simp only [List.mem_filter, decide_eq_true_eq]
    exact ⟨⟨h1, h2⟩, h3⟩

end Three

section Two
variable {j : JMesh}

theorem cellFaces2_eq (h : j.Ready2) {c : Nat} {r : Fin j.m.nf} (hr : (j.m.cmap j.bg).at c = some r) :
    j.cellFaces2 c = some ((j.m.face r).edges.map fun p =>
      (j.m.emap.id p.1 - 1, flipDir j.faceflip (j.m.emap.id p.1 - 1) p.2)) := by
  unfold JMesh.cellFaces2
  rw [if_pos h.faces, hr]
  show List.mapM _ _ = _
  apply mapM_total
  intro p _
  rw [flipped_total (by rw [h.flips]; exact j.m.enum.id_lt p.1)]
  rfl

theorem hasFst_cellFaces2 (h : j.Ready2) (c f : Nat) : HasFst (j.cellFaces2 c) f ↔
    ∃ r fh, (j.m.cmap j.bg).at c = some r ∧ j.m.emap.at f = some fh ∧ fh ∈ (j.m.face r).mfEdges true := by
  constructor
  · rintro ⟨l, hl, d, hd⟩
    cases hr : (j.m.cmap j.bg).at c with
    | none => simp [JMesh.cellFaces2, hr, h.faces] at hl
    | some r =>
      rw [cellFaces2_eq h hr] at hl
      rw [← Option.some.inj hl, List.mem_map] at hd
      obtain ⟨p, hp, e⟩ := hd
      refine ⟨r, p.1, rfl, j.m.enum.at_iff.mpr (congrArg Prod.fst e), ?_⟩
      exact List.mem_map.mpr ⟨p, hp, rfl⟩
  · rintro ⟨r, fh, hr, hf, hm⟩
    obtain ⟨p, hp, rfl⟩ := List.mem_map.mp hm
    refine ⟨_, cellFaces2_eq h hr, flipDir j.faceflip f p.2, ?_⟩
    rw [List.mem_map]
    refine ⟨p, hp, ?_⟩
    rw [j.m.enum.at_iff.mp hf]

theorem has_faceCells2 (h : j.faces = true) (f c : Nat) (ty : EntityType) : Has (j.faceCells2 f ty) c ↔
    ∃ r fh, (j.m.cmap j.bg).at c = some r ∧ j.m.emap.at f = some fh ∧ fh ∈ (j.m.face r).mfEdges true ∧
      passes ty (j.m.face r).ptype = true := by
  unfold JMesh.faceCells2 Has
  rw [if_pos h]
  constructor
  · rintro ⟨l, hl, hm⟩
    rw [Option.map_eq_some_iff] at hl
    obtain ⟨fh, hf, rfl⟩ := hl
    rw [mem_map_id (j.m.cnum j.bg)] at hm
    obtain ⟨r, hr, hm⟩ := hm
    rw [List.mem_filter] at hm
    have := hm.1
    simp only [MMesh.meFaces, List.mem_filter, List.mem_finRange, true_and, decide_eq_true_eq] at this
    exact ⟨r, fh, hr, hf, this, hm.2⟩
  · rintro ⟨r, fh, hr, hf, hm, hp⟩
    refine ⟨_, by rw [hf]; rfl, ?_⟩
    rw [mem_map_id (j.m.cnum j.bg)]
    refine ⟨r, hr, ?_⟩
    rw [List.mem_filter]
    exact ⟨by simp [MMesh.meFaces, hm], hp⟩

theorem has_cellNodes2 (c n : Nat) : Has (j.cellNodes2 c) n ↔
    ∃ r v, (j.m.cmap j.bg).at c = some r ∧ j.m.vmap.at n = some v ∧ v ∈ j.m.mfVertices (j.m.face r) true := by
  unfold JMesh.cellNodes2 Has
  constructor
  · rintro ⟨l, hl, hm⟩
    rw [Option.map_eq_some_iff] at hl
    obtain ⟨r, hr, rfl⟩ := hl
    rw [mem_map_id j.m.vnum] at hm
    obtain ⟨v, hv, hm⟩ := hm
    exact ⟨r, v, hr, hv, hm⟩
  · rintro ⟨r, v, hr, hv, hm⟩
    exact ⟨_, by rw [hr]; rfl, (mem_map_id j.m.vnum _).mpr ⟨v, hv, hm⟩⟩

theorem has_nodeCells2 (n c : Nat) (ty : EntityType) : Has (j.nodeCells2 n ty) c ↔
    ∃ r v, (j.m.cmap j.bg).at c = some r ∧ j.m.vmap.at n = some v ∧ v ∈ j.m.mfVertices (j.m.face r) true ∧
      passes ty (j.m.face r).ptype = true := by
  unfold JMesh.nodeCells2 Has
  constructor
  · rintro ⟨l, hl, hm⟩
    rw [Option.map_eq_some_iff] at hl
    obtain ⟨v, hv, rfl⟩ := hl
    rw [mem_map_id (j.m.cnum j.bg)] at hm
    obtain ⟨r, hr, hm⟩ := hm
    rw [List.mem_filter] at hm
    have := hm.1
    simp only [MMesh.mvFaces, List.mem_filter, List.mem_finRange, true_and, decide_eq_true_eq] at this
    exact ⟨r, v, hr, hv, this, hm.2⟩
  · rintro ⟨r, v, hr, hv, hm, hp⟩
    refine ⟨_, by rw [hv]; rfl, ?_⟩
    rw [mem_map_id (j.m.cnum j.bg)]
    refine ⟨r, hr, ?_⟩
    rw [List.mem_filter]
    exact ⟨by simp [MMesh.mvFaces, hm], hp⟩

theorem has_nodeFaces2 (h : j.faces = true) (n f : Nat) (ty : EntityType) : Has (j.nodeFaces2 n ty) f ↔
    ∃ fh v, j.m.emap.at f = some fh ∧ j.m.vmap.at n = some v ∧ (v = (j.m.edge fh).v0 ∨ v = (j.m.edge fh).v1) ∧
      passes ty (j.m.edge fh).ptype = true := by
  unfold JMesh.nodeFaces2 Has
  rw [if_pos h]
  constructor
  · rintro ⟨l, hl, hm⟩
    rw [Option.map_eq_some_iff] at hl
    obtain ⟨v, hv, rfl⟩ := hl
    rw [mem_map_id j.m.enum] at hm
    obtain ⟨r, hr, hm⟩ := hm
    rw [List.mem_filter] at hm
    have := hm.1
    simp only [MMesh.mvEdges, List.mem_filter, List.mem_finRange, true_and, decide_eq_true_eq] at this
    exact ⟨r, v, hr, hv, this, hm.2⟩
  · rintro ⟨r, v, hr, hv, hm, hp⟩
    refine ⟨_, by rw [hv]; rfl, ?_⟩
    rw [mem_map_id j.m.enum]
    refine ⟨r, hr, ?_⟩
    rw [List.mem_filter]
    exact ⟨by simp [MMesh.mvEdges, hm], hp⟩

theorem has_faceNodes2 (h : j.Ready2) (f n : Nat) : Has (j.faceNodes2 f) n ↔
    ∃ fh v, j.m.emap.at f = some fh ∧ j.m.vmap.at n = some v ∧ (v = (j.m.edge fh).v0 ∨ v = (j.m.edge fh).v1) := by
  unfold JMesh.faceNodes2 Has
  rw [if_pos h.faces]
  constructor
  · rintro ⟨l, hl, hm⟩
    rw [Option.bind_eq_some_iff] at hl
    obtain ⟨fh, hf, hl⟩ := hl
    rw [Option.map_eq_some_iff] at hl
    obtain ⟨fl, _, rfl⟩ := hl
    have : n = j.m.vmap.id (j.m.edge fh).v0 - 1 ∨ n = j.m.vmap.id (j.m.edge fh).v1 - 1 := by
      cases fl <;> simpa [or_comm] using hm
    rcases this with e | e
    · exact ⟨fh, _, hf, j.m.vnum.at_iff.mpr e.symm, Or.inl rfl⟩
    · exact ⟨fh, _, hf, j.m.vnum.at_iff.mpr e.symm, Or.inr rfl⟩
  · rintro ⟨fh, v, hf, hv, hm⟩
    have hlt : f < j.faceflip.length := by rw [h.flips]; exact j.m.enum.lt_of_at hf
    refine ⟨_, by rw [hf, Option.bind_some, List.getElem?_eq_getElem hlt]; rfl, ?_⟩
    have e := j.m.vnum.at_iff.mp hv
    have : n = j.m.vmap.id (j.m.edge fh).v0 - 1 ∨ n = j.m.vmap.id (j.m.edge fh).v1 - 1 := by
      rcases hm with rfl | rfl
      · exact Or.inl e.symm
      · exact Or.inr e.symm
    cases j.faceflip[f] <;> simpa [or_comm] using this

theorem has_nodeCellFaces2 (h : j.faces = true) (n c f : Nat) (ty : EntityType) : Has (j.nodeCellFaces2 n c ty) f ↔
    ∃ r fh v, (j.m.cmap j.bg).at c = some r ∧ j.m.emap.at f = some fh ∧ j.m.vmap.at n = some v ∧
      fh ∈ (j.m.face r).mfEdges true ∧ (v = (j.m.edge fh).v0 ∨ v = (j.m.edge fh).v1) ∧
      passes ty (j.m.edge fh).ptype = true := by
  unfold JMesh.nodeCellFaces2 Has
  rw [if_pos h]
  constructor
  · rintro ⟨l, hl, hm⟩
    rw [Option.bind_eq_some_iff] at hl
    obtain ⟨v, hv, hl⟩ := hl
    rw [Option.map_eq_some_iff] at hl
    obtain ⟨r, hr, rfl⟩ := hl
    rw [mem_map_id j.m.enum] at hm
    obtain ⟨fh, hf, hm⟩ := hm
    simp only [List.mem_filter, decide_eq_true_eq] at hm
    exact ⟨r, fh, v, hr, hf, hv, hm.1.1, hm.1.2, hm.2⟩
  · rintro ⟨r, fh, v, hr, hf, hv, h1, h2, h3⟩
    refine ⟨_, by rw [hv, Option.bind_some, hr]; rfl, ?_⟩
    rw [mem_map_id j.m.enum]
    refine ⟨fh, hf, ?_⟩
    simp only [List.mem_filter, decide_eq_true_eq]
    exact ⟨⟨h1, h2⟩, h3⟩

end Two

end Jali.Mstk
