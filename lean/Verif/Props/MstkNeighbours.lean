import Verif.Props.MstkQueries
/-
C106: neighbours of a cell of a mesh made by MSTK.
-/
namespace Jali.Mstk

/-- **C106** the neighbours across faces are listed in the order of the faces of the cell: for each face, the cells of the
face (of the given type) other than the cell itself (3D and 2D) -/
theorem face_adj3 (j : JMesh) (h : j.Ready3) (c : Nat) (ty : EntityType) (fs : List (Nat × Int))
    (hfs : j.cellFaces3 c = some fs) :
    j.faceAdj3 c ty = some (fs.flatMap fun p => ((j.faceCells3 p.1 ty).getD []).filter fun x => x ≠ c) := by
  cases hr : (j.m.rmap j.bg).at c with
  | none => simp [JMesh.cellFaces3, hr, h.faces] at hfs
  | some r =>
    rw [cellFaces3_eq h hr] at hfs
    unfold JMesh.faceAdj3
    rw [if_pos h.faces, hr, ← Option.some.inj hfs, Option.map_some]
    congr 1
    unfold Region.mrFaces
    rw [List.flatMap_map, List.flatMap_map]
    apply congrArg (fun g => List.flatMap g (j.m.region r).faces)
    funext p
    have e : j.m.fmap.at (j.m.fmap.id p.1 - 1) = some p.1 := j.m.fnum.at_id p.1
    unfold JMesh.faceCells3
    rw [if_pos h.faces]
    simp only [e, Option.map_some, Option.getD_some]
    rw [List.filter_map, List.filter_filter]
    congr 1
    congr 1
    funext x
    have : (decide (x ≠ r)) = (decide ((j.m.rmap j.bg).id x - 1 ≠ c)) := by
      rw [decide_eq_decide, ← (j.m.rnum j.bg).at_iff.mp hr]
      exact not_congr ⟨fun e => by rw [e], fun e => (j.m.rnum j.bg).id_inj e⟩
    simp only [Function.comp, ← this, Bool.decide_and, Bool.decide_eq_true]

theorem face_adj2 (j : JMesh) (h : j.Ready2) (c : Nat) (ty : EntityType) (fs : List (Nat × Int))
    (hfs : j.cellFaces2 c = some fs) :
    j.faceAdj2 c ty = some (fs.flatMap fun p => ((j.faceCells2 p.1 ty).getD []).filter fun x => x ≠ c) := by
  cases hr : (j.m.cmap j.bg).at c with
  | none => simp [JMesh.cellFaces2, hr, h.faces] at hfs
  | some r =>
    rw [cellFaces2_eq h hr] at hfs
    unfold JMesh.faceAdj2
    rw [if_pos h.faces, hr, ← Option.some.inj hfs, Option.map_some]
    congr 1
    unfold Face.mfEdges
    rw [if_pos rfl, List.flatMap_map, List.flatMap_map]
    apply congrArg (fun g => List.flatMap g (j.m.face r).edges)
    funext p
    have e : j.m.emap.at (j.m.emap.id p.1 - 1) = some p.1 := j.m.enum.at_id p.1
    unfold JMesh.faceCells2
    rw [if_pos h.faces]
    simp only [e, Option.map_some, Option.getD_some]
    rw [List.filter_map, List.filter_filter]
    congr 1
    congr 1
    funext x
    have : (decide (x ≠ r)) = (decide ((j.m.cmap j.bg).id x - 1 ≠ c)) := by
      rw [decide_eq_decide, ← (j.m.cnum j.bg).at_iff.mp hr]
      exact not_congr ⟨fun e => by rw [e], fun e => (j.m.cnum j.bg).id_inj e⟩
    simp only [Function.comp, ← this, Bool.decide_and, Bool.decide_eq_true]

theorem has_flat {α : Type} (fs : List α) (g : α → Option (List Nat)) (c x : Nat) :
    x ∈ (fs.flatMap fun p => ((g p).getD []).filter fun y => y ≠ c) ↔ x ≠ c ∧ ∃ p ∈ fs, Has (g p) x := by
  simp only [List.mem_flatMap, List.mem_filter, decide_eq_true_eq]
  constructor
  · rintro ⟨p, hp, hx, hne⟩
    refine ⟨hne, p, hp, ?_⟩
    cases hg : g p with
    | none => rw [hg] at hx; simp at hx
    | some l => rw [hg] at hx; exact ⟨l, rfl, hx⟩
  · rintro ⟨hne, p, hp, l, hl, hx⟩
    exact ⟨p, hp, by rw [hl]; exact hx, hne⟩

/-- **C106** two cells are neighbours across a face exactly if they are different and have a face in common -/
theorem face_adj_iff3 (j : JMesh) (h : j.Ready3) (c x : Nat) :
    Has (j.faceAdj3 c .ALL) x ↔ x ≠ c ∧ ∃ f, HasFst (j.cellFaces3 c) f ∧ HasFst (j.cellFaces3 x) f := by
  cases hfs : j.cellFaces3 c with
  | none =>
    constructor
    · rintro ⟨l, hl, _⟩
      cases hr : (j.m.rmap j.bg).at c with
      | none => simp [JMesh.faceAdj3, hr] at hl
      | some r => rw [cellFaces3_eq h hr] at hfs; cases hfs
    · rintro ⟨_, f, ⟨l, hl, _⟩, _⟩; cases hl
  | some fs =>
    have e := face_adj3 j h c .ALL fs hfs
    constructor
    · rintro ⟨l, hl, hx⟩
      rw [e] at hl
      rw [← Option.some.inj hl, has_flat] at hx
      obtain ⟨hne, ⟨f, d⟩, hp, hx⟩ := hx
      exact ⟨hne, f, ⟨fs, rfl, d, hp⟩, (faces_cells_agree3 j h x f).mpr hx⟩
    · rintro ⟨hne, f, ⟨l, hl, d, hd⟩, hx⟩
      cases Option.some.inj hl
      exact ⟨_, e, (has_flat _ _ _ _).mpr ⟨hne, (f, d), hd, (faces_cells_agree3 j h x f).mp hx⟩⟩

theorem face_adj_iff2 (j : JMesh) (h : j.Ready2) (c x : Nat) :
    Has (j.faceAdj2 c .ALL) x ↔ x ≠ c ∧ ∃ f, HasFst (j.cellFaces2 c) f ∧ HasFst (j.cellFaces2 x) f := by
  cases hfs : j.cellFaces2 c with
  | none =>
    constructor
    · rintro ⟨l, hl, _⟩
      cases hr : (j.m.cmap j.bg).at c with
      | none => simp [JMesh.faceAdj2, hr] at hl
      | some r => rw [cellFaces2_eq h hr] at hfs; cases hfs
    · rintro ⟨_, f, ⟨l, hl, _⟩, _⟩; cases hl
  | some fs =>
    have e := face_adj2 j h c .ALL fs hfs
    constructor
    · rintro ⟨l, hl, hx⟩
      rw [e] at hl
      rw [← Option.some.inj hl, has_flat] at hx
      obtain ⟨hne, ⟨f, d⟩, hp, hx⟩ := hx
      exact ⟨hne, f, ⟨fs, rfl, d, hp⟩, (faces_cells_agree2 j h x f).mpr hx⟩
    · rintro ⟨hne, f, ⟨l, hl, d, hd⟩, hx⟩
      cases Option.some.inj hl
      exact ⟨_, e, (has_flat _ _ _ _).mpr ⟨hne, (f, d), hd, (faces_cells_agree2 j h x f).mp hx⟩⟩

/-- **C106** being neighbours across a face is symmetric -/
theorem face_adj_symm (j : JMesh) (c x : Nat) :
    (j.Ready3 → (Has (j.faceAdj3 c .ALL) x ↔ Has (j.faceAdj3 x .ALL) c)) ∧
    (j.Ready2 → (Has (j.faceAdj2 c .ALL) x ↔ Has (j.faceAdj2 x .ALL) c)) := by
  constructor <;> intro h
  · rw [face_adj_iff3 j h, face_adj_iff3 j h]
    exact ⟨fun ⟨a, f, b, c⟩ => ⟨a.symm, f, c, b⟩, fun ⟨a, f, b, c⟩ => ⟨a.symm, f, c, b⟩⟩
  · rw [face_adj_iff2 j h, face_adj_iff2 j h]
    exact ⟨fun ⟨a, f, b, c⟩ => ⟨a.symm, f, c, b⟩, fun ⟨a, f, b, c⟩ => ⟨a.symm, f, c, b⟩⟩

/-! ### Neighbours across nodes -/

theorem nodeAdj_foldl {n : Nat} (self : Fin n) (ok : Fin n → Bool) (id : Fin n → Nat) (xs : List (Fin n)) :
    ∀ (s : List (Fin n)) (o : List Nat), s.Nodup → o = (s.filter ok).map (fun x => id x - 1) →
    (xs.foldl (nodeAdjStep self ok id) (s, o)).1.Nodup ∧
    (xs.foldl (nodeAdjStep self ok id) (s, o)).2 =
      ((xs.foldl (nodeAdjStep self ok id) (s, o)).1.filter ok).map (fun x => id x - 1) ∧
    ∀ x, x ∈ (xs.foldl (nodeAdjStep self ok id) (s, o)).1 ↔ x ∈ s ∨ (x ∈ xs ∧ x ≠ self) := by
  induction xs with
  | nil => intro s o hs ho; exact ⟨hs, ho, fun x => by simp⟩
  | cons a xs ih =>
    intro s o hs ho
    rw [List.foldl_cons]
    by_cases hc : a ≠ self ∧ a ∉ s
    · have e : nodeAdjStep self ok id (s, o) a = (s ++ [a], if ok a then o ++ [id a - 1] else o) := if_pos hc
      rw [e]
      have hs' : (s ++ [a]).Nodup := by
        rw [List.nodup_append]; refine ⟨hs, by simp, ?_⟩
        intro x hx y hy; simp at hy; subst hy; intro e; subst e; exact hc.2 hx
      have ho' : (if ok a then o ++ [id a - 1] else o) = ((s ++ [a]).filter ok).map (fun x => id x - 1) := by
        subst ho; by_cases hk : ok a = true <;> simp [hk, List.filter_append]
      obtain ⟨h1, h2, h3⟩ := ih _ _ hs' ho'
      refine ⟨h1, h2, fun x => ?_⟩
      rw [h3]
      simp only [List.mem_append, List.mem_cons, List.not_mem_nil, or_false]
      constructor
      · rintro ((h | rfl) | h)
        · exact Or.inl h
        · exact Or.inr ⟨Or.inl rfl, hc.1⟩
        · exact Or.inr ⟨Or.inr h.1, h.2⟩
      · rintro (h | ⟨rfl | h, h'⟩)
        · exact Or.inl (Or.inl h)
        · exact Or.inl (Or.inr rfl)
        · exact Or.inr ⟨h, h'⟩
    · have e : nodeAdjStep self ok id (s, o) a = (s, o) := if_neg hc
      rw [e]
      obtain ⟨h1, h2, h3⟩ := ih s o hs ho
      refine ⟨h1, h2, fun x => ?_⟩
      rw [h3]
      simp only [List.mem_cons]
      constructor
      · rintro (h | h)
        · exact Or.inl h
        · exact Or.inr ⟨Or.inr h.1, h.2⟩
      · rintro (h | ⟨rfl | h, h'⟩)
        · exact Or.inl h
        · exact Or.inl (by by_contra hs; exact hc ⟨h', hs⟩)
        · exact Or.inr ⟨h, h'⟩

theorem has_nodeAdj3 (j : JMesh) (c x : Nat) (ty : EntityType) : Has (j.nodeAdj3 c ty) x ↔
    ∃ r r2, (j.m.rmap j.bg).at c = some r ∧ (j.m.rmap j.bg).at x = some r2 ∧ r2 ≠ r ∧
      (∃ v, v ∈ j.m.mrVertices (j.m.region r) ∧ v ∈ j.m.mrVertices (j.m.region r2)) ∧
      passes ty (j.m.region r2).ptype = true := by
  unfold JMesh.nodeAdj3 Has
  have key : ∀ r x, x ∈ (((j.m.mrVertices (j.m.region r)).flatMap j.m.mvRegions).foldl
      (nodeAdjStep r (fun r2 => passes ty (j.m.region r2).ptype) (j.m.rmap j.bg).id) ([], [])).2 ↔
      ∃ r2, (j.m.rmap j.bg).at x = some r2 ∧ r2 ≠ r ∧
      (∃ v, v ∈ j.m.mrVertices (j.m.region r) ∧ v ∈ j.m.mrVertices (j.m.region r2)) ∧
      passes ty (j.m.region r2).ptype = true := by
    intro r x
    obtain ⟨_, h2, h3⟩ := nodeAdj_foldl r (fun r2 => passes ty (j.m.region r2).ptype) (j.m.rmap j.bg).id
      ((j.m.mrVertices (j.m.region r)).flatMap j.m.mvRegions) [] [] List.nodup_nil rfl
    rw [h2, mem_map_id (j.m.rnum j.bg)]
    constructor
    · rintro ⟨r2, hr2, hm⟩
      rw [List.mem_filter, h3] at hm
      obtain ⟨hm | ⟨hm, hne⟩, hp⟩ := hm
      · cases hm
      · rw [List.mem_flatMap] at hm
        obtain ⟨v, hv, hm⟩ := hm
        simp only [MMesh.mvRegions, List.mem_filter, List.mem_finRange, true_and, decide_eq_true_eq] at hm
        exact ⟨r2, hr2, hne, ⟨v, hv, hm⟩, hp⟩
    · rintro ⟨r2, hr2, hne, ⟨v, hv, hv2⟩, hp⟩
      refine ⟨r2, hr2, ?_⟩
      rw [List.mem_filter, h3, List.mem_flatMap]
      exact ⟨Or.inr ⟨⟨v, hv, by simp [MMesh.mvRegions, hv2]⟩, hne⟩, hp⟩
  constructor
  · rintro ⟨l, hl, hx⟩
    rw [Option.map_eq_some_iff] at hl
    obtain ⟨r, hr, rfl⟩ := hl
    obtain ⟨r2, a, b, c, d⟩ := (key r x).mp hx
    exact ⟨r, r2, hr, a, b, c, d⟩
  · rintro ⟨r, r2, hr, a, b, c, d⟩
    exact ⟨_, by rw [hr]; rfl, (key r x).mpr ⟨r2, a, b, c, d⟩⟩

theorem has_nodeAdj2 (j : JMesh) (c x : Nat) (ty : EntityType) : Has (j.nodeAdj2 c ty) x ↔
    ∃ r r2, (j.m.cmap j.bg).at c = some r ∧ (j.m.cmap j.bg).at x = some r2 ∧ r2 ≠ r ∧
      (∃ v, v ∈ j.m.mfVertices (j.m.face r) true ∧ v ∈ j.m.mfVertices (j.m.face r2) true) ∧
      passes ty (j.m.face r2).ptype = true := by
  unfold JMesh.nodeAdj2 Has
  have key : ∀ r x, x ∈ (((j.m.mfVertices (j.m.face r) true).flatMap j.m.mvFaces).foldl
      (nodeAdjStep r (fun r2 => passes ty (j.m.face r2).ptype) (j.m.cmap j.bg).id) ([], [])).2 ↔
      ∃ r2, (j.m.cmap j.bg).at x = some r2 ∧ r2 ≠ r ∧
      (∃ v, v ∈ j.m.mfVertices (j.m.face r) true ∧ v ∈ j.m.mfVertices (j.m.face r2) true) ∧
      passes ty (j.m.face r2).ptype = true := by
    intro r x
    obtain ⟨_, h2, h3⟩ := nodeAdj_foldl r (fun r2 => passes ty (j.m.face r2).ptype) (j.m.cmap j.bg).id
      ((j.m.mfVertices (j.m.face r) true).flatMap j.m.mvFaces) [] [] List.nodup_nil rfl
    rw [h2, mem_map_id (j.m.cnum j.bg)]
    constructor
    · rintro ⟨r2, hr2, hm⟩
      rw [List.mem_filter, h3] at hm
      obtain ⟨hm | ⟨hm, hne⟩, hp⟩ := hm
      · cases hm
      · rw [List.mem_flatMap] at hm
        obtain ⟨v, hv, hm⟩ := hm
        simp only [MMesh.mvFaces, List.mem_filter, List.mem_finRange, true_and, decide_eq_true_eq] at hm
        exact ⟨r2, hr2, hne, ⟨v, hv, hm⟩, hp⟩
    · rintro ⟨r2, hr2, hne, ⟨v, hv, hv2⟩, hp⟩
      refine ⟨r2, hr2, ?_⟩
      rw [List.mem_filter, h3, List.mem_flatMap]
      exact ⟨Or.inr ⟨⟨v, hv, by simp [MMesh.mvFaces, hv2]⟩, hne⟩, hp⟩
  constructor
  · rintro ⟨l, hl, hx⟩
    rw [Option.map_eq_some_iff] at hl
    obtain ⟨r, hr, rfl⟩ := hl
    obtain ⟨r2, a, b, c, d⟩ := (key r x).mp hx
    exact ⟨r, r2, hr, a, b, c, d⟩
  · rintro ⟨r, r2, hr, a, b, c, d⟩
    exact ⟨_, by rw [hr]; rfl, (key r x).mpr ⟨r2, a, b, c, d⟩⟩

/-- **C106** two cells are neighbours across a node exactly if they are different and have a node in common -/
theorem node_adj_iff3 (j : JMesh) (c x : Nat) :
    Has (j.nodeAdj3 c .ALL) x ↔ x ≠ c ∧ ∃ n, Has (j.cellNodes3 c) n ∧ Has (j.cellNodes3 x) n := by
  rw [has_nodeAdj3]
  simp only [has_cellNodes3]
  constructor
  · rintro ⟨r, r2, hr, hr2, hne, ⟨v, hv, hv2⟩, _⟩
    refine ⟨fun e => ?_, j.m.vmap.id v - 1, ⟨r, v, hr, j.m.vnum.at_id v, hv⟩, ⟨r2, v, hr2, j.m.vnum.at_id v, hv2⟩⟩
    subst e; exact hne (Option.some.inj (hr2.symm.trans hr))
  · rintro ⟨hne, n, ⟨r, v, hr, hv, hm⟩, ⟨r2, v2, hr2, hv2, hm2⟩⟩
    cases Option.some.inj (hv.symm.trans hv2)
    refine ⟨r, r2, hr, hr2, ?_, ⟨v, hm, hm2⟩, passes_ALL _⟩
    rintro rfl
    exact hne (by rw [← (j.m.rnum j.bg).at_iff.mp hr, ← (j.m.rnum j.bg).at_iff.mp hr2])

theorem node_adj_iff2 (j : JMesh) (c x : Nat) :
    Has (j.nodeAdj2 c .ALL) x ↔ x ≠ c ∧ ∃ n, Has (j.cellNodes2 c) n ∧ Has (j.cellNodes2 x) n := by
  rw [has_nodeAdj2]
  simp only [has_cellNodes2]
  constructor
  · rintro ⟨r, r2, hr, hr2, hne, ⟨v, hv, hv2⟩, _⟩
    refine ⟨fun e => ?_, j.m.vmap.id v - 1, ⟨r, v, hr, j.m.vnum.at_id v, hv⟩, ⟨r2, v, hr2, j.m.vnum.at_id v, hv2⟩⟩
    subst e; exact hne (Option.some.inj (hr2.symm.trans hr))
  · rintro ⟨hne, n, ⟨r, v, hr, hv, hm⟩, ⟨r2, v2, hr2, hv2, hm2⟩⟩
    cases Option.some.inj (hv.symm.trans hv2)
    refine ⟨r, r2, hr, hr2, ?_, ⟨v, hm, hm2⟩, passes_ALL _⟩
    rintro rfl
    exact hne (by rw [← (j.m.cnum j.bg).at_iff.mp hr, ← (j.m.cnum j.bg).at_iff.mp hr2])

/-- **C106** no neighbour across a node is listed twice -/
theorem node_adj_listed_once (j : JMesh) (c : Nat) (ty : EntityType) :
    (∀ l, j.nodeAdj3 c ty = some l → l.Nodup) ∧ (∀ l, j.nodeAdj2 c ty = some l → l.Nodup) := by
  constructor
  · intro l hl
    unfold JMesh.nodeAdj3 at hl
    rw [Option.map_eq_some_iff] at hl
    obtain ⟨r, _, rfl⟩ := hl
    obtain ⟨h1, h2, _⟩ := nodeAdj_foldl r (fun r2 => passes ty (j.m.region r2).ptype) (j.m.rmap j.bg).id
      ((j.m.mrVertices (j.m.region r)).flatMap j.m.mvRegions) [] [] List.nodup_nil rfl
    rw [h2]
    exact nodup_map_id (j.m.rnum j.bg) (h1.filter _)
  · intro l hl
    unfold JMesh.nodeAdj2 at hl
    rw [Option.map_eq_some_iff] at hl
    obtain ⟨r, _, rfl⟩ := hl
    obtain ⟨h1, h2, _⟩ := nodeAdj_foldl r (fun r2 => passes ty (j.m.face r2).ptype) (j.m.cmap j.bg).id
      ((j.m.mfVertices (j.m.face r) true).flatMap j.m.mvFaces) [] [] List.nodup_nil rfl
    rw [h2]
    exact nodup_map_id (j.m.cnum j.bg) (h1.filter _)

/-- **C106** neighbours of a type (no boundary ghosts): those in the list of that type -/
theorem adj_types_partial (j : JMesh) (hbg : j.bg = false) (c : Nat) :
    TypeSplit (fun ty => j.nodeAdj3 c ty) (j.m.cellIds3 j.bg) ∧ TypeSplit (fun ty => j.nodeAdj2 c ty) (j.m.cellIds2 j.bg) ∧
    (j.Ready3 → TypeSplit (fun ty => j.faceAdj3 c ty) (j.m.cellIds3 j.bg)) ∧
    (j.Ready2 → TypeSplit (fun ty => j.faceAdj2 c ty) (j.m.cellIds2 j.bg)) := by
  have N3 := names_cells3 j.m
  have N2 := names_cells2 j.m
  rw [← hbg] at N3 N2
  refine ⟨?_, ?_, fun h => ?_, fun h => ?_⟩
  · refine typeSplit_of _ _ _ _ (fun r2 => ∃ r, (j.m.rmap j.bg).at c = some r ∧ r2 ≠ r ∧
      (∃ v, v ∈ j.m.mrVertices (j.m.region r) ∧ v ∈ j.m.mrVertices (j.m.region r2))) ?_ N3
    intro ty x; rw [has_nodeAdj3]
    exact ⟨fun ⟨r, r2, a, b, c, d, e⟩ => ⟨r2, b, ⟨r, a, c, d⟩, e⟩, fun ⟨r2, b, ⟨r, a, c, d⟩, e⟩ => ⟨r, r2, a, b, c, d, e⟩⟩
  · refine typeSplit_of _ _ _ _ (fun r2 => ∃ r, (j.m.cmap j.bg).at c = some r ∧ r2 ≠ r ∧
      (∃ v, v ∈ j.m.mfVertices (j.m.face r) true ∧ v ∈ j.m.mfVertices (j.m.face r2) true)) ?_ N2
    intro ty x; rw [has_nodeAdj2]
    exact ⟨fun ⟨r, r2, a, b, c, d, e⟩ => ⟨r2, b, ⟨r, a, c, d⟩, e⟩, fun ⟨r2, b, ⟨r, a, c, d⟩, e⟩ => ⟨r, r2, a, b, c, d, e⟩⟩
  · cases hr : (j.m.rmap j.bg).at c with
    | none =>
      have e : ∀ ty x, ¬ Has (j.faceAdj3 c ty) x := by
        rintro ty x ⟨l, hl, _⟩; simp [JMesh.faceAdj3, hr] at hl
      exact ⟨fun x => ⟨fun h => absurd h (e _ _), fun h => absurd h.1 (e _ _)⟩,
        fun x => ⟨fun h => absurd h (e _ _), fun h => absurd h.1 (e _ _)⟩,
        fun x => ⟨fun h => absurd h (e _ _), fun h => absurd h.1 (e _ _)⟩⟩
    | some r =>
      refine typeSplit_of _ _ _ _ (fun r2 => ∃ f d, (f, d) ∈ ((j.m.region r).faces.map fun p =>
        (j.m.fmap.id p.1 - 1, flipDir j.faceflip (j.m.fmap.id p.1 - 1) p.2)) ∧
        (j.m.rmap j.bg).id r2 - 1 ≠ c ∧ ∃ fh, j.m.fmap.at f = some fh ∧ fh ∈ (j.m.region r2).mrFaces) ?_ N3
      intro ty x
      have e := face_adj3 j h c ty _ (cellFaces3_eq h hr)
      constructor
      · rintro ⟨l, hl, hx⟩
        rw [e] at hl
        rw [← Option.some.inj hl, has_flat] at hx
        obtain ⟨hne, ⟨f, d⟩, hp, hx⟩ := hx
        obtain ⟨r2, fh, a, b, m, p⟩ := (has_faceCells3 h.faces f x ty).mp hx
        exact ⟨r2, a, ⟨f, d, hp, by rw [(j.m.rnum j.bg).at_iff.mp a]; exact hne, fh, b, m⟩, p⟩
      · rintro ⟨r2, a, ⟨f, d, hp, hne, fh, b, m⟩, p⟩
        refine ⟨_, e, (has_flat _ _ _ _).mpr ⟨?_, (f, d), hp, (has_faceCells3 h.faces f x ty).mpr ⟨r2, fh, a, b, m, p⟩⟩⟩
        rw [(j.m.rnum j.bg).at_iff.mp a] at hne; exact hne
  · cases hr : (j.m.cmap j.bg).at c with
    | none =>
      have e : ∀ ty x, ¬ Has (j.faceAdj2 c ty) x := by
        rintro ty x ⟨l, hl, _⟩; simp [JMesh.faceAdj2, hr] at hl
      exact ⟨fun x => ⟨fun h => absurd h (e _ _), fun h => absurd h.1 (e _ _)⟩,
        fun x => ⟨fun h => absurd h (e _ _), fun h => absurd h.1 (e _ _)⟩,
        fun x => ⟨fun h => absurd h (e _ _), fun h => absurd h.1 (e _ _)⟩⟩
    | some r =>
      refine typeSplit_of _ _ _ _ (fun r2 => ∃ f d, (f, d) ∈ ((j.m.face r).edges.map fun p =>
        (j.m.emap.id p.1 - 1, flipDir j.faceflip (j.m.emap.id p.1 - 1) p.2)) ∧
        (j.m.cmap j.bg).id r2 - 1 ≠ c ∧ ∃ fh, j.m.emap.at f = some fh ∧ fh ∈ (j.m.face r2).mfEdges true) ?_ N2
      intro ty x
      have e := face_adj2 j h c ty _ (cellFaces2_eq h hr)
      constructor
      · rintro ⟨l, hl, hx⟩
        rw [e] at hl
        rw [← Option.some.inj hl, has_flat] at hx
        obtain ⟨hne, ⟨f, d⟩, hp, hx⟩ := hx
        obtain ⟨r2, fh, a, b, m, p⟩ := (has_faceCells2 h.faces f x ty).mp hx
        exact ⟨r2, a, ⟨f, d, hp, by rw [(j.m.cnum j.bg).at_iff.mp a]; exact hne, fh, b, m⟩, p⟩
      · rintro ⟨r2, a, ⟨f, d, hp, hne, fh, b, m⟩, p⟩
        refine ⟨_, e, (has_flat _ _ _ _).mpr ⟨?_, (f, d), hp, (has_faceCells2 h.faces f x ty).mpr ⟨r2, fh, a, b, m, p⟩⟩⟩
        rw [(j.m.cnum j.bg).at_iff.mp a] at hne; exact hne

example : sample2.Ready2 ∧ sample2.bg = false ∧ sample2.faceAdj2 0 .ALL = some [1] ∧ sample2.faceAdj2 1 .PARALLEL_OWNED = some [0] ∧
    sample2.nodeAdj2 0 .ALL = some [1] ∧ sample2.nodeAdj2 0 .PARALLEL_OWNED = some [] ∧
    sample3.faceAdj3 0 .ALL = some [1] ∧ sample3.nodeAdj3 1 .ALL = some [0] := by
  refine ⟨⟨rfl, rfl⟩, rfl, ?_, ?_, ?_, ?_, ?_, ?_⟩ <;> decide +kernel

/-- two triangles with all three edges in common (a pillow) -/
def pillow : JMesh where
  m := { nv := 3, ne := 3, nf := 2, nr := 0,
         vtx := fun i => ⟨.interior, i + 1⟩
         edge := ![⟨.interior, 1, 0, 1, false⟩, ⟨.interior, 2, 1, 2, false⟩, ⟨.interior, 3, 2, 0, false⟩]
         face := ![⟨.interior, 1, [(0, true), (1, true), (2, true)], false, false⟩,
           ⟨.interior, 2, [(2, false), (1, false), (0, false)], false, false⟩]
         region := fun i => i.elim0 }
  faces := true
  edges := true
  bg := false
  serial := true
  faceflip := [false, false, false]
  edgeflip := [false, false, false]

/-- a cell that shares several faces with the same neighbour lists it once for each of them -/
theorem face_adj_repeats : ∃ (j : JMesh) (c : Nat) (l : List Nat), j.Ready2 ∧ j.faceAdj2 c .ALL = some l ∧ ¬ l.Nodup := by
  refine ⟨pillow, 0, [1, 1, 1], ⟨rfl, rfl⟩, ?_, ?_⟩ <;> decide +kernel

end Jali.Mstk
