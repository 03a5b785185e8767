import Verif.Proof.MstkCells
import Verif.Props.MstkDirs
/-
C109: faces of a cell in standard order. C110: types of cells (mesh of MSTK).
-/
namespace Jali.Mstk

/-! ### What the type says about the faces -/

theorem celltype_cases (m : MMesh) (r : Region m.nf) (hs : isStandard (m.regionCelltype r) = true) :
    (m.regionCelltype r = .TET ∧ r.faces.length = 4) ∨
    (m.regionCelltype r = .PYRAMID ∧ r.faces.length = 5 ∧ m.numQuads r = 1) ∨
    (m.regionCelltype r = .PRISM ∧ r.faces.length = 5 ∧ m.numQuads r = 3) ∨
    (m.regionCelltype r = .HEX ∧ r.faces.length = 6 ∧ m.numQuads r = 6) := by
  unfold MMesh.regionCelltype at hs ⊢
  by_cases h4 : r.faces.length = 4
  · rw [if_pos h4]; exact Or.inl ⟨rfl, h4⟩
  · rw [if_neg h4] at hs ⊢
    by_cases h5 : r.faces.length = 5
    · rw [if_pos h5] at hs ⊢
      by_cases q1 : m.numQuads r = 1
      · rw [if_pos q1]; exact Or.inr (Or.inl ⟨rfl, h5, q1⟩)
      · rw [if_neg q1] at hs ⊢
        by_cases q3 : m.numQuads r = 3
        · rw [if_pos q3]; exact Or.inr (Or.inr (Or.inl ⟨rfl, h5, q3⟩))
        · rw [if_neg q3] at hs; cases hs
    · rw [if_neg h5] at hs ⊢
      by_cases h6 : r.faces.length = 6
      · rw [if_pos h6] at hs ⊢
        by_cases q6 : m.numQuads r = 6
        · rw [if_pos q6]; exact Or.inr (Or.inr (Or.inr ⟨rfl, h6, q6⟩))
        · rw [if_neg q6] at hs; cases hs
      · rw [if_neg h6] at hs; cases hs

/-- faces of standard cells are triangles or quadrilaterals -/
theorem three_or_four {m : MMesh} {r : Region m.nf} (hc : m.ClosedCell r) (hs : isStandard (m.regionCelltype r) = true) :
    ∀ p ∈ r.faces, (m.face p.1).edges.length = 3 ∨ (m.face p.1).edges.length = 4 := by
  intro p hp
  have h1 := hc.three p hp
  have h2 := edges_lt_faces hc hp
  rcases celltype_cases m r hs with h | h | h | h
  · omega
  · omega
  · omega
  · have h6 := h.2.2
    rw [numQuads_eq] at h6
    right
    have hall := List.length_filter_eq_length_iff.mp (h6.trans h.2.1.symm) p hp
    simpa using hall

theorem base_found {m : MMesh} {r : Region m.nf} (hc : m.ClosedCell r) (hs : isStandard (m.regionCelltype r) = true) :
    ∃ b, m.baseFace r (m.regionCelltype r) = some b ∧ b ∈ r.faces ∧
      ((m.regionCelltype r = .TET ∧ r.faces.head? = some b ∧ (m.face b.1).edges.length = 3 ∧ r.faces.length = 4) ∨
       (m.regionCelltype r = .PYRAMID ∧ (m.face b.1).edges.length = 4 ∧ r.faces.length = 5) ∨
       (m.regionCelltype r = .PRISM ∧ (m.face b.1).edges.length = 3 ∧ r.faces.length = 5) ∨
       (m.regionCelltype r = .HEX ∧ r.faces.head? = some b ∧ (m.face b.1).edges.length = 4 ∧ r.faces.length = 6)) := by
  have h34 := three_or_four hc hs
  rcases celltype_cases m r hs with h | h | h | h
  · have hlt : 0 < r.faces.length := by omega
    refine ⟨r.faces[0], ?_, List.getElem_mem hlt, Or.inl ⟨h.1, ?_, ?_, h.2⟩⟩
    · rw [h.1]; unfold MMesh.baseFace; exact List.getElem?_eq_getElem hlt
    · rw [List.head?_eq_getElem?]; exact List.getElem?_eq_getElem hlt
    · have h1 := hc.three _ (List.getElem_mem hlt)
      have h2 := edges_lt_faces hc (List.getElem_mem hlt)
      omega
  · rw [h.1]
    unfold MMesh.baseFace
    have ht : r.faces.take 5 = r.faces := List.take_of_length_le (by omega)
    dsimp only
    rw [ht]
    cases hf : r.faces.find? fun p => (m.face p.1).edges.length = 4 with
    | none =>
      rw [List.find?_eq_none] at hf
      have h1 := h.2.2
      rw [numQuads_eq, List.filter_eq_nil_iff.mpr hf] at h1
      cases h1
    | some b =>
      have h3 := List.find?_some hf
      exact ⟨b, rfl, List.mem_of_find?_eq_some hf, Or.inr (Or.inl ⟨rfl, by simpa using h3, h.2.1⟩)⟩
  · rw [h.1]
    unfold MMesh.baseFace
    have ht : r.faces.take 5 = r.faces := List.take_of_length_le (by omega)
    dsimp only
    rw [ht]
    cases hf : r.faces.find? fun p => (m.face p.1).edges.length = 3 with
    | none =>
      rw [List.find?_eq_none] at hf
      have h1 := h.2.2
      rw [numQuads_eq] at h1
      have : (r.faces.filter fun p => (m.face p.1).edges.length = 4) = r.faces := by
        rw [List.filter_eq_self]
        intro p hp
        have := hf p hp
        rcases h34 p hp with e | e
        · exact absurd e (by simpa using this)
        · simpa using e
      rw [this] at h1; omega
    | some b =>
      have h3 := List.find?_some hf
      exact ⟨b, rfl, List.mem_of_find?_eq_some hf, Or.inr (Or.inr (Or.inl ⟨rfl, by simpa using h3, h.2.1⟩))⟩
  · have hlt : 0 < r.faces.length := by omega
    refine ⟨r.faces[0], ?_, List.getElem_mem hlt, Or.inr (Or.inr (Or.inr ⟨h.1, ?_, ?_, h.2.1⟩))⟩
    · rw [h.1]; unfold MMesh.baseFace; exact List.getElem?_eq_getElem hlt
    · rw [List.head?_eq_getElem?]; exact List.getElem?_eq_getElem hlt
    · have h6 := h.2.2
      rw [numQuads_eq] at h6
      have hall := List.length_filter_eq_length_iff.mp (h6.trans h.2.1.symm) _ (List.getElem_mem hlt)
      simpa using hall

/-- the face with its direction, as the user sees it -/
def JMesh.faceShown (j : JMesh) (p : Fin j.m.nf × Bool) : Nat × Int :=
  (j.m.fmap.id p.1 - 1, flipDir j.faceflip (j.m.fmap.id p.1 - 1) p.2)

/-- **C109** the shape of the ordered list of a cell of a standard type: the faces round the base, one for each edge of the
base in the order of the edges, seen from inside; the base; the top, which does not touch the base -/
theorem ordered_faces (j : JMesh) (h : j.Ready3) (c : Nat) (r : Fin j.m.nr) (hr : (j.m.rmap j.bg).at c = some r)
    (hc : j.m.ClosedCell (j.m.region r)) (ct : CellType) (hct : j.cellType3 c = some ct)
    (hstd : ct = .TET ∨ ct = .PYRAMID ∨ ct = .PRISM ∨ ct = .HEX) :
    ∃ (lat : List (Fin j.m.nf × Bool)) (b : Fin j.m.nf × Bool) (top : List (Fin j.m.nf × Bool)),
      j.cellFacesOrdered3 c = some ((lat ++ [b] ++ top).map j.faceShown) ∧
      (lat ++ [b] ++ top).Perm (j.m.region r).faces ∧
      -- which face is the base
      (ct = .TET ∨ ct = .HEX → (j.m.region r).faces.head? = some b) ∧
      (j.m.face b.1).edges.length = (if ct = .TET ∨ ct = .PRISM then 3 else 4) ∧
      -- round the base
      lat.length = (j.m.face b.1).edges.length ∧
      (∀ (i : Nat) (e : Fin j.m.ne), ((j.m.face b.1).mfEdges (!b.2))[i]? = some e →
        ∃ p, lat[i]? = some p ∧ e ∈ (j.m.face p.1).edges.map Prod.fst) ∧
      -- opposite the base
      top.length = (if ct = .PRISM ∨ ct = .HEX then 1 else 0) ∧
      (∀ t ∈ top, ∀ e ∈ (j.m.face b.1).edges.map Prod.fst, e ∉ (j.m.face t.1).edges.map Prod.fst) := by
  have hctr : j.m.regionCelltype (j.m.region r) = ct := by
    unfold JMesh.cellType3 at hct; rw [hr, Option.map_some] at hct; exact Option.some.inj hct
  have hs : isStandard (j.m.regionCelltype (j.m.region r)) = true := by
    rw [hctr]; rcases hstd with rfl | rfl | rfl | rfl <;> rfl
  obtain ⟨b, hb, hbm, hcases⟩ := base_found hc hs
  have hn : (j.m.region r).faces.length ≤ (j.m.face b.1).edges.length + 2 := by
    rcases hcases with x | x | x | x <;> omega
  obtain ⟨hperm, htop⟩ := orderFaces_perm hc hbm hn
  obtain ⟨P, h1, h2, _, _, _⟩ := lateral_eq hc hbm
  refine ⟨j.m.lateral (j.m.region r) b, b, (j.m.topFace (j.m.region r) b).toList, ?_, hperm, ?_, ?_, ?_, ?_, ?_, ?_⟩
  · unfold JMesh.cellFacesOrdered3
    rw [if_pos h.faces, hr, Option.bind_some, if_pos hs, hb, Option.bind_some]
    dsimp only
    rw [if_pos hperm.length_eq]
    apply mapM_total
    intro p _
    rw [flipped_total (by rw [h.flips]; exact j.m.fnum.id_lt p.1)]
    rfl
  · intro hh
    rw [hctr] at hcases
    rcases hcases with x | x | x | x
    · exact x.2.1
    · rcases hh with rfl | rfl <;> exact absurd x.1 (by decide)
    · rcases hh with rfl | rfl <;> exact absurd x.1 (by decide)
    · exact x.2.1
  · rw [hctr] at hcases
    rcases hcases with ⟨rfl, x⟩ | ⟨rfl, x⟩ | ⟨rfl, x⟩ | ⟨rfl, x⟩
    · exact x.2.1
    · exact x.1
    · exact x.1
    · exact x.2.1
  · rw [h1, List.length_map, length_mfEdges]
  · intro i e he
    refine ⟨P e, by rw [h1, List.getElem?_map, he]; rfl, ?_⟩
    have : e ∈ (j.m.face b.1).edges.map Prod.fst := (mem_mfEdges _ _ _).mp (List.mem_of_getElem? he)
    exact (h2 e this).2.2
  · rw [hctr] at hcases
    rcases htop with ⟨t1, t2⟩ | ⟨t, t1, t2, _⟩
    · rw [t1]
      rcases hcases with ⟨rfl, x⟩ | ⟨rfl, x⟩ | ⟨rfl, x⟩ | ⟨rfl, x⟩
      · rfl
      · rfl
      · omega
      · omega
    · rw [t1]
      rcases hcases with ⟨rfl, x⟩ | ⟨rfl, x⟩ | ⟨rfl, x⟩ | ⟨rfl, x⟩
      · omega
      · omega
      · rfl
      · rfl
  · intro t ht e he
    rcases htop with ⟨t1, t2⟩ | ⟨t', t1, t2, t3⟩
    · rw [t1] at ht; cases ht
    · rw [t1, Option.toList_some, List.mem_singleton] at ht
      subst ht
      exact t3 e he

/-- **C109** the ordered list has the same faces with the same directions as the unordered one, for every cell -/
theorem ordered_perm (j : JMesh) (h : j.Ready3) (hc : ∀ r, isStandard (j.m.regionCelltype (j.m.region r)) = true →
    j.m.ClosedCell (j.m.region r)) (c : Nat) (hlt : c < j.m.nr) :
    ∃ o u, j.cellFacesOrdered3 c = some o ∧ j.cellFaces3 c = some u ∧ o.Perm u := by
  obtain ⟨r, hr⟩ := (j.m.rnum j.bg).at_some hlt
  by_cases hs : isStandard (j.m.regionCelltype (j.m.region r)) = true
  · have hct : j.cellType3 c = some (j.m.regionCelltype (j.m.region r)) := by
      unfold JMesh.cellType3; rw [hr]; rfl
    have hstd : ∀ ct : CellType, isStandard ct = true → ct = .TET ∨ ct = .PYRAMID ∨ ct = .PRISM ∨ ct = .HEX := by
      intro ct hct; cases ct <;> simp_all [isStandard]
    obtain ⟨lat, b, top, h1, h2, _⟩ := ordered_faces j h c r hr (hc r hs) _ hct (hstd _ hs)
    exact ⟨_, _, h1, cellFaces3_eq h hr, h2.map _⟩
  · refine ⟨_, _, ?_, cellFaces3_eq h hr, List.Perm.refl _⟩
    unfold JMesh.cellFacesOrdered3
    rw [if_pos h.faces, hr, Option.bind_some, if_neg hs]
    exact cellFaces3_eq h hr

/-! ### Types -/

/-- the numbers of faces, edges and nodes of a cell -/
def JMesh.counts (j : JMesh) (c : Nat) : Option (Nat × Nat × Nat) := do
  let f ← j.cellFaces3 c
  let e ← j.cellEdges3 c
  let n ← j.cellNodes3 c
  return (f.length, e.length, n.length)

/-- **C110** a cell called tetrahedron, pyramid, prism or hexahedron has the numbers of faces, edges and nodes of one; its
surface is closed and satisfies Euler's formula (as that of any cell without holes) -/
theorem type_counts (j : JMesh) (h : j.Ready3) (he : j.edges = true) (c : Nat) (r : Fin j.m.nr)
    (hr : (j.m.rmap j.bg).at c = some r) (hc : j.m.ClosedCell (j.m.region r))
    (nf ne nn : Nat) (hn : j.counts c = some (nf, ne, nn)) (euler : nn + nf = ne + 2) :
    (j.cellType3 c = some .TET → (nf, ne, nn) = (4, 6, 4)) ∧
    (j.cellType3 c = some .PYRAMID → (nf, ne, nn) = (5, 8, 5)) ∧
    (j.cellType3 c = some .PRISM → (nf, ne, nn) = (5, 9, 6)) ∧
    (j.cellType3 c = some .HEX → (nf, ne, nn) = (6, 12, 8)) := by
  have e1 : j.cellEdges3 c = some ((j.m.mrEdges (j.m.region r)).map fun e => j.m.emap.id e - 1) := by
    unfold JMesh.cellEdges3; rw [if_pos he, hr]; rfl
  have e2 : j.cellNodes3 c = some ((j.m.mrVertices (j.m.region r)).map fun v => j.m.vmap.id v - 1) := by
    unfold JMesh.cellNodes3; rw [hr]; rfl
  have e3 : j.cellType3 c = some (j.m.regionCelltype (j.m.region r)) := by
    unfold JMesh.cellType3; rw [hr]; rfl
  unfold JMesh.counts at hn
  rw [cellFaces3_eq h hr, e1, e2] at hn
  simp only [Option.bind_eq_bind, Option.bind_some, Option.pure_def, Option.some.injEq, Prod.mk.injEq, List.length_map] at hn
  obtain ⟨n1, n2, n3⟩ := hn
  have hsum := sum_edges hc
  rw [e3]
  have main : isStandard (j.m.regionCelltype (j.m.region r)) = true → 3 * nf + j.m.numQuads (j.m.region r) = 2 * ne := by
    intro hs
    rw [sum_three_four _ (three_or_four hc hs), ← numQuads_eq] at hsum
    rw [← n1, ← n2]; exact hsum
  refine ⟨?_, ?_, ?_, ?_⟩
  · intro ht
    have ht := Option.some.inj ht
    have hm := main (by rw [ht]; rfl)
    rcases celltype_cases _ _ (by rw [ht]; rfl) with x | x | x | x
    · -- all faces are triangles
      have q0 : j.m.numQuads (j.m.region r) = 0 := by
        rw [numQuads_eq, List.length_eq_zero_iff, List.filter_eq_nil_iff]
        intro p hp
        have := edges_lt_faces hc hp
        have := x.2
        simp only [decide_eq_true_eq]
        omega
      rw [Prod.mk.injEq, Prod.mk.injEq]
      have := x.2
      omega
    all_goals rw [ht] at x; exact absurd x.1 (by decide)
  · intro ht
    have ht := Option.some.inj ht
    have hm := main (by rw [ht]; rfl)
    rcases celltype_cases _ _ (by rw [ht]; rfl) with x | x | x | x
    · rw [ht] at x; exact absurd x.1 (by decide)
    · rw [Prod.mk.injEq, Prod.mk.injEq]; have := x.2; omega
    all_goals rw [ht] at x; exact absurd x.1 (by decide)
  · intro ht
    have ht := Option.some.inj ht
    have hm := main (by rw [ht]; rfl)
    rcases celltype_cases _ _ (by rw [ht]; rfl) with x | x | x | x
    · rw [ht] at x; exact absurd x.1 (by decide)
    · rw [ht] at x; exact absurd x.1 (by decide)
    · rw [Prod.mk.injEq, Prod.mk.injEq]; have := x.2; omega
    · rw [ht] at x; exact absurd x.1 (by decide)
  · intro ht
    have ht := Option.some.inj ht
    have hm := main (by rw [ht]; rfl)
    rcases celltype_cases _ _ (by rw [ht]; rfl) with x | x | x | x
    · rw [ht] at x; exact absurd x.1 (by decide)
    · rw [ht] at x; exact absurd x.1 (by decide)
    · rw [ht] at x; exact absurd x.1 (by decide)
    · rw [Prod.mk.injEq, Prod.mk.injEq]; have := x.2; omega

/-- **C110** the type is decided by the faces: how many there are and how many of them are quadrilaterals -/
theorem type_by_faces (j : JMesh) (h : j.Ready3) (c : Nat) (r : Fin j.m.nr) (hr : (j.m.rmap j.bg).at c = some r)
    (hc : j.m.ClosedCell (j.m.region r)) (fs : List (Nat × Int)) (hfs : j.cellFaces3 c = some fs) :
    let quad : Nat × Int → Bool := fun p => ((j.faceNodes3 p.1).getD []).length = 4
    let tri : Nat × Int → Bool := fun p => ((j.faceNodes3 p.1).getD []).length = 3
    (j.cellType3 c = some .TET ↔ fs.length = 4) ∧
    (j.cellType3 c = some .PYRAMID ↔ fs.countP quad = 1 ∧ fs.countP tri = 4 ∧ fs.length = 5) ∧
    (j.cellType3 c = some .PRISM ↔ fs.countP quad = 3 ∧ fs.countP tri = 2 ∧ fs.length = 5) ∧
    (j.cellType3 c = some .HEX ↔ fs.countP quad = 6 ∧ fs.length = 6) := by
  intro quad tri
  have e3 : j.cellType3 c = some (j.m.regionCelltype (j.m.region r)) := by
    unfold JMesh.cellType3; rw [hr]; rfl
  rw [cellFaces3_eq h hr] at hfs
  have hfs := Option.some.inj hfs
  have hlen : fs.length = (j.m.region r).faces.length := by rw [← hfs]; simp
  have hnodes : ∀ f : Fin j.m.nf, ((j.faceNodes3 (j.m.fmap.id f - 1)).getD []).length = (j.m.face f).edges.length := by
    intro f
    have hlt : j.m.fmap.id f - 1 < j.faceflip.length := by rw [h.flips]; exact j.m.fnum.id_lt f
    unfold JMesh.faceNodes3
    rw [if_pos h.faces, j.m.fnum.at_id, Option.bind_some, List.getElem?_eq_getElem hlt, Option.map_some, Option.getD_some,
      List.length_map, mfVertices_length]
  have hq : fs.countP quad = j.m.numQuads (j.m.region r) := by
    rw [numQuads_eq, ← hfs, List.countP_map, List.countP_eq_length_filter]
    congr 2
    funext p
    show decide (((j.faceNodes3 (j.m.fmap.id p.1 - 1)).getD []).length = 4) = _
    rw [hnodes]
  have ht : fs.countP tri = ((j.m.region r).faces.filter fun p => (j.m.face p.1).edges.length = 3).length := by
    rw [← hfs, List.countP_map, List.countP_eq_length_filter]
    congr 2
    funext p
    show decide (((j.faceNodes3 (j.m.fmap.id p.1 - 1)).getD []).length = 3) = _
    rw [hnodes]
  -- with five faces, triangles and quadrilaterals are all there is
  have five : (j.m.region r).faces.length = 5 → fs.countP tri + fs.countP quad = 5 := by
    intro h5
    rw [ht, hq, numQuads_eq, ← h5]
    have key : ∀ l : List (Fin j.m.nf × Bool), (∀ p ∈ l, (j.m.face p.1).edges.length = 3 ∨ (j.m.face p.1).edges.length = 4) →
        (l.filter fun p => (j.m.face p.1).edges.length = 3).length +
        (l.filter fun p => (j.m.face p.1).edges.length = 4).length = l.length := by
      intro l
      induction l with
      | nil => intro _; rfl
      | cons a l ih =>
        intro hl
        have := ih fun p hp => hl p (List.mem_cons_of_mem _ hp)
        rw [List.filter_cons, List.filter_cons]
        rcases hl a List.mem_cons_self with e | e <;> simp [e] <;> omega
    apply key
    intro p hp
    have := hc.three p hp
    have := edges_lt_faces hc hp
    omega
  rw [e3, hlen]
  have inj : ∀ ct : CellType, some (j.m.regionCelltype (j.m.region r)) = some ct ↔ j.m.regionCelltype (j.m.region r) = ct := by
    intro ct; exact ⟨Option.some.inj, fun e => by rw [e]⟩
  simp only [inj]
  rw [hq] at five ⊢
  refine ⟨⟨?_, ?_⟩, ⟨?_, ?_⟩, ⟨?_, ?_⟩, ⟨?_, ?_⟩⟩
  · intro hx
    rcases celltype_cases _ _ (by rw [hx]; rfl) with x | x | x | x
    · exact x.2
    all_goals exact absurd (x.1.symm.trans hx) (by decide)
  · intro hx; unfold MMesh.regionCelltype; rw [if_pos hx]
  · intro hx
    rcases celltype_cases _ _ (by rw [hx]; rfl) with x | x | x | x
    · exact absurd (x.1.symm.trans hx) (by decide)
    · have := five x.2.1; exact ⟨x.2.2, by omega, x.2.1⟩
    all_goals exact absurd (x.1.symm.trans hx) (by decide)
  · rintro ⟨q, _, f⟩; unfold MMesh.regionCelltype; rw [if_neg (by omega), if_pos f, if_pos q]
  · intro hx
    rcases celltype_cases _ _ (by rw [hx]; rfl) with x | x | x | x
    · exact absurd (x.1.symm.trans hx) (by decide)
    · exact absurd (x.1.symm.trans hx) (by decide)
    · have := five x.2.1; exact ⟨x.2.2, by omega, x.2.1⟩
    · exact absurd (x.1.symm.trans hx) (by decide)
  · rintro ⟨q, _, f⟩; unfold MMesh.regionCelltype; rw [if_neg (by omega), if_pos f, if_neg (by omega), if_pos q]
  · intro hx
    rcases celltype_cases _ _ (by rw [hx]; rfl) with x | x | x | x
    · exact absurd (x.1.symm.trans hx) (by decide)
    · exact absurd (x.1.symm.trans hx) (by decide)
    · exact absurd (x.1.symm.trans hx) (by decide)
    · exact ⟨x.2.2, x.2.1⟩
  · rintro ⟨q, f⟩; unfold MMesh.regionCelltype; rw [if_neg (by omega), if_neg (by omega), if_pos f, if_pos q]

/-- **C110** (2D) triangles have three nodes, quadrilaterals four, everything else is a polygon -/
theorem type2_by_nodes (j : JMesh) (c : Nat) (ns : List Nat) (hn : j.cellNodes2 c = some ns) :
    (j.cellType2 c = some .TRI ↔ ns.length = 3) ∧ (j.cellType2 c = some .QUAD ↔ ns.length = 4) ∧
    (j.cellType2 c = some .POLYGON ↔ ns.length ≠ 3 ∧ ns.length ≠ 4) := by
  unfold JMesh.cellNodes2 at hn
  rw [Option.map_eq_some_iff] at hn
  obtain ⟨f, hf, rfl⟩ := hn
  unfold JMesh.cellType2
  rw [hf, Option.map_some, List.length_map]
  unfold MMesh.faceCelltype
  by_cases h3 : (j.m.mfVertices (j.m.face f) true).length = 3
  · simp [h3]
  · by_cases h4 : (j.m.mfVertices (j.m.face f) true).length = 4
    · simp [h4]
    · simp [h3, h4]

set_option synthInstance.maxHeartbeats 400000 in
set_option synthInstance.maxSize 2000 in
/-- the tetrahedra of the example are closed cells with Euler's formula -/
example : (∀ r, rank1.ClosedCell (rank1.region r)) ∧ (sampleWorld[1]).counts 1 = some (4, 6, 4) ∧
    (sampleWorld[1]).cellType3 1 = some .TET ∧
    (sampleWorld[1]).cellFacesOrdered3 1 = some [(6, -1), (5, -1), (4, -1), (3, 1)] := by
  refine ⟨?_, by decide +kernel, by decide +kernel, by decide +kernel⟩
  have h : ∀ r : Fin 2, ((rank1.region r).faces.map Prod.fst).Nodup ∧
      (∀ p ∈ (rank1.region r).faces, ((rank1.face p.1).edges.map Prod.fst).Nodup) ∧
      (∀ p ∈ (rank1.region r).faces, 3 ≤ (rank1.face p.1).edges.length) ∧
      (∀ p ∈ (rank1.region r).faces, ∀ e ∈ (rank1.face p.1).edges.map Prod.fst,
        ∃ q ∈ (rank1.region r).faces, q ≠ p ∧ e ∈ (rank1.face q.1).edges.map Prod.fst ∧
        ∀ q' ∈ (rank1.region r).faces, q' ≠ p → e ∈ (rank1.face q'.1).edges.map Prod.fst → q' = q) ∧
      (∀ p ∈ (rank1.region r).faces, ∀ q ∈ (rank1.region r).faces, p ≠ q → ∀ e e', e ∈ (rank1.face p.1).edges.map Prod.fst →
        e ∈ (rank1.face q.1).edges.map Prod.fst → e' ∈ (rank1.face p.1).edges.map Prod.fst →
        e' ∈ (rank1.face q.1).edges.map Prod.fst → e = e') := by decide +kernel
  exact fun r => ⟨(h r).1, (h r).2.1, (h r).2.2.1, (h r).2.2.2.1, (h r).2.2.2.2⟩

end Jali.Mstk
