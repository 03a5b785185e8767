import Verif.Proof.SidesMore
/-! Property theorems C29-C32: sides, wedges and corners. -/
namespace Jali.Sides
open Spec

/-! ### two meshes for the examples -/

/-- Two quadrilaterals side by side, the second one a ghost. Nodes 0,1,2 below, 3,4,5 above; edges = faces. -/
def quads : Src where
  manifoldDim := 2
  cells := [0, 1]
  ncells := 2
  nedges := 7
  nnodes := 6
  cellType c := if c = 0 then .PARALLEL_OWNED else .PARALLEL_GHOST
  cellFaces c := if c = 0 then [(0, 1), (1, 1), (2, -1), (3, -1)] else [(4, 1), (5, 1), (6, -1), (1, -1)]
  faceEdges f := [(f, 1)]
  edgeNodes e := [(0, 1), (1, 4), (3, 4), (0, 3), (1, 2), (2, 5), (4, 5)].getD e (0, 0)
  cellNodes c := if c = 0 then [0, 1, 4, 3] else [1, 2, 5, 4]

/-- Two tetrahedra 0123 and 1234 sharing the face 123. -/
def tets : Src where
  manifoldDim := 3
  cells := [0, 1]
  ncells := 2
  nedges := 9
  nnodes := 5
  cellType _ := .PARALLEL_OWNED
  cellFaces c := if c = 0 then [(0, 1), (3, -1), (2, 1), (1, -1)] else [(4, 1), (5, -1), (6, 1), (0, -1)]
  faceEdges f := [[(3, 1), (5, 1), (4, -1)], [(0, 1), (3, 1), (1, -1)], [(0, 1), (4, 1), (2, -1)],
    [(1, 1), (5, 1), (2, -1)], [(5, 1), (8, 1), (7, -1)], [(4, 1), (8, 1), (6, -1)], [(3, 1), (7, 1), (6, -1)]].getD f []
  edgeNodes e := [(0, 1), (0, 2), (0, 3), (1, 2), (1, 3), (2, 3), (1, 4), (2, 4), (3, 4)].getD e (0, 0)
  cellNodes c := if c = 0 then [0, 1, 2, 3] else [1, 2, 3, 4]

theorem Valid.ofLists {m : Src} (h1 : m.cells.Nodup) (h2 : ∀ c ∈ m.cells, c < m.ncells)
    (h3 : ∀ c ∈ m.cells, m.cellType c = .PARALLEL_OWNED ∨ m.cellType c = .PARALLEL_GHOST ∨ m.cellType c = .BOUNDARY_GHOST)
    (h4 : ∀ c ∈ m.cells, ((m.cellFaces c).map Prod.fst).Nodup)
    (h5 : ∀ c ∈ m.cells, ∀ p ∈ m.cellFaces c, ((m.faceEdges p.1).map Prod.fst).Nodup)
    (h6 : ∀ c ∈ m.cells, ∀ p ∈ m.cellFaces c, ∀ q ∈ m.faceEdges p.1, q.1 < m.nedges)
    (h7 : ∀ c1 ∈ m.cells, ∀ p1 ∈ m.cellFaces c1, ∀ c2 ∈ m.cells, ∀ p2 ∈ m.cellFaces c2, ∀ c3 ∈ m.cells,
      ∀ p3 ∈ m.cellFaces c3, p1.1 = p2.1 → p1.1 = p3.1 → c1 = c2 ∨ c1 = c3 ∨ c2 = c3) : Spec.Valid m :=
  ⟨h1, h2, h3, h4, fun c f fd h => h5 c h.1 (f, fd) h.2,
    fun c f e h => by obtain ⟨⟨fd, hc, hf⟩, ed, he⟩ := h; exact h6 c hc (f, fd) hf (e, ed) he,
    fun f c1 d1 c2 d2 c3 d3 a b c => h7 c1 a.1 (f, d1) a.2 c2 b.1 (f, d2) b.2 c3 c.1 (f, d3) c.2 rfl rfl⟩

theorem Oriented.ofLists {m : Src} (h1 : ∀ c ∈ m.cells, ∀ p ∈ m.cellFaces c, p.2 = 1 ∨ p.2 = -1)
    (h2 : ∀ c ∈ m.cells, ∀ p ∈ m.cellFaces c, ∀ q ∈ m.faceEdges p.1, q.2 = 1 ∨ q.2 = -1)
    (h3 : ∀ c1 ∈ m.cells, ∀ p1 ∈ m.cellFaces c1, ∀ c2 ∈ m.cells, ∀ p2 ∈ m.cellFaces c2, p1.1 = p2.1 → c1 ≠ c2 →
      p2.2 = -p1.2) : Spec.Oriented m :=
  ⟨fun c f d h => h1 c h.1 (f, d) h.2, fun c f d e ed h he => h2 c h.1 (f, d) h.2 (e, ed) he,
    fun f c1 d1 c2 d2 a b hne => h3 c1 a.1 (f, d1) a.2 c2 b.1 (f, d2) b.2 rfl hne⟩

theorem NodesOk.ofLists {m : Src} (h1 : ∀ c ∈ m.cells, (m.cellNodes c).Nodup)
    (h2 : ∀ c ∈ m.cells, ∀ n ∈ m.cellNodes c, n < m.nnodes)
    (h3 : ∀ c ∈ m.cells, ∀ n ∈ m.cellNodes c, ∃ p ∈ m.cellFaces c, ∃ q ∈ m.faceEdges p.1,
      (m.edgeNodes q.1).1 = n ∨ (m.edgeNodes q.1).2 = n)
    (h4 : ∀ c ∈ m.cells, ∀ p ∈ m.cellFaces c, ∀ q ∈ m.faceEdges p.1,
      (m.edgeNodes q.1).1 ∈ m.cellNodes c ∧ (m.edgeNodes q.1).2 ∈ m.cellNodes c) : Spec.NodesOk m := by
  refine ⟨h1, h2, fun c hc n => ⟨?_, ?_⟩⟩
  · intro hn
    obtain ⟨p, hp, q, hq, h⟩ := h3 c hc n hn
    exact ⟨p.1, q.1, ⟨⟨p.2, hc, hp⟩, q.2, hq⟩, h⟩
  · rintro ⟨f, e, ⟨⟨fd, _, hf⟩, ed, he⟩, h⟩
    obtain ⟨ha, hb⟩ := h4 c hc (f, fd) hf (e, ed) he
    rcases h with rfl | rfl
    · exact ha
    · exact hb

theorem quads_ok : Spec.Valid quads ∧ Spec.Oriented quads ∧ Spec.NodesOk quads :=
  ⟨Valid.ofLists (by decide) (by decide) (by decide) (by decide) (by decide) (by decide) (by decide +kernel),
    Oriented.ofLists (by decide) (by decide) (by decide +kernel),
    NodesOk.ofLists (by decide) (by decide) (by decide) (by decide)⟩

theorem tets_ok : Spec.Valid tets ∧ Spec.Oriented tets ∧ Spec.NodesOk tets :=
  ⟨Valid.ofLists (by decide) (by decide) (by decide) (by decide) (by decide) (by decide) (by decide +kernel),
    Oriented.ofLists (by decide) (by decide) (by decide +kernel),
    NodesOk.ofLists (by decide) (by decide) (by decide) (by decide +kernel)⟩

/-! ### C29 -/

/-- **C29.** Caching the sides of a mesh stays in bounds. Sides are numbered without gaps; every side belongs to one
incidence (cell, face, edge) and every incidence has exactly one side; `cell_get_sides` lists, in ascending order, exactly
the sides of the cell; the owned, ghost and boundary ghost lists contain exactly the sides of the cells of that type. -/
theorem sides_are_incidences (m : Src) (h : Valid m) :
    ∃ i, cacheSideInfo m = some i ∧ (∃ n, i.all.arr = List.range n) ∧
      (∀ s, s ∈ i.all.arr ↔ ∃ r, i.side s = some r) ∧
      (∀ s r, i.side s = some r → Incident m r.cell r.face r.edge) ∧
      (∀ c f e, Incident m c f e → ∃! s, ∃ r, i.side s = some r ∧ r.cell = c ∧ r.face = f ∧ r.edge = e) ∧
      (∀ c < m.ncells, ∃ l, i.cellGetSides c = some l ∧ l.Pairwise (· < ·) ∧
        ∀ s, s ∈ l ↔ ∃ r, i.side s = some r ∧ r.cell = c) ∧
      (i.owned.arr.Nodup ∧ ∀ s, s ∈ i.owned.arr ↔ ∃ r, i.side s = some r ∧ m.cellType r.cell = .PARALLEL_OWNED) ∧
      (i.ghost.arr.Nodup ∧ ∀ s, s ∈ i.ghost.arr ↔ ∃ r, i.side s = some r ∧ m.cellType r.cell = .PARALLEL_GHOST) ∧
      (i.bndry.arr.Nodup ∧ ∀ s, s ∈ i.bndry.arr ↔ ∃ r, i.side s = some r ∧ m.cellType r.cell = .BOUNDARY_GHOST) := by
  obtain ⟨i, e, hi⟩ := cache_ok h
  have key1 : ∀ (p : Nat → Bool) s, s ∈ positions (fun v => p v.cell) (visits m) ↔
      ∃ r, i.side s = some r ∧ p r.cell = true := by
    intro p s
    rw [mem_positions]
    constructor
    · rintro ⟨v, hv, hp⟩; exact ⟨mkRec m v, hi.side_iff.2 ⟨v, hv, rfl⟩, by rw [mkRec_cell]; exact hp⟩
    · rintro ⟨r, hr, hp⟩
      obtain ⟨v, hv, rfl⟩ := hi.side_iff.1 hr
      exact ⟨v, hv, by rw [mkRec_cell] at hp; exact hp⟩
  have nd : ∀ {α : Type} (p : α → Bool) l, (positions p l).Nodup := fun p l =>
    (positions_sorted p l).imp fun h => Nat.ne_of_lt h
  refine ⟨i, e, ⟨_, hi.all⟩, ?_, ?_, ?_, ?_, ?_, ?_, ?_⟩
  · intro s
    rw [hi.all, List.mem_range]
    constructor
    · intro hs; exact ⟨_, hi.side_iff.2 ⟨_, List.getElem?_eq_getElem hs, rfl⟩⟩
    · rintro ⟨r, hr⟩
      obtain ⟨v, hv, -⟩ := hi.side_iff.1 hr
      exact lt_of_getElem? hv
  · intro s r hr
    obtain ⟨v, hv, rfl⟩ := hi.side_iff.1 hr
    rw [mkRec_cell, mkRec_face, mkRec_edge]
    exact visit_incident (List.mem_of_getElem? hv)
  · intro c f ed hinc
    obtain ⟨v, hv, hk⟩ := incident_visit hinc
    obtain ⟨s, hs, hsv⟩ := List.getElem_of_mem hv
    have hsv' : (visits m)[s]? = some v := by rw [List.getElem?_eq_getElem hs, hsv]
    have hk' := hk
    simp only [key, Prod.mk.injEq] at hk'
    refine ⟨s, ⟨mkRec m v, hi.side_iff.2 ⟨v, hsv', rfl⟩, ?_⟩, ?_⟩
    · rw [mkRec_cell, mkRec_face, mkRec_edge]; exact hk'
    · rintro t ⟨r, hr, h1, h2, h3⟩
      obtain ⟨u, hu, rfl⟩ := hi.side_iff.1 hr
      rw [mkRec_cell] at h1; rw [mkRec_face] at h2; rw [mkRec_edge] at h3
      refine key_inj h hu hsv' ?_
      rw [hk]; simp only [key, h1, h2, h3]
  · intro c hc
    refine ⟨positions (fun v => v.cell == c) (visits m), ?_, positions_sorted _ _, ?_⟩
    · rw [Info.cellGetSides, hi.cellSides, List.getElem?_map, List.getElem?_range hc]; rfl
    · intro s; rw [key1 (· == c)]; simp
  · rw [hi.owned]
    exact ⟨nd _ _, fun s => by rw [key1 fun c => m.cellType c == .PARALLEL_OWNED]; simp⟩
  · rw [hi.ghost]
    exact ⟨nd _ _, fun s => by rw [key1 fun c => m.cellType c == .PARALLEL_GHOST]; simp⟩
  · rw [hi.bndry]
    exact ⟨nd _ _, fun s => by rw [key1 fun c => m.cellType c == .BOUNDARY_GHOST]; simp⟩

example : ∃ i, cacheSideInfo quads = some i ∧ (∃ n, i.all.arr = List.range n) :=
  have ⟨i, h1, h2, _⟩ := sides_are_incidences quads quads_ok.1; ⟨i, h1, h2⟩
example : (cacheSideInfo quads).map (fun i => (i.cellSides, i.owned.arr, i.ghost.arr)) =
    some ([[0, 1, 2, 3], [4, 5, 6, 7]], [0, 1, 2, 3], [4, 5, 6, 7]) := by decide +kernel

/-- **C29, nodes.** A side lies along its edge; in 2D it runs along the edge when the cell uses the face in its own
direction and against it otherwise; in 3D it runs along the edge exactly when the cell's use of the face and the face's use
of the edge disagree. -/
theorem side_nodes (m : Src) (h : Valid m) (ho : Oriented m) (hd : m.manifoldDim = 2 ∨ m.manifoldDim = 3) :
    ∃ i, cacheSideInfo m = some i ∧ ∀ s r, i.side s = some r →
      ∃ fd ed, HasFace m r.cell r.face fd ∧ (r.edge, ed) ∈ m.faceEdges r.face ∧
        (let forward := if m.manifoldDim = 2 then fd = 1 else fd ≠ ed
         let en := m.edgeNodes r.edge
         (forward → sideGetNode m i s 0 = some en.1 ∧ sideGetNode m i s 1 = some en.2) ∧
         (¬ forward → sideGetNode m i s 0 = some en.2 ∧ sideGetNode m i s 1 = some en.1)) ∧
        sideGetNode m i s 0 = some r.node0 ∧ sideGetNode m i s 1 = some r.node1 := by
  obtain ⟨i, e, hi⟩ := cache_ok h
  refine ⟨i, e, fun s r hr => ?_⟩
  obtain ⟨v, hv, hm⟩ := hi.side_iff.1 hr
  have hmem := mem_visits.1 (List.mem_of_getElem? hv)
  have hc : r.cell = v.cell := by rw [← hm, mkRec_cell]
  have hf : r.face = v.face := by rw [← hm, mkRec_face]
  have he : r.edge = v.edge := by rw [← hm, mkRec_edge]
  have g : ∀ x, sideGetNode m i s x = some (if (x = 0) = (r.use = true) then (m.edgeNodes r.edge).1 else (m.edgeNodes r.edge).2) := by
    intro x; rw [sideGetNode, hr]; rfl
  have d1 := ho.fdir _ _ _ hmem.1
  have d2 := ho.edir _ _ _ _ _ hmem.1 hmem.2
  refine ⟨v.fdir, v.edir, by rw [hc, hf]; exact hmem.1, by rw [he, hf]; exact hmem.2, ?_, ?_⟩
  · simp only [g, he]
    rcases hd with hd | hd
    · have hu : r.use = decide (v.fdir = 1) := by rw [← hm, mkRec, if_pos hd]
      simp only [hd, if_true, hu]
      rcases d1 with d1 | d1 <;> simp [d1]
    · have hu : r.use = ((v.fdir + 1) / 2 != (v.edir + 1) / 2) := by
        rw [← hm, mkRec, if_neg (by omega)]
      simp only [hd, hu]
      rcases d1 with d1 | d1 <;> rcases d2 with d2 | d2 <;> simp [d1, d2]
  · simp only [g]
    rw [← hm]
    unfold mkRec
    rcases hd with hd | hd
    · simp only [hd, if_true]
      rcases d1 with d1 | d1 <;> simp [d1]
    · simp only [hd]
      rcases d1 with d1 | d1 <;> rcases d2 with d2 | d2 <;> simp [d1, d2]

-- side 3 of the first quadrilateral: face 3 used backwards, edge (0,3) run from 3 to 0
example : (cacheSideInfo quads).bind (fun i => sideGetNode quads i 3 0) = some 3 := by decide +kernel
-- sides 0 and 9 of the tetrahedra lie on the same edge (1,2) of the shared face and run in opposite directions
example : (cacheSideInfo tets).map (fun i => (i.opposite 0, [0, 1].map (sideGetNode tets i 0))) =
    some (some 21, [some 2, some 1]) := by decide +kernel

/-! ### C30 -/

/-- **C30.** `side_get_opposite_side` of a side is the side of another cell on the same face and edge if there is one,
and then it maps back; it is -1 exactly when there is none. -/
theorem opposite_sides (m : Src) (h : Valid m) :
    ∃ i, cacheSideInfo m = some i ∧ ∀ s r, i.side s = some r →
      (i.opposite s = some (-1) ∧ ∀ t q, i.side t = some q → q.face = r.face → q.edge = r.edge → q.cell = r.cell) ∨
      ∃ (t : Nat) (q : Rec), i.opposite s = some (t : Int) ∧ i.opposite t = some (s : Int) ∧ i.side t = some q ∧
        q.face = r.face ∧ q.edge = r.edge ∧ q.cell ≠ r.cell := by
  obtain ⟨i, e, hi⟩ := cache_ok h
  refine ⟨i, e, fun s r hr => ?_⟩
  obtain ⟨v, hv, rfl⟩ := hi.side_iff.1 hr
  rw [mkRec_cell, mkRec_face, mkRec_edge]
  by_cases hex : ∃ (t : Nat) (u : Visit), (visits m)[t]? = some u ∧ Opp u v
  · obtain ⟨t, u, hu, hop⟩ := hex
    refine .inr ⟨t, mkRec m u, hi.opp.hit t s u v hu hv hop, hi.opp.hit s t v u hv hu hop.symm,
      hi.side_iff.2 ⟨u, hu, rfl⟩, ?_, ?_, ?_⟩
    · rw [mkRec_face]; exact hop.2.1
    · rw [mkRec_edge]; exact hop.1
    · rw [mkRec_cell]; exact hop.2.2
  · refine .inl ⟨hi.opp.miss s (lt_of_getElem? hv) ?_, ?_⟩
    · intro j a b ha hb hop
      rw [hv] at hb; cases hb
      exact hex ⟨j, a, ha, hop⟩
    · intro t q hq h1 h2
      obtain ⟨u, hu, rfl⟩ := hi.side_iff.1 hq
      rw [mkRec_face] at h1; rw [mkRec_edge] at h2; rw [mkRec_cell]
      by_contra hc
      exact hex ⟨t, u, hu, h2, h1, hc⟩

/-- **C30, nodes.** Opposite sides run in opposite directions along their edge. -/
theorem opposite_sides_reversed (m : Src) (h : Valid m) (ho : Oriented m) (hd : m.manifoldDim = 2 ∨ m.manifoldDim = 3) :
    ∃ i, cacheSideInfo m = some i ∧ ∀ (s t : Nat), i.opposite s = some (t : Int) →
      (∃ a b, sideGetNode m i s 0 = some a ∧ sideGetNode m i s 1 = some b ∧
        sideGetNode m i t 0 = some b ∧ sideGetNode m i t 1 = some a) := by
  obtain ⟨i, e, hi⟩ := cache_ok h
  obtain ⟨i', e', ho1⟩ := opposite_sides m h
  rw [e] at e'; cases e'
  obtain ⟨i', e', hn⟩ := side_nodes m h ho hd
  rw [e] at e'; cases e'
  refine ⟨i, e, fun s t hst => ?_⟩
  have hs : s < (visits m).length := by rw [← hi.opp.len]; exact lt_of_getElem? hst
  have hr := hi.side_iff.2 ⟨_, List.getElem?_eq_getElem hs, rfl⟩
  rcases ho1 s _ hr with ⟨hno, -⟩ | ⟨t', q, h1, -, hq, hf, he, hc⟩
  · rw [hst] at hno; simp only [Option.some.injEq] at hno; omega
  rw [hst] at h1
  have : t' = t := by simp only [Option.some.injEq] at h1; omega
  subst this
  generalize mkRec m (visits m)[s] = r at hr hf he hc
  obtain ⟨fd, ed, a1, a2, a3, -⟩ := hn s r hr
  obtain ⟨fd', ed', b1, b2, b3, -⟩ := hn t' q hq
  rw [hf] at b1
  have hopp := ho.opposite r.face r.cell fd q.cell fd' a1 b1 (fun h => hc h.symm)
  rw [hf, he] at b2
  have hed : ed' = ed := by
    have := nodup_of_map_fst (h.edges_nodup _ _ _ a1) a2 b2 rfl
    simp only [Prod.mk.injEq, true_and] at this; exact this.symm
  have d1 := ho.fdir _ _ _ a1
  have d2 := ho.edir _ _ _ _ _ a1 a2
  rw [he] at b3
  dsimp only at a3 b3
  by_cases hw : (if m.manifoldDim = 2 then fd = 1 else fd ≠ ed)
  · have hw' : ¬ (if m.manifoldDim = 2 then fd' = 1 else fd' ≠ ed') := by
      rw [hopp, hed]
      rcases hd with hd | hd
      · rw [if_pos hd] at hw ⊢; omega
      · rw [if_neg (by omega)] at hw ⊢; omega
    exact ⟨_, _, (a3.1 hw).1, (a3.1 hw).2, (b3.2 hw').1, (b3.2 hw').2⟩
  · have hw' : (if m.manifoldDim = 2 then fd' = 1 else fd' ≠ ed') := by
      rw [hopp, hed]
      rcases hd with hd | hd
      · rw [if_pos hd] at hw ⊢; omega
      · rw [if_neg (by omega)] at hw ⊢; omega
    exact ⟨_, _, (a3.2 hw).1, (a3.2 hw).2, (b3.1 hw').1, (b3.1 hw').2⟩

example : (cacheSideInfo quads).map (·.opp) = some [-1, 7, -1, -1, -1, -1, -1, 1] := by decide +kernel
example : ∃ i, cacheSideInfo tets = some i ∧ ∀ (s t : Nat), i.opposite s = some (t : Int) →
      (∃ a b, sideGetNode tets i s 0 = some a ∧ sideGetNode tets i s 1 = some b ∧
        sideGetNode tets i t 0 = some b ∧ sideGetNode tets i t 1 = some a) :=
  opposite_sides_reversed tets tets_ok.1 tets_ok.2.1 (.inr rfl)

/-- **C30 in one dimension** (cell `c` between nodes `c` and `c+1`): the opposite side is the side of the neighbouring
cell at the same node, it maps back, and it is -1 exactly at the two ends. -/
theorem opposite_sides_1d (n : Nat) (s : Nat) (hs : s < 2 * n) :
    let i := cacheSideInfo1D n fun c => (c, c + 1)
    (i.opp s = -1 ∧ (i.sideNode s = 0 ∨ i.sideNode s = n)) ∨
      ∃ t : Nat, i.opp s = (t : Int) ∧ t < 2 * n ∧ i.opp t = (s : Int) ∧ i.sideNode t = i.sideNode s ∧
        i.sideCell t ≠ i.sideCell s := by
  dsimp only [cacheSideInfo1D]
  rcases Nat.even_or_odd' s with ⟨c, rfl | rfl⟩
  · have h2 : 2 * c % 2 = 0 := by omega
    have h3 : 2 * c / 2 = c := by omega
    simp only [h2, if_true, h3]
    by_cases hc : c = 0
    · subst hc; exact .inl ⟨rfl, .inl rfl⟩
    · refine .inr ⟨2 * c - 1, ?_, by omega, ?_, ?_, by omega⟩
      · rw [if_neg (by omega)]; omega
      · rw [if_neg (by omega), if_neg (by omega)]; omega
      · rw [if_neg (by omega)]; omega
  · have h2 : ¬ ((2 * c + 1) % 2 = 0) := by omega
    have h3 : (2 * c + 1) / 2 = c := by omega
    simp only [h2, if_false, h3]
    by_cases hc : 2 * c + 1 = 2 * n - 1
    · rw [if_pos hc]; exact .inl ⟨rfl, .inr (by omega)⟩
    · refine .inr ⟨2 * c + 2, ?_, by omega, ?_, ?_, by omega⟩
      · rw [if_neg hc]; omega
      · rw [if_pos (by omega), if_neg (by omega)]; omega
      · rw [if_pos (by omega)]; omega

example : (List.range 6).map (cacheSideInfo1D 3 fun c => (c, c + 1)).opp = [-1, 2, 1, 4, 3, -1] := by decide

/-! ### C31 -/

/-- **C31.** The wedges of a side `s` are `2s` and `2s+1`; the first has the first node of the side, the second its second
node; the adjacent wedge is the other wedge of the side; the opposite wedge, if any, is in the opposite side at the same
node; both maps are involutions; the wedge lists contain, without repetition, exactly the wedges of the sides of the
cells of that type. -/
theorem wedges (m : Src) (h : Valid m) (ho : Oriented m) (hd : m.manifoldDim = 2 ∨ m.manifoldDim = 3) :
    ∃ i l, cacheSideInfo m = some i ∧ cacheWedgeInfo m i = some l ∧
      (∀ s, s ∈ i.all.arr → ∀ w, (wedgeGetSide w = s ↔ w = sideGetWedge s 0 ∨ w = sideGetWedge s 1)) ∧
      (∀ s, s ∈ i.all.arr → ∀ iw, iw ≤ 1 → wedgeGetNode m i (sideGetWedge s iw) = sideGetNode m i s iw) ∧
      (∀ w, wedgeAdjacent w ≠ w ∧ wedgeGetSide (wedgeAdjacent w) = wedgeGetSide w ∧
        wedgeAdjacent (wedgeAdjacent w) = w) ∧
      (∀ w, wedgeGetSide w ∈ i.all.arr →
        (i.opposite (wedgeGetSide w) = some (-1) ∧ i.wedgeOpposite w = some (-1)) ∨
        ∃ t x : Nat, i.opposite (wedgeGetSide w) = some (t : Int) ∧ i.wedgeOpposite w = some (x : Int) ∧
          wedgeGetSide x = t ∧ i.wedgeOpposite x = some (w : Int) ∧ wedgeGetNode m i x = wedgeGetNode m i w ∧
          (wedgeGetNode m i w).isSome) ∧
      (∀ c < m.ncells, ∃ cs cw, i.cellGetSides c = some cs ∧ i.cellGetWedges c = some cw ∧
        cw.Nodup ∧ ∀ w, w ∈ cw ↔ wedgeGetSide w ∈ cs) ∧
      l.all.Perm (List.range (2 * i.all.arr.length)) ∧
      (∀ w, (w ∈ l.all ↔ wedgeGetSide w ∈ i.all.arr) ∧ (w ∈ l.owned ↔ wedgeGetSide w ∈ i.owned.arr) ∧
        (w ∈ l.ghost ↔ wedgeGetSide w ∈ i.ghost.arr) ∧ (w ∈ l.bndry ↔ wedgeGetSide w ∈ i.bndry.arr)) := by
  obtain ⟨i, e, hi⟩ := cache_ok h
  obtain ⟨i', e', hrev⟩ := opposite_sides_reversed m h ho hd
  rw [e] at e'; cases e'
  obtain ⟨i', e', hopp⟩ := opposite_sides m h
  rw [e] at e'; cases e'
  have hk : ∀ v ∈ visits m, Known (m.cellType v.cell) := fun v hv => (valid_visits h v hv).2.2
  have hl := cacheWedgeInfo_ok m i hi hk
  have mem_all : ∀ s, s ∈ i.all.arr ↔ s < (visits m).length := fun s => by rw [hi.all, List.mem_range]
  have pnd : ∀ l : List Nat, l.Pairwise (· < ·) → (pairs l).Nodup := by
    intro l hl
    have : (pairs l).Pairwise (· < ·) := by
      unfold pairs
      rw [List.pairwise_flatMap]
      refine ⟨fun s _ => by simp, hl.imp ?_⟩
      intro a b hab x hx y hy
      simp only [List.mem_cons, List.not_mem_nil, or_false] at hx hy
      omega
    exact this.imp fun h => Nat.ne_of_lt h
  have cls : ∀ s, s < (visits m).length ↔ s ∈ i.owned.arr ∨ s ∈ i.ghost.arr ∨ s ∈ i.bndry.arr := by
    intro s
    rw [hi.owned, hi.ghost, hi.bndry]
    simp only [mem_positions]
    constructor
    · intro hs
      have hv : (visits m)[s]? = some (visits m)[s] := List.getElem?_eq_getElem hs
      rcases hk _ (List.mem_of_getElem? hv) with ht | ht | ht
      · exact .inl ⟨_, hv, by simp [ht]⟩
      · exact .inr (.inl ⟨_, hv, by simp [ht]⟩)
      · exact .inr (.inr ⟨_, hv, by simp [ht]⟩)
    · rintro (⟨v, hv, -⟩ | ⟨v, hv, -⟩ | ⟨v, hv, -⟩) <;> exact lt_of_getElem? hv
  refine ⟨i, _, e, hl, ?_, ?_, ?_, ?_, ?_, ?_, ?_⟩
  · intro s _ w
    simp only [wedgeGetSide, sideGetWedge]
    rw [if_neg (by omega), if_pos (by omega)]; omega
  · intro s _ iw hiw
    rcases (by omega : iw = 0 ∨ iw = 1) with rfl | rfl
    · rw [sideGetWedge, if_neg (by omega), wedgeGetNode, wedgeGetSide, show 2 * s / 2 = s by omega,
        show 2 * s % 2 = 0 by omega]
    · rw [sideGetWedge, if_pos (by omega), wedgeGetNode, wedgeGetSide, show (2 * s + 1) / 2 = s by omega,
        show (2 * s + 1) % 2 = 1 by omega]
  · intro w
    rcases Nat.even_or_odd' w with ⟨c, rfl | rfl⟩
    · have e1 : wedgeAdjacent (2 * c) = 2 * c + 1 := by rw [wedgeAdjacent, if_neg (by omega)]
      have e2 : wedgeAdjacent (2 * c + 1) = 2 * c := by rw [wedgeAdjacent, if_pos (by omega)]; omega
      rw [e1, e2, wedgeGetSide, wedgeGetSide]; omega
    · have e1 : wedgeAdjacent (2 * c) = 2 * c + 1 := by rw [wedgeAdjacent, if_neg (by omega)]
      have e2 : wedgeAdjacent (2 * c + 1) = 2 * c := by rw [wedgeAdjacent, if_pos (by omega)]; omega
      rw [e2, e1, wedgeGetSide, wedgeGetSide]; omega
  · intro w hw
    rw [mem_all] at hw
    have hr := hi.side_iff.2 ⟨_, List.getElem?_eq_getElem hw, rfl⟩
    rcases hopp (wedgeGetSide w) _ hr with ⟨hno, -⟩ | ⟨t, q, h1, h2, -⟩
    · refine .inl ⟨hno, ?_⟩
      rw [Info.wedgeOpposite, hno, Option.map_some, if_pos rfl]
    · refine .inr ?_
      obtain ⟨a, b, n1, n2, n3, n4⟩ := hrev _ _ h1
      by_cases hpar : w % 2 = 0
      · refine ⟨t, 2 * t + 1, h1, ?_, ?_, ?_, ?_, ?_⟩
        · rw [Info.wedgeOpposite, h1, Option.map_some, if_neg (by omega), if_neg (by omega)]
          congr 1
        · rw [wedgeGetSide]; omega
        · rw [Info.wedgeOpposite, wedgeGetSide, show (2 * t + 1) / 2 = t by omega, h2, Option.map_some,
            if_neg (by omega), if_pos (by omega)]
          congr 1
          simp only [wedgeGetSide]; omega
        · rw [wedgeGetNode, wedgeGetSide, show (2 * t + 1) / 2 = t by omega, show (2 * t + 1) % 2 = 1 by omega, n4,
            wedgeGetNode, hpar, n1]
        · rw [wedgeGetNode, hpar, n1]; rfl
      · have hpar' : w % 2 = 1 := by omega
        refine ⟨t, 2 * t, h1, ?_, ?_, ?_, ?_, ?_⟩
        · rw [Info.wedgeOpposite, h1, Option.map_some, if_neg (by omega), if_pos (by omega)]
          congr 1
        · rw [wedgeGetSide]; omega
        · rw [Info.wedgeOpposite, wedgeGetSide, show (2 * t) / 2 = t by omega, h2, Option.map_some,
            if_neg (by omega), if_neg (by omega)]
          congr 1
          simp only [wedgeGetSide]; omega
        · rw [wedgeGetNode, wedgeGetSide, show (2 * t) / 2 = t by omega, show (2 * t) % 2 = 0 by omega, n3,
            wedgeGetNode, hpar', n2]
        · rw [wedgeGetNode, hpar', n2]; rfl
  · intro c hc
    refine ⟨_, _, ?_, hi.cellGetWedges c hc, wedgesOf_nodup m c, fun w => mem_pairs⟩
    rw [Info.cellGetSides, hi.cellSides, List.getElem?_map, List.getElem?_range hc]; rfl
  · dsimp only
    rw [hi.all, List.length_range]
    refine (List.perm_ext_iff_of_nodup ?_ List.nodup_range).2 ?_
    · have disj : ∀ {p q : Visit → Bool}, (∀ v, p v = true → q v = true → False) →
          (pairs (positions p (visits m))).Disjoint (pairs (positions q (visits m))) := by
        intro p q hpq
        rw [List.disjoint_left]
        intro w hp hq
        rw [mem_pairs, mem_positions] at hp hq
        obtain ⟨v, hv, hp⟩ := hp
        obtain ⟨v', hv', hq⟩ := hq
        rw [hv] at hv'; cases hv'
        exact hpq v hp hq
      rw [hi.owned, hi.ghost, hi.bndry]
      refine List.Nodup.append (List.Nodup.append (pnd _ (positions_sorted _ _)) (pnd _ (positions_sorted _ _)) ?_)
        (pnd _ (positions_sorted _ _)) ?_
      · exact disj fun v h1 h2 => by simp only [beq_iff_eq] at h1 h2; rw [h1] at h2; cases h2
      · rw [List.disjoint_append_left]
        exact ⟨disj (fun v h1 h2 => by simp only [beq_iff_eq] at h1 h2; rw [h1] at h2; cases h2),
          disj (fun v h1 h2 => by simp only [beq_iff_eq] at h1 h2; rw [h1] at h2; cases h2)⟩
    · intro w
      rw [List.mem_append, List.mem_append, mem_pairs, mem_pairs, mem_pairs, or_assoc, ← cls, List.mem_range]; omega
  · intro w
    refine ⟨?_, mem_pairs, mem_pairs, mem_pairs⟩
    dsimp only
    rw [List.mem_append, List.mem_append, mem_pairs, mem_pairs, mem_pairs, or_assoc, ← cls, mem_all]; rfl

example : ∃ i l, cacheSideInfo tets = some i ∧ cacheWedgeInfo tets i = some l ∧
    l.all.Perm (List.range (2 * i.all.arr.length)) :=
  have ⟨i, l, h1, h2, _, _, _, _, _, h3, _⟩ := wedges tets tets_ok.1 tets_ok.2.1 (.inr rfl); ⟨i, l, h1, h2, h3⟩
example : (cacheSideInfo quads).bind (fun i => i.wedgeOpposite 2) = some 15 := by decide +kernel

/-! ### C32 -/

/-- **C32.** Caching the corners stays in bounds; there is exactly one corner for each node of each cell; the wedges of
a corner are exactly the wedges of its cell at its node; every wedge is in exactly one corner, the one `wedge_get_corner`
returns; `cell_get_corners` and `node_get_corners` list exactly the corners of the cell resp. at the node, and
`cell_get_corner_at_node` finds the corner or returns -1 if the node is not a node of the cell. -/
theorem corners (m : Src) (h : Valid m) (hn : NodesOk m) :
    ∃ i k, cacheSideInfo m = some i ∧ cacheCornerInfo m i = some k ∧
      (∀ cn < k.cornerWedges.length, ∃ c ∈ m.cells, ∃ n ∈ m.cellNodes c,
        cornerGetCell i k cn = some c ∧ cornerGetNode m i k cn = some n) ∧
      (∀ c ∈ m.cells, ∀ n ∈ m.cellNodes c, ∃! cn, cn < k.cornerWedges.length ∧
        cornerGetCell i k cn = some c ∧ cornerGetNode m i k cn = some n) ∧
      (∀ cn ws c n, k.cornerWedges[cn]? = some ws → cornerGetCell i k cn = some c → cornerGetNode m i k cn = some n →
        ws.Nodup ∧ ∀ w, w ∈ ws ↔ (∃ r, i.wedge w = some r ∧ r.cell = c) ∧ wedgeGetNode m i w = some n) ∧
      (∀ w r, i.wedge w = some r → ∃ cn, k.wedgeCorner[w]? = some ((cn : Nat) : Int) ∧
        ∀ cn' ws, k.cornerWedges[cn']? = some ws → (w ∈ ws ↔ cn' = cn)) ∧
      (∀ c < m.ncells, ∃ l, k.cellCorners[c]? = some l ∧ l.Nodup ∧
        ∀ cn, cn ∈ l ↔ cn < k.cornerWedges.length ∧ cornerGetCell i k cn = some c) ∧
      (∀ n < m.nnodes, ∃ l, nodeGetCorners k n = some l ∧ l.Nodup ∧
        ∀ cn, cn ∈ l ↔ cn < k.cornerWedges.length ∧ cornerGetNode m i k cn = some n) ∧
      (∀ c ∈ m.cells, ∀ n,
        (n ∈ m.cellNodes c → ∃ cn : Nat, cellGetCornerAtNode m i k c n = some (cn : Int) ∧
          cornerGetCell i k cn = some c ∧ cornerGetNode m i k cn = some n) ∧
        (n ∉ m.cellNodes c → cellGetCornerAtNode m i k c n = some (-1))) ∧
      (∀ cn, (cn ∈ k.owned.arr ↔ ∃ c, cornerGetCell i k cn = some c ∧ m.cellType c = .PARALLEL_OWNED) ∧
        (cn ∈ k.ghost.arr ↔ ∃ c, cornerGetCell i k cn = some c ∧ m.cellType c = .PARALLEL_GHOST) ∧
        (cn ∈ k.bndry.arr ↔ ∃ c, cornerGetCell i k cn = some c ∧ m.cellType c = .BOUNDARY_GHOST)) ∧
      k.all.Perm (List.range k.cornerWedges.length) := by
  obtain ⟨i, e, hi⟩ := cache_ok h
  obtain ⟨k, ek, hk⟩ := corners_ok h hn hi
  have hnd := cornerVisits_nodup h hn
  have len := ncorners hk
  have inj : ∀ {j l : Nat} {v : Nat × Nat}, (cornerVisits m)[j]? = some v → (cornerVisits m)[l]? = some v → j = l := by
    intro j l v h1 h2
    exact (List.getElem?_inj (lt_of_getElem? h1) hnd).1 (h1.trans h2.symm)
  have cellOf : ∀ {cn c : Nat}, cornerGetCell i k cn = some c ↔ ∃ n, (cornerVisits m)[cn]? = some (c, n) := by
    intro cn c
    constructor
    · intro hc
      have hlt : cn < k.cornerWedges.length := by
        by_contra hge
        rw [cornerGetCell, List.getElem?_eq_none (by omega)] at hc; cases hc
      obtain ⟨c', n', hv⟩ := corner_visit hk hlt
      rw [corner_cell hn hi hk hv] at hc; cases hc
      exact ⟨n', hv⟩
    · rintro ⟨n, hv⟩; exact corner_cell hn hi hk hv
  have nodeOf : ∀ {cn n : Nat}, cornerGetNode m i k cn = some n ↔ ∃ c, (cornerVisits m)[cn]? = some (c, n) := by
    intro cn n
    constructor
    · intro hc
      have hlt : cn < k.cornerWedges.length := by
        by_contra hge
        rw [cornerGetNode, List.getElem?_eq_none (by omega)] at hc; cases hc
      obtain ⟨c', n', hv⟩ := corner_visit hk hlt
      rw [corner_node hn hi hk hv] at hc; cases hc
      exact ⟨c', hv⟩
    · rintro ⟨n, hv⟩; exact corner_node hn hi hk hv
  have pnd : ∀ {α : Type} (p : α → Bool) l, (positions p l).Nodup := fun p l =>
    (positions_sorted p l).imp fun h => Nat.ne_of_lt h
  have typed : ∀ (t : EntityType) cn, cn ∈ positions (fun v => m.cellType v.1 == t) (cornerVisits m) ↔
      ∃ c, cornerGetCell i k cn = some c ∧ m.cellType c = t := by
    intro t cn
    rw [mem_positions]
    constructor
    · rintro ⟨⟨c, n⟩, hv, ht⟩; exact ⟨c, cellOf.2 ⟨n, hv⟩, by simpa using ht⟩
    · rintro ⟨c, hc, ht⟩
      obtain ⟨n, hv⟩ := cellOf.1 hc
      exact ⟨(c, n), hv, by simpa using ht⟩
  have cellCorners : ∀ c < m.ncells, k.cellCorners[c]? = some (positions (fun v => v.1 == c) (cornerVisits m)) := by
    intro c hc
    rw [hk.cellCorners, List.getElem?_map, List.getElem?_range hc]; rfl
  have fo := hk.owned.full rfl
  have fg := hk.ghost.full rfl
  have fb := hk.bndry.full rfl
  refine ⟨i, k, e, ek, ?_, ?_, ?_, ?_, ?_, ?_, ?_, ?_, ?_⟩
  · intro cn hcn
    obtain ⟨c, n, hv⟩ := corner_visit hk hcn
    obtain ⟨hc, hcn⟩ := mem_cornerVisits.1 (List.mem_of_getElem? hv)
    exact ⟨c, hc, n, hcn, cellOf.2 ⟨n, hv⟩, nodeOf.2 ⟨c, hv⟩⟩
  · intro c hc n hcn
    obtain ⟨cn, hlt, hv⟩ := List.getElem_of_mem (mem_cornerVisits.2 ⟨hc, hcn⟩)
    have hv' : (cornerVisits m)[cn]? = some (c, n) := by rw [List.getElem?_eq_getElem hlt, hv]
    refine ⟨cn, ⟨by omega, cellOf.2 ⟨n, hv'⟩, nodeOf.2 ⟨c, hv'⟩⟩, ?_⟩
    rintro j ⟨-, h1, h2⟩
    obtain ⟨n', h1⟩ := cellOf.1 h1
    obtain ⟨c', h2⟩ := nodeOf.1 h2
    rw [h1] at h2; cases h2
    exact inj h1 hv'
  · intro cn ws c n hws hc hcn
    obtain ⟨n', hv⟩ := cellOf.1 hc
    obtain ⟨c', hv2⟩ := nodeOf.1 hcn
    rw [hv] at hv2; cases hv2
    rw [cornerWedges_some hk hv] at hws; cases hws
    refine ⟨(wedgesOf_nodup m c).filter _, fun w => ?_⟩
    rw [mem_cwedges]
    constructor
    · rintro ⟨hlt, h1, h2⟩
      obtain ⟨r, hr, hrc⟩ := wcell_side hi hlt
      exact ⟨⟨r, hr, hrc.trans h1⟩, by rw [wedgeGetNode_ok hi w hlt, h2]⟩
    · rintro ⟨⟨r, hr, hrc⟩, hw⟩
      obtain ⟨v, hv, -⟩ := hi.side_iff.1 hr
      have hlt : w / 2 < (visits m).length := lt_of_getElem? hv
      rw [wedgeGetNode_ok hi w hlt] at hw
      obtain ⟨r', hr', hrc'⟩ := wcell_side hi hlt
      rw [Info.wedge, wedgeGetSide, hr'] at hr; cases hr
      exact ⟨hlt, hrc'.symm.trans hrc, by simpa using hw⟩
  · intro w r hr
    obtain ⟨v, hv, -⟩ := hi.side_iff.1 hr
    have hlt : w / 2 < (visits m).length := lt_of_getElem? hv
    obtain ⟨cn, hcl, hcv⟩ := List.getElem_of_mem (wcell_wnode_visit hn hlt)
    have hcv' : (cornerVisits m)[cn]? = some (wcell m w, wnode m w) := by rw [List.getElem?_eq_getElem hcl, hcv]
    refine ⟨cn, hk.hit cn _ w hcv' hlt rfl rfl, ?_⟩
    intro cn' ws hws
    rw [cornerWedges_get hk, Option.map_eq_some_iff] at hws
    obtain ⟨⟨c, n⟩, hv', rfl⟩ := hws
    rw [mem_cwedges]
    constructor
    · rintro ⟨-, rfl, rfl⟩; exact inj hv' hcv'
    · rintro rfl
      rw [hcv'] at hv'; cases hv'
      exact ⟨hlt, rfl, rfl⟩
  · intro c hc
    refine ⟨_, cellCorners c hc, pnd _ _, fun cn => ?_⟩
    rw [mem_positions, len]
    constructor
    · rintro ⟨⟨c', n⟩, hv, ht⟩
      have : c' = c := by simpa using ht
      subst this
      exact ⟨lt_of_getElem? hv, cellOf.2 ⟨n, hv⟩⟩
    · rintro ⟨-, hcc⟩
      obtain ⟨n, hv⟩ := cellOf.1 hcc
      exact ⟨_, hv, by simp⟩
  · intro n hnn
    refine ⟨positions (fun v => v.2 == n) (cornerVisits m), ?_, pnd _ _, fun cn => ?_⟩
    · rw [nodeGetCorners, hk.nodeCorners, List.getElem?_map, List.getElem?_range hnn]; rfl
    rw [mem_positions, len]
    constructor
    · rintro ⟨⟨c, n'⟩, hv, ht⟩
      have : n' = n := by simpa using ht
      subst this
      exact ⟨lt_of_getElem? hv, nodeOf.2 ⟨c, hv⟩⟩
    · rintro ⟨-, hcc⟩
      obtain ⟨c, hv⟩ := nodeOf.1 hcc
      exact ⟨_, hv, by simp⟩
  · intro c hc n
    have loop : ∀ l : List Nat, (∀ cn ∈ l, ∃ n', (cornerVisits m)[cn]? = some (c, n')) →
        (∃ cn ∈ l, (cornerVisits m)[cn]? = some (c, n) ∧ cornerAtNodeLoop m i k n l = some (cn : Int)) ∨
        ((∀ cn ∈ l, (cornerVisits m)[cn]? ≠ some (c, n)) ∧ cornerAtNodeLoop m i k n l = some (-1)) := by
      intro l
      induction l with
      | nil => intro _; exact .inr ⟨by simp, rfl⟩
      | cons a l ih =>
        intro hl
        obtain ⟨n', ha⟩ := hl a (by simp)
        rw [cornerAtNodeLoop, corner_node hn hi hk ha, Option.bind_some]
        by_cases hnn : n' = n
        · subst hnn
          rw [if_pos rfl]
          exact .inl ⟨a, by simp, ha, rfl⟩
        · rw [if_neg hnn]
          rcases ih fun cn hcn => hl cn (by simp [hcn]) with ⟨cn, h1, h2, h3⟩ | ⟨h1, h2⟩
          · exact .inl ⟨cn, by simp [h1], h2, h3⟩
          · refine .inr ⟨?_, h2⟩
            intro cn hcn
            rcases List.mem_cons.1 hcn with rfl | hcn
            · rw [ha]; simp [hnn]
            · exact h1 cn hcn
    have hall : ∀ cn ∈ positions (fun v => v.1 == c) (cornerVisits m), ∃ n', (cornerVisits m)[cn]? = some (c, n') := by
      intro cn hcn
      obtain ⟨⟨c', n'⟩, hv, ht⟩ := mem_positions.1 hcn
      have : c' = c := by simpa using ht
      subst this
      exact ⟨n', hv⟩
    have hq : cellGetCornerAtNode m i k c n =
        cornerAtNodeLoop m i k n (positions (fun v => v.1 == c) (cornerVisits m)) := by
      rw [cellGetCornerAtNode, cellCorners c (h.cells_lt c hc), Option.bind_some]
    rcases loop _ hall with ⟨cn, -, hv, hl⟩ | ⟨hno, hl⟩
    · refine ⟨fun _ => ⟨cn, hq.trans hl, cellOf.2 ⟨n, hv⟩, nodeOf.2 ⟨c, hv⟩⟩, fun hnot => ?_⟩
      exact absurd (mem_cornerVisits.1 (List.mem_of_getElem? hv)).2 hnot
    · refine ⟨fun hcn => ?_, fun _ => hq.trans hl⟩
      obtain ⟨cn, hlt, hv⟩ := List.getElem_of_mem (mem_cornerVisits.2 ⟨hc, hcn⟩)
      have hv' : (cornerVisits m)[cn]? = some (c, n) := by rw [List.getElem?_eq_getElem hlt, hv]
      exact absurd hv' (hno cn (mem_positions.2 ⟨_, hv', by simp⟩))
  · intro cn
    rw [fo, fg, fb]
    exact ⟨typed _ cn, typed _ cn, typed _ cn⟩
  · rw [CornerInfo.all, fo, fg, fb, len]
    refine (List.perm_ext_iff_of_nodup ?_ List.nodup_range).2 ?_
    · have disj : ∀ {t u : EntityType}, t ≠ u → (positions (fun v => m.cellType v.1 == t) (cornerVisits m)).Disjoint
          (positions (fun v => m.cellType v.1 == u) (cornerVisits m)) := by
        intro t u htu
        rw [List.disjoint_left]
        intro cn h1 h2
        obtain ⟨v, hv, h1⟩ := mem_positions.1 h1
        obtain ⟨v', hv', h2⟩ := mem_positions.1 h2
        rw [hv] at hv'; cases hv'
        simp only [beq_iff_eq] at h1 h2
        exact htu (h1.symm.trans h2)
      refine List.Nodup.append (List.Nodup.append (pnd _ _) (pnd _ _) (disj (by decide))) (pnd _ _) ?_
      rw [List.disjoint_append_left]
      exact ⟨disj (by decide), disj (by decide)⟩
    · intro cn
      rw [List.mem_append, List.mem_append, List.mem_range]
      constructor
      · rintro ((hm | hm) | hm) <;>
          (obtain ⟨v, hv, -⟩ := mem_positions.1 hm; exact lt_of_getElem? hv)
      · intro hlt
        obtain ⟨c, n, hv⟩ : ∃ c n, (cornerVisits m)[cn]? = some (c, n) := ⟨_, _, List.getElem?_eq_getElem hlt⟩
        have hc := (mem_cornerVisits.1 (List.mem_of_getElem? hv)).1
        rcases h.types _ hc with ht | ht | ht
        · exact .inl (.inl (mem_positions.2 ⟨_, hv, by simp [ht]⟩))
        · exact .inl (.inr (mem_positions.2 ⟨_, hv, by simp [ht]⟩))
        · exact .inr (mem_positions.2 ⟨_, hv, by simp [ht]⟩)

example : ((cacheSideInfo quads).bind fun i => (cacheCornerInfo quads i).map fun k =>
    (k.cornerWedges, k.nodeCorners, cellGetCornerAtNode quads i k 1 4, cellGetCornerAtNode quads i k 1 0)) =
    some ([[0, 7], [1, 2], [3, 4], [5, 6], [8, 15], [9, 10], [11, 12], [13, 14]], [[0], [1, 4], [5], [3], [2, 7], [6]],
      some 7, some (-1)) := by decide +kernel
example : ∃ i k, cacheSideInfo tets = some i ∧ cacheCornerInfo tets i = some k ∧
    k.all.Perm (List.range k.cornerWedges.length) :=
  have ⟨i, k, h1, h2, _, _, _, _, _, _, _, _, h3⟩ := corners tets tets_ok.1 tets_ok.2.2; ⟨i, k, h1, h2, h3⟩

/-- **C66.** `node_get_corners` and `node_get_wedges` for a type list exactly the corners resp. wedges at the node whose
cell has that type (all of them for type ALL), without repetition. -/
theorem node_queries_by_type (m : Src) (h : Valid m) (hn : NodesOk m) :
    ∃ i k, cacheSideInfo m = some i ∧ cacheCornerInfo m i = some k ∧ ∀ n < m.nnodes, ∀ ty,
      (∃ l, nodeGetCornersOfType m i k ty n = some l ∧ l.Nodup ∧ ∀ cn, cn ∈ l ↔
        ∃ c, cornerGetCell i k cn = some c ∧ cornerGetNode m i k cn = some n ∧ m.cellType c = ty) ∧
      ∃ l, nodeGetWedges m i k ty n = some l ∧ l.Nodup ∧ ∀ w, w ∈ l ↔
        ∃ r, i.wedge w = some r ∧ wedgeGetNode m i w = some n ∧ (ty = .ALL ∨ m.cellType r.cell = ty) := by
  obtain ⟨i, e, hi⟩ := cache_ok h
  obtain ⟨k, ek, hk⟩ := corners_ok h hn hi
  refine ⟨i, k, e, ek, fun n hnn ty => ?_⟩
  have hq : k.nodeCorners[n]? = some (positions (fun v => v.2 == n) (cornerVisits m)) := by
    rw [hk.nodeCorners, List.getElem?_map, List.getElem?_range hnn]; rfl
  have hnd : (positions (fun v : Nat × Nat => v.2 == n) (cornerVisits m)).Nodup :=
    (positions_sorted _ _).imp fun h => Nat.ne_of_lt h
  have hmem : ∀ cn, cn ∈ positions (fun v : Nat × Nat => v.2 == n) (cornerVisits m) ↔
      ∃ c, (cornerVisits m)[cn]? = some (c, n) := by
    intro cn
    rw [mem_positions]
    constructor
    · rintro ⟨⟨c, n'⟩, hv, ht⟩
      have : n' = n := by simpa using ht
      subst this
      exact ⟨c, hv⟩
    · rintro ⟨c, hv⟩; exact ⟨_, hv, by simp⟩
  have inj : ∀ {j l : Nat} {v : Nat × Nat}, (cornerVisits m)[j]? = some v → (cornerVisits m)[l]? = some v → j = l := by
    intro j l v h1 h2
    exact (List.getElem?_inj (lt_of_getElem? h1) (cornerVisits_nodup h hn)).1 (h1.trans h2.symm)
  refine ⟨?_, ?_⟩
  · have loop : ∀ l : List Nat, (∀ cn ∈ l, ∃ c, (cornerVisits m)[cn]? = some (c, n)) → l.Nodup →
        ∃ l', nodeCornersLoop m i k ty l = some l' ∧ l'.Nodup ∧ ∀ cn, cn ∈ l' ↔
          cn ∈ l ∧ ∃ c, cornerGetCell i k cn = some c ∧ m.cellType c = ty := by
      intro l
      induction l with
      | nil => intro _ _; exact ⟨[], rfl, by simp, by simp⟩
      | cons a l ih =>
        intro hl hl2
        obtain ⟨c, ha⟩ := hl a (by simp)
        obtain ⟨l', e', hnd', hm'⟩ := ih (fun cn hcn => hl cn (by simp [hcn])) (List.nodup_cons.1 hl2).2
        obtain ⟨w0, e0, hlt, hwc, -⟩ := corner_first hn hk ha
        obtain ⟨r, hr, hrc⟩ := wcell_side hi hlt
        have hcc := corner_cell hn hi hk ha
        rw [nodeCornersLoop, e0, Option.bind_some, hr, Option.bind_some, e', Option.map_some, hrc, hwc]
        refine ⟨_, rfl, ?_, ?_⟩
        · split
          · rw [List.nodup_cons]
            exact ⟨fun hc => (List.nodup_cons.1 hl2).1 ((hm' a).1 hc).1, hnd'⟩
          · exact hnd'
        · intro cn
          split
          · rename_i ht
            rw [List.mem_cons, hm', List.mem_cons]
            constructor
            · rintro (rfl | ⟨h1, h2⟩)
              · exact ⟨.inl rfl, c, hcc, ht⟩
              · exact ⟨.inr h1, h2⟩
            · rintro ⟨rfl | h1, h2⟩
              · exact .inl rfl
              · exact .inr ⟨h1, h2⟩
          · rename_i ht
            rw [hm', List.mem_cons]
            constructor
            · rintro ⟨h1, h2⟩; exact ⟨.inr h1, h2⟩
            · rintro ⟨rfl | h1, h2⟩
              · obtain ⟨c', hc', ht'⟩ := h2
                rw [hcc] at hc'; cases hc'
                exact absurd ht' ht
              · exact ⟨h1, h2⟩
    obtain ⟨l', e', hnd', hm'⟩ := loop _ (fun cn hcn => (hmem cn).1 hcn) hnd
    refine ⟨l', by rw [nodeGetCornersOfType, hq, Option.bind_some, e'], hnd', fun cn => ?_⟩
    rw [hm', hmem]
    constructor
    · rintro ⟨⟨c, hv⟩, c', hc', ht⟩
      exact ⟨c', hc', corner_node hn hi hk hv, ht⟩
    · rintro ⟨c, hc, hcn, ht⟩
      have hlt : cn < k.cornerWedges.length := by
        by_contra hge
        rw [cornerGetCell, List.getElem?_eq_none (by omega)] at hc; cases hc
      obtain ⟨c', n', hv⟩ := corner_visit hk hlt
      rw [corner_node hn hi hk hv] at hcn; cases hcn
      exact ⟨⟨c', hv⟩, c, hc, ht⟩
  · have inner : ∀ ws : List Nat, (∀ w ∈ ws, w / 2 < (visits m).length) →
        nodeWedgesInner m i ty ws = some (ws.filter fun w => decide (ty = .ALL ∨ m.cellType (wcell m w) = ty)) := by
      intro ws
      induction ws with
      | nil => intro _; rfl
      | cons a ws ih =>
        intro hw
        obtain ⟨r, hr, hrc⟩ := wcell_side hi (hw a (by simp))
        rw [nodeWedgesInner, hr, Option.bind_some, ih fun w h => hw w (by simp [h]), Option.map_some, hrc,
          List.filter_cons]
        simp only [decide_eq_true_eq]
    have outer : ∀ l : List Nat, (∀ cn ∈ l, ∃ c, (cornerVisits m)[cn]? = some (c, n)) → l.Nodup →
        ∃ l', nodeWedgesOuter m i k ty l = some l' ∧ l'.Nodup ∧ ∀ w, w ∈ l' ↔
          (∃ cn ∈ l, ∃ c, (cornerVisits m)[cn]? = some (c, n) ∧ w ∈ cwedges m (c, n)) ∧
            (ty = .ALL ∨ m.cellType (wcell m w) = ty) := by
      intro l
      induction l with
      | nil => intro _ _; exact ⟨[], rfl, by simp, by simp⟩
      | cons a l ih =>
        intro hl hl2
        obtain ⟨c, ha⟩ := hl a (by simp)
        obtain ⟨l', e', hnd', hm'⟩ := ih (fun cn hcn => hl cn (by simp [hcn])) (List.nodup_cons.1 hl2).2
        have hin := inner (cwedges m (c, n)) fun w hw => (mem_cwedges.1 hw).1
        rw [nodeWedgesOuter, cornerWedges_some hk ha, Option.bind_some, hin, Option.bind_some, e', Option.map_some]
        refine ⟨_, rfl, ?_, ?_⟩
        · refine List.Nodup.append (((wedgesOf_nodup m c).filter _).filter _) hnd' ?_
          rw [List.disjoint_left]
          intro w h1 h2
          obtain ⟨⟨cn, hcn, c', hv', hw'⟩, -⟩ := (hm' w).1 h2
          have hw := (mem_cwedges.1 (List.mem_of_mem_filter h1)).2.1
          have hw2 := (mem_cwedges.1 hw').2.1
          rw [← hw2, hw] at hv'
          have := inj ha hv'
          subst this
          exact (List.nodup_cons.1 hl2).1 hcn
        · intro w
          rw [List.mem_append, hm', List.mem_filter, decide_eq_true_eq]
          constructor
          · rintro (⟨h1, h2⟩ | ⟨⟨cn, hcn, h1⟩, h2⟩)
            · exact ⟨⟨a, by simp, c, ha, h1⟩, h2⟩
            · exact ⟨⟨cn, by simp [hcn], h1⟩, h2⟩
          · rintro ⟨⟨cn, hcn, c', hv', hw'⟩, h2⟩
            rcases List.mem_cons.1 hcn with rfl | hcn
            · rw [ha] at hv'; cases hv'
              exact .inl ⟨hw', h2⟩
            · exact .inr ⟨⟨cn, hcn, c', hv', hw'⟩, h2⟩
    obtain ⟨l', e', hnd', hm'⟩ := outer _ (fun cn hcn => (hmem cn).1 hcn) hnd
    refine ⟨l', by rw [nodeGetWedges, hq, Option.bind_some, e'], hnd', fun w => ?_⟩
    rw [hm']
    constructor
    · rintro ⟨⟨cn, -, c, -, hw⟩, ht⟩
      obtain ⟨hlt, -, hwn⟩ := mem_cwedges.1 hw
      obtain ⟨r, hr, hrc⟩ := wcell_side hi hlt
      exact ⟨r, hr, by rw [wedgeGetNode_ok hi w hlt, hwn], by rw [hrc]; exact ht⟩
    · rintro ⟨r, hr, hw, ht⟩
      obtain ⟨v, hv, -⟩ := hi.side_iff.1 hr
      have hlt : w / 2 < (visits m).length := lt_of_getElem? hv
      obtain ⟨r', hr', hrc'⟩ := wcell_side hi hlt
      rw [Info.wedge, wedgeGetSide, hr'] at hr; cases hr
      rw [wedgeGetNode_ok hi w hlt] at hw
      simp only [Option.some.injEq] at hw
      have hcv := wcell_wnode_visit hn hlt
      rw [hw] at hcv
      obtain ⟨cn, hcl, hcv'⟩ := List.getElem_of_mem hcv
      have hcv'' : (cornerVisits m)[cn]? = some (wcell m w, n) := by rw [List.getElem?_eq_getElem hcl, hcv']
      refine ⟨⟨cn, (hmem cn).2 ⟨_, hcv''⟩, _, hcv'', mem_cwedges.2 ⟨hlt, rfl, hw⟩⟩, ?_⟩
      rw [← hrc']; exact ht

example : ((cacheSideInfo quads).bind fun i => (cacheCornerInfo quads i).map fun k =>
    (nodeGetWedges quads i k .ALL 4, nodeGetWedges quads i k .PARALLEL_GHOST 4,
      nodeGetCornersOfType quads i k .PARALLEL_OWNED 4)) =
    some (some [3, 4, 13, 14], some [13, 14], some [2]) := by decide +kernel

end Jali.Sides
