import Verif.Props.MstkSides
/-
C115 (corners, opposite sides) and C116: entity types, lists and counts of a mesh made by MSTK.
-/
namespace Jali.Mstk
open Jali.Sides Jali.Sides.Spec

/-- what the user sees of the type of an entity: owned unless MSTK calls it a ghost; a cell made for the boundary is a boundary
ghost -/
def expected (p : PType) (bg : Bool) : EntityType :=
  if p = .ghost then .PARALLEL_GHOST else if bg then .BOUNDARY_GHOST else .PARALLEL_OWNED

theorem type_of_names {n : Nat} {im : IdMap n} {L : IdLists} {pt : Fin n → PType} {mk : Fin n → Bool} {q : Nat → Option EntityType}
    {list : EntityType → List Nat}
    (hn : Names im L (fun v => pt v ≠ .ghost ∧ ¬ mk v = true) (fun v => pt v = .ghost) (fun v => pt v ≠ .ghost ∧ mk v = true))
    (ha : ∀ e ty, Types.isType ty → (q e = some ty ↔ e ∈ list ty))
    (l1 : list .PARALLEL_OWNED = L.owned) (l2 : list .PARALLEL_GHOST = L.ghost) (l3 : list .BOUNDARY_GHOST = L.bndry)
    {i : Nat} {v : Fin n} (hv : im.at i = some v) : q i = some (expected (pt v) (mk v)) := by
  unfold expected
  split
  · rename_i hp
    rw [ha _ _ (.inr (.inl rfl)), l2]
    exact (hn.ghost_iff i v hv).mpr hp
  · rename_i hp
    split
    · rename_i hb
      rw [ha _ _ (.inr (.inr rfl)), l3]
      exact (hn.bndry_iff i v hv).mpr ⟨hp, hb⟩
    · rename_i hb
      rw [ha _ _ (.inl rfl), l1]
      exact (hn.owned_iff i v hv).mpr ⟨hp, hb⟩

/-- **C116** (3D) `entity_get_type` tells what MSTK says about each entity, and `num_entities` counts MSTK's entities; without a
request there are no faces (edges) and their type is unknown -/
theorem types_of_mesh3 (j : JMesh) (r : MeshCache.Request) (h : j.Made3 r) (hp : j.m.Polygons) (hr : j.m.Regions) :
    ∃ c, Types.cacheExtra (j.base3 r) = some c ∧
      (∀ n v, j.m.vmap.at n = some v → Types.entityGetType (j.base3 r) c .NODE n = some (expected (j.m.vtx v).ptype false)) ∧
      (∀ n v, (j.m.rmap j.bg).at n = some v →
        Types.entityGetType (j.base3 r) c .CELL n = some (expected (j.m.region v).ptype (j.bg && (j.m.region v).bndryGhost))) ∧
      (∀ n v, j.m.fmap.at n = some v → Types.entityGetType (j.base3 r) c .FACE n =
        some (if r.faces then expected (j.m.face v).ptype false else .TYPE_UNKNOWN)) ∧
      (∀ n v, j.m.emap.at n = some v → Types.entityGetType (j.base3 r) c .EDGE n =
        some (if r.edges then expected (j.m.edge v).ptype false else .TYPE_UNKNOWN)) ∧
      Types.numEntities (j.base3 r) c .NODE .ALL = j.m.nv ∧ Types.numEntities (j.base3 r) c .CELL .ALL = j.m.nr ∧
      Types.numEntities (j.base3 r) c .FACE .ALL = (if r.faces then j.m.nf else 0) ∧
      Types.numEntities (j.base3 r) c .EDGE .ALL = (if r.edges then j.m.ne else 0) := by
  have W := mesh_ok3 j r h hp hr
  obtain ⟨c, hc, hrep, hun⟩ := Types.entity_types _ W
  obtain ⟨N1, N2, N3, N4, _⟩ := ids_name_entities j.m j.bg
  refine ⟨c, hc, ?_, ?_, ?_, ?_, ?_, ?_, ?_, ?_⟩
  · intro n v hv
    exact type_of_names (mk := fun _ => false) (by simpa using N1) (hrep .NODE trivial).1 rfl rfl rfl hv
  · intro n v hv
    exact type_of_names (mk := fun v => j.bg && (j.m.region v).bndryGhost) (by simpa using N4) (hrep .CELL trivial).1 rfl rfl rfl hv
  · intro n v hv
    by_cases hf : r.faces = true
    · rw [if_pos hf]
      refine type_of_names (L := j.m.faceIds3) (mk := fun _ => false) (by simpa using N3) (hrep .FACE hf).1 ?_ ?_ rfl hv
      all_goals simp [Types.entities, JMesh.base3, hf, Types.Two.ofType]
    · rw [if_neg hf]
      exact hun .FACE n hf
  · intro n v hv
    by_cases hf : r.edges = true
    · rw [if_pos hf]
      refine type_of_names (L := j.m.edgeIds) (mk := fun _ => false) (by simpa using N2) (hrep .EDGE hf).1 ?_ ?_ rfl hv
      all_goals simp [Types.entities, JMesh.base3, hf, Types.Two.ofType]
    · rw [if_neg hf]
      exact hun .EDGE n hf
  · exact (numbered_two_of (ids_consecutive j.m j.bg).1 rfl).1
  · have := congrArg List.length (numbered_of (ids_consecutive j.m j.bg).2.2.2.1).1
    simpa [Types.numEntities, Types.num3, JMesh.base3, Nat.add_assoc] using this
  · show Types.Two.num (if r.faces then _ else _) .ALL = _
    split
    · exact (numbered_two_of (ids_consecutive j.m j.bg).2.2.1 rfl).1
    · rfl
  · show Types.Two.num (if r.edges then _ else _) .ALL = _
    split
    · exact (numbered_two_of (ids_consecutive j.m j.bg).2.1 rfl).1
    · rfl

/-- **C116** (2D): the faces are MSTK's edges, the cells its faces -/
theorem types_of_mesh2 (j : JMesh) (r : MeshCache.Request) (h : j.Made2 r) (hp : j.m.Polygons) (hr : j.m.OrientedCells) :
    ∃ c, Types.cacheExtra (j.base2 r) = some c ∧
      (∀ n v, j.m.vmap.at n = some v → Types.entityGetType (j.base2 r) c .NODE n = some (expected (j.m.vtx v).ptype false)) ∧
      (∀ n v, (j.m.cmap j.bg).at n = some v →
        Types.entityGetType (j.base2 r) c .CELL n = some (expected (j.m.face v).ptype (j.bg && (j.m.face v).bndryGhost))) ∧
      (∀ n v, j.m.emap.at n = some v → Types.entityGetType (j.base2 r) c .FACE n =
        some (if r.faces then expected (j.m.edge v).ptype false else .TYPE_UNKNOWN)) ∧
      (∀ n v, j.m.emap.at n = some v → Types.entityGetType (j.base2 r) c .EDGE n =
        some (if r.edges then expected (j.m.edge v).ptype false else .TYPE_UNKNOWN)) ∧
      Types.numEntities (j.base2 r) c .NODE .ALL = j.m.nv ∧ Types.numEntities (j.base2 r) c .CELL .ALL = j.m.nf ∧
      Types.numEntities (j.base2 r) c .FACE .ALL = (if r.faces then j.m.ne else 0) ∧
      Types.numEntities (j.base2 r) c .EDGE .ALL = (if r.edges then j.m.ne else 0) := by
  have W := mesh_ok2 j r h hp hr
  obtain ⟨c, hc, hrep, hun⟩ := Types.entity_types _ W
  obtain ⟨N1, N2, _, _, N5⟩ := ids_name_entities j.m j.bg
  refine ⟨c, hc, ?_, ?_, ?_, ?_, ?_, ?_, ?_, ?_⟩
  · intro n v hv
    exact type_of_names (mk := fun _ => false) (by simpa using N1) (hrep .NODE trivial).1 rfl rfl rfl hv
  · intro n v hv
    exact type_of_names (mk := fun v => j.bg && (j.m.face v).bndryGhost) (by simpa using N5) (hrep .CELL trivial).1 rfl rfl rfl hv
  · intro n v hv
    by_cases hf : r.faces = true
    · rw [if_pos hf]
      refine type_of_names (L := j.m.edgeIds) (mk := fun _ => false) (by simpa using N2) (hrep .FACE hf).1 ?_ ?_ rfl hv
      all_goals simp [Types.entities, JMesh.base2, hf, Types.Two.ofType]
    · rw [if_neg hf]
      exact hun .FACE n hf
  · intro n v hv
    by_cases hf : r.edges = true
    · rw [if_pos hf]
      refine type_of_names (L := j.m.edgeIds) (mk := fun _ => false) (by simpa using N2) (hrep .EDGE hf).1 ?_ ?_ rfl hv
      all_goals simp [Types.entities, JMesh.base2, hf, Types.Two.ofType]
    · rw [if_neg hf]
      exact hun .EDGE n hf
  · exact (numbered_two_of (ids_consecutive j.m j.bg).1 rfl).1
  · have := congrArg List.length (numbered_of (ids_consecutive j.m j.bg).2.2.2.2).1
    simpa [Types.numEntities, Types.num3, JMesh.base2, Nat.add_assoc] using this
  · show Types.Two.num (if r.faces then _ else _) .ALL = _
    split
    · exact (numbered_two_of (ids_consecutive j.m j.bg).2.1 rfl).1
    · rfl
  · show Types.Two.num (if r.edges then _ else _) .ALL = _
    split
    · exact (numbered_two_of (ids_consecutive j.m j.bg).2.1 rfl).1
    · rfl

/-! ### Corners and opposite sides -/

/-- **C115** (3D) there is exactly one corner for each node of each cell -/
theorem corners_of_mesh3 (j : JMesh) (r : MeshCache.Request) (h : j.Made3 r) (hp : j.m.Polygons) (hr : j.m.Regions)
    (hk : r.corners = true) :
    ∃ c i k, Types.cacheExtra (j.base3 r) = some c ∧ c.side = some i ∧ c.corner = some k ∧
      (∀ cell n, Has (j.cellNodes3 cell) n ↔ ∃ cn, cn < k.cornerWedges.length ∧ cornerGetCell i k cn = some cell ∧
        cornerGetNode (Types.source (j.base3 r) c.types) i k cn = some n) ∧
      (∀ cn cn' cell n, cn < k.cornerWedges.length → cn' < k.cornerWedges.length → cornerGetCell i k cn = some cell →
        cornerGetCell i k cn' = some cell → cornerGetNode (Types.source (j.base3 r) c.types) i k cn = some n →
        cornerGetNode (Types.source (j.base3 r) c.types) i k cn' = some n → cn = cn') := by
  have W := mesh_ok3 j r h hp hr
  have hs : r.sides = true := by
    obtain ⟨r0, rfl⟩ := h.closed
    obtain ⟨a, b, c, d, e⟩ := r0
    cases a <;> cases b <;> cases c <;> cases d <;> cases e <;> first | rfl | cases hk
  obtain ⟨c, i, hc, hi, hci, hv, ho, hn⟩ := side_caches W hs
  obtain ⟨c', hc', _, _, _, _, hcorner, _⟩ := Types.cacheExtra_ok _ W
  rw [hc] at hc'; cases hc'
  obtain ⟨i', k, hi', hck, h1, h2, _⟩ := corners _ hv hn
  rw [hci] at hi'; cases hi'
  have hnodes : ∀ cell n, Has (j.cellNodes3 cell) n ↔ cell ∈ (Types.source (j.base3 r) c.types).cells ∧
      n ∈ (Types.source (j.base3 r) c.types).cellNodes cell := by
    intro cell n
    show _ ↔ cell ∈ (j.base3 r).cells.all ∧ n ∈ (j.cellNodes3 cell).getD []
    rw [cells3_range, List.mem_range]
    constructor
    · rintro ⟨l, hl, hm⟩
      rw [hl]
      refine ⟨?_, hm⟩
      cases hg : (j.m.rmap j.bg).at cell with
      | none => simp [JMesh.cellNodes3, hg] at hl
      | some g => exact (j.m.rnum j.bg).lt_of_at hg
    · rintro ⟨_, hm⟩
      cases hl : j.cellNodes3 cell with
      | none => rw [hl] at hm; cases hm
      | some l => rw [hl] at hm; exact ⟨l, rfl, hm⟩
  refine ⟨c, i, k, hc, hi, (hcorner k).mpr ⟨hk, i, hci, hck⟩, ?_, ?_⟩
  · intro cell n
    rw [hnodes]
    constructor
    · rintro ⟨a, b⟩
      obtain ⟨cn, hcn, _⟩ := h2 cell a n b
      exact ⟨cn, hcn⟩
    · rintro ⟨cn, hlt, e1, e2⟩
      obtain ⟨cell', a, n', b, e1', e2'⟩ := h1 cn hlt
      rw [e1] at e1'; rw [e2] at e2'
      cases e1'; cases e2'
      exact ⟨a, b⟩
  · intro cn cn' cell n hlt hlt' e1 e1' e2 e2'
    obtain ⟨cell', a, n', b, e1'', e2''⟩ := h1 cn hlt
    rw [e1] at e1''; rw [e2] at e2''
    cases e1''; cases e2''
    obtain ⟨_, _, hu⟩ := h2 cell a n b
    rw [hu cn ⟨hlt, e1, e2⟩, hu cn' ⟨hlt', e1', e2'⟩]

/-- **C115** (3D) `side_get_opposite_side`: the side in the other cell of the face, with the nodes exchanged; -1 exactly for
faces with one cell in the mesh of this rank -/
theorem opposite_sides_of_mesh3 (j : JMesh) (r : MeshCache.Request) (h : j.Made3 r) (hp : j.m.Polygons) (hr : j.m.Regions)
    (hs : r.sides = true) :
    ∃ c i, Types.cacheExtra (j.base3 r) = some c ∧ c.side = some i ∧
      ∀ s cell face edge n0 n1, SideIs (j.base3 r) c s cell face edge n0 n1 →
        (i.opposite s = some (-1) ∧ ∀ cell', HasFst (j.cellGetFaces3 cell') face → cell' = cell) ∨
        ∃ (t : Nat) (cell' : Nat), i.opposite s = some (t : Int) ∧ i.opposite t = some (s : Int) ∧ cell' ≠ cell ∧
          HasFst (j.cellGetFaces3 cell') face ∧ SideIs (j.base3 r) c t cell' face edge n1 n0 := by
  have W := mesh_ok3 j r h hp hr
  obtain ⟨c, i, hc, hi, hci, hv, ho, hn⟩ := side_caches W hs
  obtain ⟨c', hc', hfwd, hex⟩ := sides_of_mesh3 j r h hp hr hs
  rw [hc] at hc'; cases hc'
  obtain ⟨i', hi', hopp⟩ := opposite_sides _ hv
  rw [hci] at hi'; cases hi'
  obtain ⟨i', hi', hrev⟩ := opposite_sides_reversed _ hv ho W.dim
  rw [hci] at hi'; cases hi'
  refine ⟨c, i, hc, hi, ?_⟩
  intro s cell face edge n0 n1 hside
  obtain ⟨hcf, hfe, _⟩ := hfwd _ _ _ _ _ _ hside
  obtain ⟨i', rec, hi'', hrec, e1, e2, e3, a0, a1⟩ := hside
  rw [hi] at hi''; cases hi''
  rcases hopp s rec hrec with ⟨hm, hall⟩ | ⟨t, q, ht, hts, hq, hqf, hqe, hqc⟩
  · left
    refine ⟨hm, ?_⟩
    intro cell' hc'
    obtain ⟨t, ⟨m0, m1, ⟨i', q, hi'', hq, f1, f2, f3, _⟩⟩, _⟩ := hex cell' face edge hc' hfe
    rw [hi] at hi''; cases hi''
    rw [← f1, hall t q hq (by rw [f2, e2]) (by rw [f3, e3]), e1]
  · right
    obtain ⟨a, b, b0, b1, c0, c1⟩ := hrev s t ht
    rw [a0] at b0; rw [a1] at b1
    cases b0; cases b1
    have hs' : SideIs (j.base3 r) c t q.cell face edge n1 n0 :=
      ⟨i, q, hi, hq, rfl, by rw [hqf, e2], by rw [hqe, e3], c0, c1⟩
    refine ⟨t, q.cell, ht, hts, by rw [← e1]; exact hqc, (hfwd _ _ _ _ _ _ hs').1, hs'⟩

/-! ### the hypotheses are met -/

/-- rank 1: cell 0 is owned, cell 1 is the ghost; nodes 1 to 4 belong to the other rank -/
example : ∃ c, Types.cacheExtra (rankMesh.base3 reqAll) = some c ∧
    Types.entityGetType (rankMesh.base3 reqAll) c .CELL 1 = some .PARALLEL_GHOST ∧
    Types.entityGetType (rankMesh.base3 reqAll) c .NODE 0 = some .PARALLEL_OWNED ∧
    Types.numEntities (rankMesh.base3 reqAll) c .FACE .ALL = 7 := by
  obtain ⟨c, hc, h1, h2, _, _, _, _, h3, _⟩ := types_of_mesh3 rankMesh reqAll rankMesh_made.1 rank_polygons.2.1 rank_regions.2.1
  refine ⟨c, hc, ?_, ?_, h3⟩
  · exact h2 1 0 (by decide +kernel)
  · exact h1 0 4 (by decide +kernel)

/-- a boundary ghost -/
example : ∃ c, Types.cacheExtra (sample3.base3 reqAll) = some c ∧
    Types.entityGetType (sample3.base3 reqAll) c .CELL 1 = some .BOUNDARY_GHOST := by
  obtain ⟨c, hc, h1, h2, _⟩ := types_of_mesh3 sample3 reqAll sample3_made sample3_ok.2 sample3_ok.1
  exact ⟨c, hc, h2 1 (1 : Fin 2) (show (sampleMesh3.rmap true).at 1 = some 1 by decide +kernel)⟩

/-- a request for nothing but cells and nodes: the type of a face is unknown -/
example : ∃ c, Types.cacheExtra ((⟨sampleMesh, false, false, false, false, [], []⟩ : JMesh).base2 ⟨false, false, false, false, false⟩) = some c ∧
    Types.entityGetType ((⟨sampleMesh, false, false, false, false, [], []⟩ : JMesh).base2 ⟨false, false, false, false, false⟩) c .FACE 0 =
      some .TYPE_UNKNOWN := by
  obtain ⟨c, hc, _, _, h3, _⟩ := types_of_mesh2 ⟨sampleMesh, false, false, false, false, [], []⟩ ⟨false, false, false, false, false⟩
    ⟨⟨⟨false, false, false, false, false⟩, rfl⟩, rfl, rfl, (fun h => by cases h), (fun h => by cases h)⟩ sample2_ok.1 sample2_ok.2
  exact ⟨c, hc, h3 0 _ (show sampleMesh.emap.at 0 = some 1 by decide +kernel)⟩

/-- the side of cell 0 on the common face and edge 3 has the opposite side 14, of cell 1 -/
example : ∃ c i, Types.cacheExtra (rankMesh.base3 reqAll) = some c ∧ c.side = some i ∧
    SideIs (rankMesh.base3 reqAll) c 2 0 3 3 2 1 ∧ SideIs (rankMesh.base3 reqAll) c 14 1 3 3 1 2 := by
  obtain ⟨c, i, hc, hi, _⟩ := opposite_sides_of_mesh3 rankMesh reqAll rankMesh_made.1 rank_polygons.2.1 rank_regions.2.1 rfl
  exact ⟨c, i, hc, hi, sideData_is hc (by decide +kernel), sideData_is hc (by decide +kernel)⟩

example : ((Types.cacheExtra (rankMesh.base3 reqAll)).bind fun c => c.corner.map fun k => k.cornerWedges.length) = some 8 ∧
    rankMesh.cellNodes3 1 = some [2, 3, 1, 4] := by decide +kernel

end Jali.Mstk
