import Verif.Proof.CornerGeometry
/-! Property theorems C83: volumes, facets and coordinates of corners in two and three dimensions. -/
namespace Jali.SideGeom
open Jali.Sides Jali.Sides.Spec Jali.Geom Jali.Geom.Spec Jali.Geom.Point Spec

/-! ### the corners of a cell fill it -/

/-- **C83, volumes.** The volumes of the corners of a cell add up to the volumes of its sides. -/
theorem corner_volumes_sum (m : Src) (faceNodes : Nat → List Nat) (g : Coords) (h : Solid m faceNodes g ∨ Plane m g) (hn : NodesOk m) :
    ∃ i k, cacheSideInfo m = some i ∧ cacheCornerInfo m i = some k ∧ ∀ c ∈ m.cells,
      ∃ (lc ls : List Nat) (vc vs : List ℝ), k.cellCorners[c]? = some lc ∧ i.cellGetSides c = some ls ∧
        lc.map (cornerVolume (ofCaches m i k g)) = vc.map some ∧ ls.map (sideVolume (ofCaches m i k g)) = vs.map some ∧
        vc.sum = vs.sum := by
  have hv : Valid m := h.elim (·.valid) (·.valid)
  obtain ⟨i, k, e, ek, h1, h2, h3, h4, h5, _⟩ := corners m hv hn
  obtain ⟨i', e', hi⟩ := cache_ok hv
  rw [e] at e'; cases e'
  obtain ⟨i', e', _, _, hinc, _, hs, _⟩ := sides_are_incidences m hv
  rw [e] at e'; cases e'
  refine ⟨i, k, e, ek, fun c hc => ?_⟩
  obtain ⟨lc, hlc, hlcn, hlcm⟩ := h5 c (hv.cells_lt c hc)
  obtain ⟨ls, hls, hlsn, hlsm⟩ := hs c (hv.cells_lt c hc)
  set M := ofCaches m i k g with hM
  have hvol : ∀ s r, i.side s = some r → ∃ x, sideVolume M s = some x := by
    intro s r hr
    obtain ⟨v, hv', rfl⟩ := hi.side_iff.1 hr
    rcases h with h | h
    · exact ⟨_, by rw [sideVolume, solid_stored h hi k hv']; rfl⟩
    · exact ⟨_, by rw [sideVolume, plane_stored h hi k hv']; rfl⟩
  let V : Nat → ℝ := fun s => (sideVolume M s).getD 0
  have hV : ∀ s r, i.side s = some r → sideVolume M s = some (V s) := by
    intro s r hr
    obtain ⟨x, hx⟩ := hvol s r hr
    simp only [V, hx, Option.getD_some]
  let W : Nat → List Nat := fun cn => k.cornerWedges[cn]?.getD []
  refine ⟨lc, ls, lc.map fun cn => ((W cn).map fun w => V (w / 2) / 2).sum, ls.map V, hlc, hls, ?_, ?_, ?_⟩
  · rw [List.map_map]
    apply List.map_congr_left
    intro cn hcn
    obtain ⟨hlt, hcc⟩ := (hlcm cn).1 hcn
    obtain ⟨c', _, n, _, h6, h8⟩ := h1 cn hlt
    have hws : k.cornerWedges[cn]? = some k.cornerWedges[cn] := List.getElem?_eq_getElem hlt
    obtain ⟨_, hw⟩ := h3 cn _ c' n hws h6 h8
    have hcw : M.cornerWedges cn = some k.cornerWedges[cn] := hws
    rw [cornerVolume, hcw, Option.bind_some, sumWedges_eq M (fun w => V (w / 2) / 2), zero_add]
    · simp only [Function.comp_def, W, hws, Option.getD_some]
    · intro w hw'
      obtain ⟨⟨r, hr, _⟩, _⟩ := (hw w).1 hw'
      rw [wedgeVolume, hV (w / 2) r hr]; rfl
  · rw [List.map_map]
    apply List.map_congr_left
    intro s hs'
    obtain ⟨r, hr, _⟩ := (hlsm s).1 hs'
    exact hV s r hr
  · have hp : (lc.flatMap W).Perm (ls.flatMap fun s => [2 * s, 2 * s + 1]) := by
      have hlnd : ls.Nodup := hlsn.imp fun h => Nat.ne_of_lt h
      have hfl : (ls.flatMap fun s => [2 * s, 2 * s + 1]).Nodup := by
        rw [List.nodup_flatMap]
        refine ⟨fun s _ => by simp, hlnd.imp ?_⟩
        intro a b hab w ha hb
        simp at ha hb
        omega
      have hW : ∀ cn ∈ lc, ∃ ws c n, k.cornerWedges[cn]? = some ws ∧ W cn = ws ∧ cornerGetCell i k cn = some c ∧ cornerGetNode m i k cn = some n := by
        intro cn hcn
        obtain ⟨hlt, hcc⟩ := (hlcm cn).1 hcn
        obtain ⟨c', _, n, _, h6, h8⟩ := h1 cn hlt
        have hws : k.cornerWedges[cn]? = some k.cornerWedges[cn] := List.getElem?_eq_getElem hlt
        exact ⟨_, c', n, hws, by simp only [W, hws, Option.getD_some], h6, h8⟩
      refine (List.perm_ext_iff_of_nodup ?_ hfl).2 fun w => ?_
      · rw [List.nodup_flatMap]
        refine ⟨fun cn hcn => ?_, ?_⟩
        · obtain ⟨ws, c', n, hws, hW', h6, h8⟩ := hW cn hcn
          rw [hW']
          exact (h3 cn ws c' n hws h6 h8).1
        · refine List.Pairwise.imp_of_mem ?_ hlcn
          intro a b ha hb hab w hwa hwb
          obtain ⟨wa, ca, na, hwsa, hWa, h6a, h8a⟩ := hW a ha
          obtain ⟨wb, cb, nb, hwsb, hWb, _, _⟩ := hW b hb
          rw [hWa] at hwa
          rw [hWb] at hwb
          obtain ⟨⟨r, hr, _⟩, _⟩ := ((h3 a wa ca na hwsa h6a h8a).2 w).1 hwa
          obtain ⟨cn, _, hcn⟩ := h4 w r hr
          exact hab (((hcn a wa hwsa).1 hwa).trans ((hcn b wb hwsb).1 hwb).symm)
      · rw [List.mem_flatMap, List.mem_flatMap]
        constructor
        · rintro ⟨cn, hcn, hw⟩
          obtain ⟨ws, c', n, hws, hW', h6, h8⟩ := hW cn hcn
          rw [hW'] at hw
          rw [((hlcm cn).1 hcn).2] at h6
          cases h6
          obtain ⟨⟨r, hr, hrc⟩, _⟩ := ((h3 cn ws c n hws ((hlcm cn).1 hcn).2 h8).2 w).1 hw
          refine ⟨w / 2, (hlsm _).2 ⟨r, hr, hrc⟩, by simp; omega⟩
        · rintro ⟨s, hs', hw⟩
          have hws : w / 2 = s := by simp at hw; omega
          obtain ⟨r, hr, hrc⟩ := (hlsm s).1 hs'
          have hwr : i.wedge w = some r := by rw [Info.wedge, wedgeGetSide, hws]; exact hr
          have hnode : ∃ n, wedgeGetNode m i w = some n ∧ ((m.edgeNodes r.edge).1 = n ∨ (m.edgeNodes r.edge).2 = n) := by
            rw [wedgeGetNode, sideGetNode, wedgeGetSide, hws, hr, Option.map_some]
            dsimp only
            split
            · exact ⟨_, rfl, .inl rfl⟩
            · exact ⟨_, rfl, .inr rfl⟩
          obtain ⟨n, hn1, hn2⟩ := hnode
          have hinc := hinc s r hr
          rw [hrc] at hinc
          obtain ⟨cn, ⟨hlt, h6, h8⟩, _⟩ := h2 c hc n ((hn.ends c hc n).2 ⟨_, _, hinc, hn2⟩)
          have hwc : k.cornerWedges[cn]? = some k.cornerWedges[cn] := List.getElem?_eq_getElem hlt
          refine ⟨cn, (hlcm cn).2 ⟨hlt, h6⟩, ?_⟩
          simp only [W, hwc, Option.getD_some]
          exact ((h3 cn _ c n hwc h6 h8).2 w).2 ⟨⟨r, hwr, hrc⟩, hn1⟩
    have h9 := (hp.map fun w => V (w / 2) / 2).sum_eq
    rw [sum_flatMap, sum_flatMap] at h9
    rw [h9]
    apply sum_map_congr
    intro s _
    have e1 : 2 * s / 2 = s := by omega
    have e2 : (2 * s + 1) / 2 = s := by omega
    simp only [List.map_cons, List.map_nil, List.sum_cons, List.sum_nil, e1, e2]
    ring

theorem pyr_nodes : NodesOk pyr := NodesOk.ofLists (by decide) (by decide) (by decide) (by decide +kernel)

example := corner_volumes_sum pyr pyrFaces pyrCoords (.inl pyr_solid) pyr_nodes
example := corner_volumes_sum quads pyrFaces quadCoords (.inr quad_plane) quads_ok.2.2

/-! ### the surface of a corner in space -/

theorem labPoint_pt (L : List Labelled) (j : Nat) (h : j < L.length) : pt (L.map (·.point)) j = labPoint L j := by
  rw [pt, labPoint, List.getD_eq_getElem?_getD, List.getElem?_map, List.getElem?_eq_getElem h]; rfl

theorem map_perm_of {α β γ : Type} [Inhabited γ] (l r : List α) (f : α → β) (J : α → γ) (h : ∀ a b, f a = f b → J a = J b)
    (hp : (l.map f).Perm (r.map f)) : (l.map J).Perm (r.map J) := by
  classical
  have key : ∀ l : List α, l.map J = (l.map f).map fun b => if hb : ∃ a, f a = b then J hb.choose else default := by
    intro l
    rw [List.map_map]
    apply List.map_congr_left
    intro a _
    have hb : ∃ a', f a' = f a := ⟨a, rfl⟩
    simp only [Function.comp_def, dif_pos hb]
    exact (h _ _ hb.choose_spec).symm
  rw [key l, key r]
  exact hp.map _

/-- **C83, the surface of a corner.** If the faces of the cell meet in pairs along its edges and its sides have positive volume, then
`corner_get_facetization` gives triangles with valid indices into a list of points that begins with the node and the
centroid of the cell; the triangles form a closed surface (each directed edge between two indices is used as often as its reverse) which
encloses, from whichever point `o` it is measured, exactly the volume reported for the corner: all triangles point outwards. -/
theorem corner_surface_3d (m : Src) (faceNodes : Nat → List Nat) (g : Coords) (h : Solid m faceNodes g) (hn : NodesOk m) :
    ∃ i k, cacheSideInfo m = some i ∧ cacheCornerInfo m i = some k ∧
      ∀ cn c n, cornerGetCell i k cn = some c → cornerGetNode m i k cn = some n → EdgesPaired m c →
        (∀ l, i.cellGetSides c = some l → ∀ s ∈ l, ∃ v, sideVolume (ofCaches m i k g) s = some v ∧ 0 < v) →
        ∃ (pts : List Point) (tris : List (Nat × Nat × Nat)) (v : ℝ),
          cornerFacets3 (ofCaches m i k g) cn = some (pts, tris) ∧
          (∀ t ∈ tris, ∀ j ∈ triangle t, j < pts.length) ∧
          pts[0]? = some (g.nodeCoord n) ∧ pts[1]? = some (g.cellCentroid c) ∧
          (((tris.map triangle).flatMap polyEdges).map Prod.swap).Perm ((tris.map triangle).flatMap polyEdges) ∧
          cornerVolume (ofCaches m i k g) cn = some v ∧
          ∀ o, volumeFrom o ((tris.map triangle).map fun t => t.map (pt pts)) = v := by
  obtain ⟨i, k, e, ek, H⟩ := corner_facets_parts m faceNodes g h hn
  refine ⟨i, k, e, ek, fun cn c n hc hcn hp hpos => ?_⟩
  obtain ⟨L, ws, tris, J, K, v, hcm, _, h1, h2, h3, h4, h5, h6, hJ, hK, h7, h8⟩ := H cn c n hc hcn hpos
  have hclosed : (((tris.map triangle).flatMap polyEdges).map Prod.swap).Perm ((tris.map triangle).flatMap polyEdges) := by
    have e1 : (tris.map triangle).flatMap polyEdges = tris.flatMap triEdges := by rw [List.flatMap_map]; rfl
    rw [e1]
    refine (h6.map _).trans (List.Perm.trans ?_ h6.symm)
    exact watertight _ _ J K (map_perm_of _ _ Visit.face J hJ (face_pairs h.around hcm n))
      (map_perm_of _ _ Visit.edge K hK (edge_pairs h.oriented hcm hp n))
  refine ⟨_, tris, v, h1, ?_, ?_, ?_, hclosed, h7, fun o => ?_⟩
  · intro t ht j hj
    obtain ⟨a, b, c⟩ := h2 t ht
    rw [List.length_map]
    simp only [triangle, List.mem_cons, List.not_mem_nil, or_false] at hj
    rcases hj with rfl | rfl | rfl <;> assumption
  · have h0 : 0 < L.length := by omega
    rw [← h3, labPoint, List.getElem?_map, List.getElem?_eq_getElem h0]; rfl
  · have h0 : 1 < L.length := by omega
    rw [← h4, labPoint, List.getElem?_map, List.getElem?_eq_getElem h0]; rfl
  · have hcl := closed_of_index (pt (L.map (·.point))) (tris.map triangle) hclosed
    rw [volumeFrom, closed_volume _ hcl o (labPoint L 0), ← h8, List.map_map, List.flatMap_map, sum_flatMap]
    apply sum_map_congr
    intro t ht
    obtain ⟨a, b, c⟩ := h2 t ht
    simp only [Function.comp_def, triangle, List.map_cons, List.map_nil, facets, List.sum_cons, List.sum_nil, add_zero,
      labPoint_pt _ _ a, labPoint_pt _ _ b, labPoint_pt _ _ c]

/-- the pyramid with the averages of the corners as centroids of the faces, and a point inside as centroid of the cell -/
noncomputable def pyrMid : Coords where
  spaceDim := 3
  geomType := .CARTESIAN
  nodeCoord n := pyramidCorners.getD n (zero 3)
  faceCentroid f := vertexMean 3 ((pyrFaces f).map fun n => pyramidCorners.getD n (zero 3))
  cellCentroid _ := mk3 (1 / 2) (1 / 2) (1 / 4)

theorem pyrMid_solid : Solid pyr pyrFaces pyrMid :=
  ⟨pyr_solid.valid, pyr_solid.oriented, rfl, pyr_solid.around, pyr_solid.nodes, fun _ => rfl, fun _ => rfl⟩

theorem pyrMid_positive (v : Visit) (hv : v ∈ visits pyr) : 0 < tetVol (pyrMid.cellCentroid v.cell)
    (pyrMid.nodeCoord (outEdge pyr v).1) (pyrMid.nodeCoord (outEdge pyr v).2) (pyrMid.faceCentroid v.face) := by
  have h : ∀ p ∈ visits pyr, (p.face, outEdge pyr p) ∈ [(0, (1, 0)), (0, (2, 1)), (0, (3, 2)), (0, (0, 3)),
    (1, (0, 1)), (1, (1, 4)), (1, (4, 0)), (2, (1, 2)), (2, (2, 4)), (2, (4, 1)), (3, (2, 3)), (3, (3, 4)), (3, (4, 2)),
    (4, (3, 0)), (4, (0, 4)), (4, (4, 3))] := by decide +kernel
  have h1 := h v hv
  simp only [List.mem_cons, List.not_mem_nil, or_false, Prod.mk.injEq] at h1
  rcases h1 with h1 | h1 | h1 | h1 | h1 | h1 | h1 | h1 | h1 | h1 | h1 | h1 | h1 | h1 | h1 | h1 <;>
    obtain ⟨hf, h2⟩ := h1 <;> rw [hf, h2] <;>
    simp [pyrMid, pyramidCorners, pyrFaces, vertexMean, mean, mk3, tetVol, det3, vec] <;> norm_num

example : ∃ i k, cacheSideInfo pyr = some i ∧ cacheCornerInfo pyr i = some k ∧ ∀ n < 5, ∃ (cn : Nat) (pts : List Point) (tris : List (Nat × Nat × Nat)) (v : ℝ),
    cornerGetNode pyr i k cn = some n ∧ cornerFacets3 (ofCaches pyr i k pyrMid) cn = some (pts, tris) ∧
    cornerVolume (ofCaches pyr i k pyrMid) cn = some v ∧ ∀ o, volumeFrom o ((tris.map triangle).map fun t => t.map (pt pts)) = v := by
  obtain ⟨i, k, e, ek, H⟩ := corner_surface_3d pyr pyrFaces pyrMid pyrMid_solid pyr_nodes
  obtain ⟨i', k', e', ek', _, H2, _⟩ := corners pyr pyr_valid.1 pyr_nodes
  rw [e] at e'; cases e'
  rw [ek] at ek'; cases ek'
  refine ⟨i, k, e, ek, fun n hn => ?_⟩
  have hn' : n ∈ pyr.cellNodes 0 := by
    have : ∀ n < 5, n ∈ pyr.cellNodes 0 := by decide
    exact this n hn
  obtain ⟨cn, ⟨_, hc, hcn⟩, _⟩ := H2 0 (by decide) n hn'
  obtain ⟨pts, tris, v, h1, _, _, _, _, h2, h3⟩ := H cn 0 n hc hcn (by unfold EdgesPaired; decide +kernel) (by
    intro l hl s hs
    obtain ⟨i', e', hi⟩ := cache_ok pyr_valid.1
    rw [e] at e'; cases e'
    obtain ⟨i', e', _, _, _, _, hs', _⟩ := sides_are_incidences pyr pyr_valid.1
    rw [e] at e'; cases e'
    obtain ⟨l', hl', _, hm⟩ := hs' 0 (by decide)
    rw [hl] at hl'; cases hl'
    obtain ⟨r, hr, _⟩ := (hm s).1 hs
    obtain ⟨v, hv, rfl⟩ := hi.side_iff.1 hr
    exact ⟨_, by rw [sideVolume, solid_stored pyrMid_solid hi k hv]; rfl, pyrMid_positive v (List.mem_of_getElem? hv)⟩)
  exact ⟨cn, pts, tris, v, hcn, h1, h2, h3⟩

/-- **C83, coordinates in space.** `corner_get_coordinates` gives the points of the facetization, with the cell's centroid last. -/
theorem corner_coordinates_3d (m : Src) (i : Info) (k : CornerInfo) (g : Coords) (h3 : m.manifoldDim = 3) (cn : Nat) (pts : List Point)
    (tris : List (Nat × Nat × Nat)) (h : cornerFacets3 (ofCaches m i k g) cn = some (pts, tris)) :
    ∃ (a b : Point) (l : List Point), pts = a :: b :: l ∧ cornerGetCoordinates (ofCaches m i k g) cn = some (a :: l ++ [b]) := by
  set M := ofCaches m i k g with hM
  rw [cornerFacets3] at h
  obtain ⟨ws, h1, h⟩ := Option.bind_eq_some_iff.1 h
  obtain ⟨w0, h2, h⟩ := Option.bind_eq_some_iff.1 h
  obtain ⟨n, hn, h⟩ := Option.bind_eq_some_iff.1 h
  obtain ⟨c, hc, h⟩ := Option.bind_eq_some_iff.1 h
  obtain ⟨r, hr, h⟩ := Option.map_eq_some_iff.1 h
  obtain ⟨y, hy1, hy2⟩ := coordLoop_facetLoop M _ _ _ rfl rfl ws [] [] r hr
  cases h
  refine ⟨M.nodeCoord n, M.cellCentroid c, y.map (·.point), by rw [hy1]; rfl, ?_⟩
  have hd : M.manifoldDim = 3 := h3
  rw [cornerGetCoordinates, h1, Option.bind_some, if_neg (by omega), if_pos hd, cornerCoordinates3, h2, Option.bind_some, hn,
    Option.bind_some, hc, Option.bind_some, hy2]
  rfl

/-! ### the outline of a corner in the plane -/

/-- one wedge of a plane corner -/
theorem wedge_2d {m : Src} {g : Coords} (h : Plane m g) {i : Info} (hi : InfoOk m i) (k : CornerInfo)
    (hmid : ∀ c f e, Incident m c f e → g.faceCentroid f = sdiv (g.nodeCoord (m.edgeNodes e).1 + g.nodeCoord (m.edgeNodes e).2) 2)
    {w : Nat} {v : Visit} (hv : (visits m)[w / 2]? = some v) :
    (ofCaches m i k g).sideFace (w / 2) = some v.face ∧ (ofCaches m i k g).sideCell (w / 2) = some v.cell ∧
    wedgeNode (ofCaches m i k g) w = some (if w % 2 = 0 then (leftEdge m v).1 else (leftEdge m v).2) ∧
    (∃ e, (ofCaches m i k g).sideEdge (w / 2) = some e) ∧
    g.faceCentroid v.face = mid2 (g.nodeCoord (leftEdge m v).1) (g.nodeCoord (leftEdge m v).2) ∧
    sideVolume (ofCaches m i k g) (w / 2) =
      some (|orient2 (g.cellCentroid v.cell) (g.nodeCoord (leftEdge m v).1) (g.nodeCoord (leftEdge m v).2)| / 2) := by
  have hs : i.side (w / 2) = some (mkRec m v) := hi.side_iff.2 ⟨v, hv, rfl⟩
  obtain ⟨n0, n1⟩ := nodes2 hi h.dim hv
  have hst := plane_stored h hi k hv
  dsimp only at hst
  refine ⟨?_, ?_, ?_, ⟨v.edge, ?_⟩, ?_, ?_⟩
  · rw [ofCaches]; simp only [hs, Option.map_some, mkRec_face]
  · rw [ofCaches]; simp only [hs, Option.map_some, mkRec_cell]
  · rcases Nat.mod_two_eq_zero_or_one w with hw | hw
    · rw [if_pos hw, wedgeNode, hw]; exact n0
    · rw [if_neg (by omega), wedgeNode, hw]; exact n1
  · rw [ofCaches]; simp only [hs, Option.map_some, mkRec_edge]
  · rw [hmid _ _ _ (visit_incident (List.mem_of_getElem? hv)), edge_mid2 (h.nodes _), leftEdge, mid2, mk2]
    by_cases hf : v.fdir = 1
    · rw [if_pos hf]
    · rw [if_neg hf]; simp only [Prod.fst_swap, Prod.snd_swap]
      congr 1 <;> ring
  · rw [sideVolume, hst, Option.map_some]
    dsimp only
    rw [show orient2 (g.nodeCoord (if v.fdir = 1 then m.edgeNodes v.edge else (m.edgeNodes v.edge).swap).1)
      (g.nodeCoord (if v.fdir = 1 then m.edgeNodes v.edge else (m.edgeNodes v.edge).swap).2) (g.cellCentroid v.cell) =
      orient2 (g.cellCentroid v.cell) (g.nodeCoord (leftEdge m v).1) (g.nodeCoord (leftEdge m v).2) by
        simp only [orient2, leftEdge]; ring]

/-- the parts of a plane corner: `a` is the node after `n`, `b` the one before, `ws` its wedges -/
theorem corner_parts_2d (m : Src) (g : Coords) (h : Plane m g) (hn : NodesOk m)
    (hmid : ∀ c f e, Incident m c f e → g.faceCentroid f = sdiv (g.nodeCoord (m.edgeNodes e).1 + g.nodeCoord (m.edgeNodes e).2) 2) :
    ∃ i k, cacheSideInfo m = some i ∧ cacheCornerInfo m i = some k ∧
      ∀ cn c n, cornerGetCell i k cn = some c → cornerGetNode m i k cn = some n →
        (∀ e ∈ polyEdges (m.cellNodes c), 0 < orient2 (g.cellCentroid c) (g.nodeCoord e.1) (g.nodeCoord e.2)) →
        ∃ a b : Nat, (n, a) ∈ polyEdges (m.cellNodes c) ∧ (b, n) ∈ polyEdges (m.cellNodes c) ∧
          let M := ofCaches m i k g
          let N := g.nodeCoord n
          let C := g.cellCentroid c
          let A := mid2 N (g.nodeCoord a)
          let B := mid2 (g.nodeCoord b) N
          cornerFacets2 M cn = some [N, A, C, B] ∧ cornerVolume M cn = some ((orient2 N A C + orient2 N C B) / 2) ∧
          0 < orient2 N A C ∧ 0 < orient2 N C B ∧
          ((0 < orient2 N A B → cornerGetCoordinates M cn = some [N, A, C, B]) ∧
           (orient2 N A B < 0 → cornerGetCoordinates M cn = some [N, B, C, A])) := by
  obtain ⟨i, k, e, ek, hi, H⟩ := corner_pair_2d h hn
  refine ⟨i, k, e, ek, fun cn c n hc hcn hpos => ?_⟩
  obtain ⟨ls, ws, s0, s1, v0, v1, hls, hs0, hs1, hws, hor, hv0, hv1, hc0, hc1, hn0, hn1, he0, he1⟩ := H cn c n hc hcn
  have d0 : 2 * s0 / 2 = s0 := by omega
  have d1 : (2 * s1 + 1) / 2 = s1 := by omega
  have r0 : 2 * s0 % 2 = 0 := by omega
  have r1 : (2 * s1 + 1) % 2 = 1 := by omega
  obtain ⟨f0, c0, w0, ⟨x0, E0⟩, m0, vol0⟩ := wedge_2d h hi k hmid (w := 2 * s0) (v := v0) (by rw [d0]; exact hv0)
  obtain ⟨f1, c1, w1, ⟨x1, E1⟩, m1, vol1⟩ := wedge_2d h hi k hmid (w := 2 * s1 + 1) (v := v1) (by rw [d1]; exact hv1)
  rw [if_pos r0] at w0
  rw [if_neg (by omega)] at w1
  refine ⟨(leftEdge m v0).2, (leftEdge m v1).1, by rw [← hn0]; exact he0, by rw [← hn1]; exact he1, ?_⟩
  have p0 := hpos _ he0
  have p1 := hpos _ he1
  rw [hn0] at m0 vol0 w0 p0
  rw [hn1] at m1 vol1 w1 p1
  rw [hc0] at c0 vol0
  rw [hc1] at c1 vol1
  dsimp only
  set M := ofCaches m i k g with hM
  set N := g.nodeCoord n with hN
  set C := g.cellCentroid c with hC
  generalize g.nodeCoord (leftEdge m v0).2 = P at *
  generalize g.nodeCoord (leftEdge m v1).1 = Q at *
  rw [abs_of_pos p0] at vol0
  rw [abs_of_pos p1] at vol1
  have hA : 0 < orient2 N (mid2 N P) C := by
    have : orient2 N (mid2 N P) C = orient2 C N P / 2 := by simp only [orient2, mid2]; ring
    rw [this]; linarith
  have hB : 0 < orient2 N C (mid2 Q N) := by
    have : orient2 N C (mid2 Q N) = orient2 C Q N / 2 := by simp only [orient2, mid2]; ring
    rw [this]; linarith
  have wv0 : wedgeVolume M (2 * s0) = some (orient2 N (mid2 N P) C / 2) := by
    rw [wedgeVolume, vol0, Option.map_some]; congr 1; simp only [orient2, mid2]; ring
  have wv1 : wedgeVolume M (2 * s1 + 1) = some (orient2 N C (mid2 Q N) / 2) := by
    rw [wedgeVolume, vol1, Option.map_some]; congr 1; simp only [orient2, mid2]; ring
  have hcw : M.cornerWedges cn = some ws := hws
  have hNn : M.nodeCoord n = N := rfl
  have hCc : M.cellCentroid c = C := rfl
  have hF0 : M.faceCentroid v0.face = mid2 N P := m0
  have hF1 : M.faceCentroid v1.face = mid2 Q N := m1
  have hdN : N.d = 2 := h.nodes n
  have hdC : C.d = 2 := h.cells c
  have cr : ∀ p q : Point, p.d = 2 → q.d = 2 → (cross (p - N) (q - N)).x = orient2 N p q := by
    intro p q hp hq
    rw [sub2 _ hp, sub2 _ hq, cross2]; simp only [orient2]
  have hdim : M.manifoldDim = 2 := h.dim
  have g0 : wedgeGetCoordinates M (2 * s0) false = some [N, mid2 N P, C] := by
    simp only [wedgeGetCoordinates, w0, E0, f0, c0, hdim, Option.bind_some]
    simp [orderWedge, hNn, hCc, hF0]
  have g1 : wedgeGetCoordinates M (2 * s1 + 1) false = some [N, mid2 Q N, C] := by
    simp [wedgeGetCoordinates, w1, E1, f1, c1, hdim, orderWedge, hNn, hCc, hF1]
  have o1 : orient2 N (mid2 Q N) (mid2 N P) = - orient2 N (mid2 N P) (mid2 Q N) := by simp only [orient2]; ring
  have o2 : orient2 N (mid2 Q N) C = - orient2 N C (mid2 Q N) := by simp only [orient2]; ring
  rcases hor with rfl | rfl
  · refine ⟨?_, ?_, hA, hB, ?_, ?_⟩
    · simp only [cornerFacets2, hcw, Option.bind_some, List.getElem?_cons_zero, List.getElem?_cons_succ, w0, c0, f0, f1, hNn, hCc, hF0, hF1]
      rw [cr _ _ rfl hdC, if_pos hA]
    · simp only [cornerVolume, hcw, Option.bind_some, sumWedges, wv0, wv1]
      congr 1; ring
    · intro hpo
      simp only [cornerGetCoordinates, hcw, Option.bind_some, hdim, or_true, if_true, cornerCoordinates12, List.getElem?_cons_zero,
        List.getElem?_cons_succ, g0, g1, wv0, Option.map_some, orderCorner, pt, List.getD_cons_zero, List.getD_cons_succ]
      rw [if_neg (by decide), cr _ _ rfl rfl, if_neg]
      have := mul_pos hpo (half_pos hA)
      linarith
    · intro hpo
      simp only [cornerGetCoordinates, hcw, Option.bind_some, hdim, or_true, if_true, cornerCoordinates12, List.getElem?_cons_zero,
        List.getElem?_cons_succ, g0, g1, wv0, Option.map_some, orderCorner, pt, List.getD_cons_zero, List.getD_cons_succ]
      rw [if_neg (by decide), cr _ _ rfl rfl, if_pos]
      exact mul_neg_of_neg_of_pos hpo (half_pos hA)
  · refine ⟨?_, ?_, hA, hB, ?_, ?_⟩
    · simp only [cornerFacets2, hcw, Option.bind_some, List.getElem?_cons_zero, List.getElem?_cons_succ, w1, c1, f0, f1, hNn, hCc, hF0, hF1]
      rw [cr _ _ rfl hdC, if_neg (by rw [o2]; linarith)]
    · simp only [cornerVolume, hcw, Option.bind_some, sumWedges, wv0, wv1]
      congr 1; ring
    · intro hpo
      simp only [cornerGetCoordinates, hcw, Option.bind_some, hdim, or_true, if_true, cornerCoordinates12, List.getElem?_cons_zero,
        List.getElem?_cons_succ, g0, g1, wv1, Option.map_some, orderCorner, pt, List.getD_cons_zero, List.getD_cons_succ]
      rw [if_neg (by decide), cr _ _ rfl rfl, if_pos]
      rw [o1]
      have := mul_pos hpo (half_pos hB)
      linarith
    · intro hpo
      simp only [cornerGetCoordinates, hcw, Option.bind_some, hdim, or_true, if_true, cornerCoordinates12, List.getElem?_cons_zero,
        List.getElem?_cons_succ, g0, g1, wv1, Option.map_some, orderCorner, pt, List.getD_cons_zero, List.getD_cons_succ]
      rw [if_neg (by decide), cr _ _ rfl rfl, if_neg]
      rw [o1]
      have := mul_pos (neg_pos.2 hpo) (half_pos hB)
      linarith

/-- **C83, the outline in the plane.** In a cell that is star-shaped around its centroid, `corner_get_facetization` gives the
quadrilateral of the node, the middle of the edge to the next node, the centroid of the cell and the middle of the edge from the
previous node: counter-clockwise, with the signed area that is reported as the volume of the corner. -/
theorem corner_outline_2d (m : Src) (g : Coords) (h : Plane m g) (hn : NodesOk m)
    (hmid : ∀ c f e, Incident m c f e → g.faceCentroid f = sdiv (g.nodeCoord (m.edgeNodes e).1 + g.nodeCoord (m.edgeNodes e).2) 2) :
    ∃ i k, cacheSideInfo m = some i ∧ cacheCornerInfo m i = some k ∧
      ∀ cn c n, cornerGetCell i k cn = some c → cornerGetNode m i k cn = some n →
        (∀ e ∈ polyEdges (m.cellNodes c), 0 < orient2 (g.cellCentroid c) (g.nodeCoord e.1) (g.nodeCoord e.2)) →
        ∃ (a b : Nat) (outline : List Point) (v : ℝ),
          (n, a) ∈ polyEdges (m.cellNodes c) ∧ (b, n) ∈ polyEdges (m.cellNodes c) ∧
          outline = [g.nodeCoord n, mid2 (g.nodeCoord n) (g.nodeCoord a), g.cellCentroid c, mid2 (g.nodeCoord b) (g.nodeCoord n)] ∧
          cornerFacets2 (ofCaches m i k g) cn = some outline ∧
          cornerVolume (ofCaches m i k g) cn = some v ∧ v = shoelace outline ∧ 0 < v := by
  obtain ⟨i, k, e, ek, H⟩ := corner_parts_2d m g h hn hmid
  refine ⟨i, k, e, ek, fun cn c n hc hcn hpos => ?_⟩
  obtain ⟨a, b, ha, hb, h1, h2, h3, h4, _⟩ := H cn c n hc hcn hpos
  refine ⟨a, b, _, _, ha, hb, rfl, h1, h2, ?_, by linarith⟩
  simp only [shoelace, polyEdges, List.rotate_cons_succ, List.rotate_zero, List.zip_cons_cons, List.cons_append, List.nil_append,
    List.zip_nil_right, List.map_cons, List.map_nil, List.sum_cons, List.sum_nil, orient2]
  ring

/-- **C83, coordinates in the plane; only for convex corners.** Where the two edges make a left turn at the node,
`corner_get_coordinates` gives the same counter-clockwise outline. -/
theorem corner_coordinates_2d_partial (m : Src) (g : Coords) (h : Plane m g) (hn : NodesOk m)
    (hmid : ∀ c f e, Incident m c f e → g.faceCentroid f = sdiv (g.nodeCoord (m.edgeNodes e).1 + g.nodeCoord (m.edgeNodes e).2) 2) :
    ∃ i k, cacheSideInfo m = some i ∧ cacheCornerInfo m i = some k ∧
      ∀ cn c n, cornerGetCell i k cn = some c → cornerGetNode m i k cn = some n →
        (∀ e ∈ polyEdges (m.cellNodes c), 0 < orient2 (g.cellCentroid c) (g.nodeCoord e.1) (g.nodeCoord e.2)) →
        (∀ a b, (n, a) ∈ polyEdges (m.cellNodes c) → (b, n) ∈ polyEdges (m.cellNodes c) →
          0 < orient2 (g.nodeCoord n) (g.nodeCoord a) (g.nodeCoord b)) →
        ∃ (outline : List Point) (v : ℝ), cornerGetCoordinates (ofCaches m i k g) cn = some outline ∧
          cornerFacets2 (ofCaches m i k g) cn = some outline ∧ cornerVolume (ofCaches m i k g) cn = some v ∧ v = shoelace outline ∧ 0 < v := by
  obtain ⟨i, k, e, ek, H⟩ := corner_parts_2d m g h hn hmid
  refine ⟨i, k, e, ek, fun cn c n hc hcn hpos hcx => ?_⟩
  obtain ⟨a, b, ha, hb, h1, h2, h3, h4, h5, _⟩ := H cn c n hc hcn hpos
  refine ⟨_, _, h5 ?_, h1, h2, ?_, by linarith⟩
  · have : orient2 (g.nodeCoord n) (mid2 (g.nodeCoord n) (g.nodeCoord a)) (mid2 (g.nodeCoord b) (g.nodeCoord n)) =
        orient2 (g.nodeCoord n) (g.nodeCoord a) (g.nodeCoord b) / 4 := by simp only [orient2, mid2]; ring
    rw [this]
    linarith [hcx a b ha hb]
  · simp only [shoelace, polyEdges, List.rotate_cons_succ, List.rotate_zero, List.zip_cons_cons, List.cons_append, List.nil_append,
      List.zip_nil_right, List.map_cons, List.map_nil, List.sum_cons, List.sum_nil, orient2]
    ring

/-- **C83 is false of the code at reflex corners.** Where the two edges make a right turn at the node, although the cell is
star-shaped around its centroid, the points of `corner_get_coordinates` run clockwise: their signed area is minus the
volume of the corner. The comment at Mesh.cc:2203 promises counter-clockwise order; the test at Mesh.cc:2238-2250 compares the
turn at the node instead of the sign of the wedge. -/
theorem corner_coordinates_2d_clockwise (m : Src) (g : Coords) (h : Plane m g) (hn : NodesOk m)
    (hmid : ∀ c f e, Incident m c f e → g.faceCentroid f = sdiv (g.nodeCoord (m.edgeNodes e).1 + g.nodeCoord (m.edgeNodes e).2) 2) :
    ∃ i k, cacheSideInfo m = some i ∧ cacheCornerInfo m i = some k ∧
      ∀ cn c n, cornerGetCell i k cn = some c → cornerGetNode m i k cn = some n →
        (∀ e ∈ polyEdges (m.cellNodes c), 0 < orient2 (g.cellCentroid c) (g.nodeCoord e.1) (g.nodeCoord e.2)) →
        (∀ a b, (n, a) ∈ polyEdges (m.cellNodes c) → (b, n) ∈ polyEdges (m.cellNodes c) →
          orient2 (g.nodeCoord n) (g.nodeCoord a) (g.nodeCoord b) < 0) →
        ∃ (outline : List Point) (v : ℝ), cornerGetCoordinates (ofCaches m i k g) cn = some outline ∧
          cornerVolume (ofCaches m i k g) cn = some v ∧ shoelace outline = -v ∧ 0 < v := by
  obtain ⟨i, k, e, ek, H⟩ := corner_parts_2d m g h hn hmid
  refine ⟨i, k, e, ek, fun cn c n hc hcn hpos hcx => ?_⟩
  obtain ⟨a, b, ha, hb, h1, h2, h3, h4, _, h5⟩ := H cn c n hc hcn hpos
  refine ⟨_, _, h5 ?_, h2, ?_, by linarith⟩
  · have : orient2 (g.nodeCoord n) (mid2 (g.nodeCoord n) (g.nodeCoord a)) (mid2 (g.nodeCoord b) (g.nodeCoord n)) =
        orient2 (g.nodeCoord n) (g.nodeCoord a) (g.nodeCoord b) / 4 := by simp only [orient2, mid2]; ring
    rw [this]
    linarith [hcx a b ha hb]
  · simp only [shoelace, polyEdges, List.rotate_cons_succ, List.rotate_zero, List.zip_cons_cons, List.cons_append, List.nil_append,
      List.zip_nil_right, List.map_cons, List.map_nil, List.sum_cons, List.sum_nil, orient2]
    ring

/-- the corners of the two quadrilaterals are convex -/
example : ∃ i k, cacheSideInfo quads = some i ∧ cacheCornerInfo quads i = some k ∧ ∀ c ∈ quads.cells, ∀ n ∈ quads.cellNodes c,
    ∃ (cn : Nat) (outline : List Point) (v : ℝ), cornerGetNode quads i k cn = some n ∧
      cornerGetCoordinates (ofCaches quads i k quadCoords) cn = some outline ∧ shoelace outline = v ∧ 0 < v := by
  obtain ⟨i, k, e, ek, H⟩ := corner_coordinates_2d_partial quads quadCoords quad_plane quads_ok.2.2 quad_mid
  obtain ⟨i', k', e', ek', _, H2, _⟩ := corners quads quads_ok.1 quads_ok.2.2
  rw [e] at e'; cases e'
  rw [ek] at ek'; cases ek'
  refine ⟨i, k, e, ek, fun c hc n hn => ?_⟩
  obtain ⟨cn, ⟨_, h1, h2⟩, _⟩ := H2 c hc n hn
  obtain ⟨o, v, h3, _, _, h4, h5⟩ := H cn c n h1 h2
    (by
      simp only [quads, List.mem_cons, List.not_mem_nil, or_false] at hc
      rcases hc with rfl | rfl <;> intro e he <;>
        simp [quads, polyEdges] at he <;> rcases he with rfl | rfl | rfl | rfl <;> simp [quadCoords, orient2, mk2] <;> norm_num)
    (by
      simp only [quads, List.mem_cons, List.not_mem_nil, or_false] at hc
      rcases hc with rfl | rfl <;> intro a b ha hb <;> simp [quads, polyEdges] at ha hb <;>
        rcases ha with ⟨rfl, rfl⟩ | ⟨rfl, rfl⟩ | ⟨rfl, rfl⟩ | ⟨rfl, rfl⟩ <;> simp at hb <;> subst hb <;>
        simp [quadCoords, orient2, mk2])
  exact ⟨cn, o, v, h2, h3, h4.symm, h5⟩

/-- a dart: a quadrilateral with a reflex corner at node 1 -/
def dart : Src where
  manifoldDim := 2
  cells := [0]
  ncells := 1
  nedges := 4
  nnodes := 4
  cellType _ := .PARALLEL_OWNED
  cellFaces _ := [(0, 1), (1, 1), (2, 1), (3, 1)]
  faceEdges f := [(f, 1)]
  edgeNodes e := (e, (e + 1) % 4)
  cellNodes _ := [0, 1, 2, 3]

noncomputable def dartCoords : Coords where
  spaceDim := 2
  geomType := .CARTESIAN
  nodeCoord n := [mk2 (-10) (-1), mk2 0 0, mk2 10 (-1), mk2 0 15].getD n (zero 2)
  faceCentroid f := sdiv ([mk2 (-10) (-1), mk2 0 0, mk2 10 (-1), mk2 0 15].getD f (zero 2) +
    [mk2 (-10) (-1), mk2 0 0, mk2 10 (-1), mk2 0 15].getD ((f + 1) % 4) (zero 2)) 2
  cellCentroid _ := mk2 0 5

theorem dart_plane : Plane dart dartCoords where
  valid := Valid.ofLists (by decide) (by decide) (by decide) (by decide) (by decide) (by decide) (by decide +kernel)
  dim := rfl
  around c hc := by
    unfold PlaneCell
    have : ∀ c ∈ dart.cells, ((dart.cellFaces c).flatMap fun f => (dart.faceEdges f.1).map fun e =>
      if f.2 = 1 then dart.edgeNodes e.1 else (dart.edgeNodes e.1).swap).Perm (polyEdges (dart.cellNodes c)) := by decide +kernel
    exact this c hc
  nodes n := by
    match n with
    | 0 | 1 | 2 | 3 => rfl
    | n + 4 => rfl
  cells _ := rfl

theorem dart_nodes : NodesOk dart := NodesOk.ofLists (by decide) (by decide) (by decide) (by decide +kernel)

/-- the corner of the dart at node 1 -/
example : ∃ i k, cacheSideInfo dart = some i ∧ cacheCornerInfo dart i = some k ∧
    ∃ (cn : Nat) (outline : List Point) (v : ℝ), cornerGetNode dart i k cn = some 1 ∧
      cornerGetCoordinates (ofCaches dart i k dartCoords) cn = some outline ∧ cornerVolume (ofCaches dart i k dartCoords) cn = some v ∧
      shoelace outline = -v ∧ 0 < v := by
  obtain ⟨i, k, e, ek, H⟩ := corner_coordinates_2d_clockwise dart dartCoords dart_plane dart_nodes (by
    intro c f e h
    obtain ⟨_, ed, he⟩ := h
    simp only [dart, List.mem_cons, List.not_mem_nil, or_false, Prod.mk.injEq] at he
    rw [he.1]; rfl)
  obtain ⟨i', k', e', ek', _, H2, _⟩ := corners dart dart_plane.valid dart_nodes
  rw [e] at e'; cases e'
  rw [ek] at ek'; cases ek'
  refine ⟨i, k, e, ek, ?_⟩
  obtain ⟨cn, ⟨_, h1, h2⟩, _⟩ := H2 0 (by decide) 1 (by decide)
  obtain ⟨o, v, h3, h4, h5, h6⟩ := H cn 0 1 h1 h2
    (by intro e he; simp [dart, polyEdges] at he; rcases he with rfl | rfl | rfl | rfl <;> simp [dartCoords, orient2, mk2] <;> norm_num)
    (by intro a b ha hb; simp [dart, polyEdges] at ha hb; subst ha hb; simp [dartCoords, orient2, mk2])
  exact ⟨cn, o, v, h2, h3, h4, h5, h6⟩

end Jali.SideGeom
