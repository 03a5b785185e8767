import Verif.Proof.MstkSideGeometry
import Verif.Props.MstkTypes
/-
C133: volumes and normals of the sides of MSTK meshes of polyhedra.
-/
namespace Jali.Mstk
open Jali.Geom Jali.Geom.Point Jali.Geom.Spec Jali.Sides Jali.Sides.Spec

variable {s : Source ℝ} {r : MeshCache.Request}

/-! ### vocabulary -/

/-- the face is flipped on this rank: the public order of its nodes is against that of MSTK -/
def JMesh.isFlipped (j : JMesh) (f : Fin j.m.nf) : Bool := j.faceflip[j.m.fmap.id f - 1]?.getD false

/-- the cell of a region is not a boundary ghost -/
def JMesh.Real3 (j : JMesh) (rg : Fin j.m.nr) : Prop := j.bg = true → (j.m.region rg).bndryGhost = false

/-- the volume of the cone from a point `C` over a face with a point `F` in its plane, positive if the face, as seen from the region,
turns its outer side away from `C` -/
noncomputable def Source.cone (s : Source ℝ) (C F : Point) (q : Fin s.j.m.nf × Bool) : ℝ := inner3 (areaVector (s.outward q)) (vec C F) / 3

/-! ### the caches -/

theorem caches3 (h : s.Solid r) (hs : r.sides = true) {c : Types.Caches} {i : Info} (hc : Types.cacheExtra (s.base r) = some c)
    (hi : c.side = some i) : cacheSideInfo (Types.source (s.j.base3 r) c.types) = some i ∧
      Valid (Types.source (s.j.base3 r) c.types) ∧ Oriented (Types.source (s.j.base3 r) c.types) ∧
      NodesOk (Types.source (s.j.base3 r) c.types) := by
  rw [base_eq3 h] at hc
  obtain ⟨c', i', hc', hi', a, b, d, e⟩ := side_caches (mesh_ok3 s.j r h.made h.polygons h.regions) hs
  rw [hc] at hc'; cases hc'
  rw [hi] at hi'; cases hi'
  exact ⟨a, b, d, e⟩

theorem caches3_exist (h : s.Solid r) (hs : r.sides = true) : ∃ c i, Types.cacheExtra (s.base r) = some c ∧ c.side = some i := by
  rw [base_eq3 h]
  obtain ⟨c', i', hc', hi', _⟩ := side_caches (mesh_ok3 s.j r h.made h.polygons h.regions) hs
  exact ⟨c', i', hc', hi'⟩

theorem real_type3 (h : s.Solid r) {c : Types.Caches} (hc : Types.cacheExtra (s.base r) = some c) {cell : Nat} {rg : Fin s.j.m.nr}
    (hr : (s.j.m.rmap s.j.bg).at cell = some rg) (hreal : s.j.Real3 rg) : ¬ c.types.cell[cell]? = some .BOUNDARY_GHOST := by
  rw [base_eq3 h] at hc
  obtain ⟨c', hc', _, ht, _⟩ := types_of_mesh3 s.j r h.made h.polygons h.regions
  rw [hc] at hc'; cases hc'
  have h0 : c.types.cell[cell]? = some (expected (s.j.m.region rg).ptype (s.j.bg && (s.j.m.region rg).bndryGhost)) := ht cell rg hr
  rw [h0]
  unfold expected
  intro e
  have hb : (s.j.bg && (s.j.m.region rg).bndryGhost) = false := by
    unfold JMesh.Real3 at hreal
    cases hb : s.j.bg
    · rfl
    · rw [hreal hb]; rfl
  rw [hb] at e
  split at e <;> cases e

/-- a side of a cell that is not a boundary ghost has the geometry computed for it -/
theorem side_geo_real {c : Types.Caches} {i : Info} (hs : r.sides = true) (hi : c.side = some i)
    (hb : ∀ b : Types.Base, b = s.base r → b.req = r) {x : Nat} {rec : Rec} (hx : i.side x = some rec)
    (hreal : ¬ c.types.cell[rec.cell]? = some .BOUNDARY_GHOST) (k : CornerInfo) :
    s.sideGeo r c i k x = SideGeom.sideStored (s.smesh r c i k) x := by
  unfold Source.sideGeo
  rw [if_neg]
  show ¬ (if (s.base r).req.sides = true then _ else _) = _
  rw [hb _ rfl, if_pos hs]
  unfold Types.sideCell
  rw [hi, Option.bind_some, hx, Option.map_some, Option.bind_some]
  exact hreal

/-! ### one side -/

/-- **C133** a side of a cell lies over one edge of one face of the cell. If the face is not flipped, its volume is that of the
tetrahedron from the centroid of the cell over the triangle of the edge, as the cell sees it from outside, and the centroid of the face, and
its normal is the area vector of this triangle; if the face is flipped, the volume has the wrong sign and the normal points into the
cell. -/
theorem side_of_mesh (h : s.Solid r) (hs : r.sides = true) {c : Types.Caches} {i : Info} (hc : Types.cacheExtra (s.base r) = some c)
    (hi : c.side = some i) (k : CornerInfo) {x : Nat} {rec : Rec} (hx : i.side x = some rec) :
    ∃ (rg : Fin s.j.m.nr) (q : Fin s.j.m.nf × Bool) (p : Fin s.j.m.ne × Bool), (s.j.m.rmap s.j.bg).at rec.cell = some rg ∧
      q ∈ (s.j.m.region rg).faces ∧ s.j.m.fmap.id q.1 - 1 = rec.face ∧ p ∈ (s.j.m.face q.1).edges ∧ s.j.m.emap.id p.1 - 1 = rec.edge ∧
      (s.j.Real3 rg →
        let A := s.place (s.j.m.start (p.1, p.2 == q.2))
        let B := s.place (s.j.m.finish (p.1, p.2 == q.2))
        let F := (s.coords c.types).faceCentroid rec.face
        let C := (s.coords c.types).cellCentroid rec.cell
        (s.j.isFlipped q.1 = false → s.sideVolume r c i k x = some (tetVol C A B F) ∧ s.sideNormal r c i k x = some (areaVector [A, B, F])) ∧
        (s.j.isFlipped q.1 = true → s.sideVolume r c i k x = some (-tetVol C A B F) ∧ s.sideNormal r c i k x = some (areaVector [B, A, F]))) := by
  obtain ⟨hci, hv, ho, hn⟩ := caches3 h hs hc hi
  obtain ⟨hf, he⟩ := closure_sides h.made.closed hs
  have S := solid3 h hs c.types hv ho
  obtain ⟨i', e', hok⟩ := cache_ok hv
  rw [hci] at e'; cases e'
  obtain ⟨v, hvis, rfl⟩ := hok.side_iff.1 hx
  have hst := SideGeom.solid_stored S hok k hvis
  have hm := mem_visits.1 (List.mem_of_getElem? hvis)
  obtain ⟨rg, q, hrg, hq, hqf, hqd⟩ := (hasFace3 h.ready _ _ _).mp hm.1
  have hedge : (v.edge, v.edir) ∈ (Types.shape (s.j.base3 r)).faceEdges v.face := hm.2
  rw [← hqf, faceEdges3_of h.ready (h.made.readyE he)] at hedge
  obtain ⟨p, hp, ep⟩ := List.mem_map.mp hedge
  obtain ⟨ep1, ep2⟩ := Prod.mk.inj ep
  refine ⟨rg, q, p, hrg, hq, hqf, hp, ep1, fun hreal => ?_⟩
  have hgeo := side_geo_real (s := s) (r := r) hs hi (by rintro b rfl; rw [base_eq3 h]; rfl) hx (real_type3 h hc hrg hreal) k
  have hsm : s.smesh r c i k = SideGeom.ofCaches (Types.source (s.j.base3 r) c.types) i k (s.coords c.types) := by
    unfold Source.smesh; rw [base_eq3 h]
  rw [hsm] at hgeo
  dsimp only at hst
  have hue' : SideGeom.Spec.usedEdge (Types.source (s.j.base3 r) c.types) (v.edge, v.edir) =
      (s.j.m.vmap.id (s.j.m.start p) - 1, s.j.m.vmap.id (s.j.m.finish p) - 1) := by
    rw [← ep]; exact used_edge3 (r := r) (h.made.readyE he) c.types p
  have hnode : ∀ u, (s.coords c.types).nodeCoord (s.j.m.vmap.id u - 1) = s.place u := node_place s (.inl h.space)
  have hswap : ∀ b, s.j.m.start (p.1, !b) = s.j.m.finish (p.1, b) ∧ s.j.m.finish (p.1, !b) = s.j.m.start (p.1, b) := by
    intro b; cases b <;> exact ⟨rfl, rfl⟩
  have hfd : v.fdir = if s.j.isFlipped q.1 then - dirInt q.2 else dirInt q.2 := by rw [← hqd]; rfl
  have hout : SideGeom.outEdge (Types.source (s.j.base3 r) c.types) v =
      if s.j.isFlipped q.1 then (s.j.m.vmap.id (s.j.m.finish (p.1, p.2 == q.2)) - 1, s.j.m.vmap.id (s.j.m.start (p.1, p.2 == q.2)) - 1)
      else (s.j.m.vmap.id (s.j.m.start (p.1, p.2 == q.2)) - 1, s.j.m.vmap.id (s.j.m.finish (p.1, p.2 == q.2)) - 1) := by
    unfold SideGeom.outEdge
    rw [hue', hfd]
    obtain ⟨e, d⟩ := p
    obtain ⟨f, b⟩ := q
    cases hb : s.j.isFlipped f <;> cases b <;> cases d <;> rfl
  rw [hout] at hst
  unfold Source.sideVolume Source.sideNormal
  rw [hgeo, hst]
  dsimp only
  constructor
  · intro hfl
    rw [hfl]
    refine ⟨?_, ?_⟩
    · rw [Option.map_some]
      show some (tetVol _ ((s.coords c.types).nodeCoord (s.j.m.vmap.id _ - 1)) ((s.coords c.types).nodeCoord (s.j.m.vmap.id _ - 1)) _) = _
      rw [hnode, hnode]; rfl
    · rw [Option.map_some]
      show some (areaVector [((s.coords c.types).nodeCoord (s.j.m.vmap.id _ - 1)), ((s.coords c.types).nodeCoord (s.j.m.vmap.id _ - 1)), _]) = _
      rw [hnode, hnode]; rfl
  · intro hfl
    rw [hfl]
    refine ⟨?_, ?_⟩
    · rw [Option.map_some]
      show some (tetVol _ ((s.coords c.types).nodeCoord (s.j.m.vmap.id _ - 1)) ((s.coords c.types).nodeCoord (s.j.m.vmap.id _ - 1)) _) = _
      rw [hnode, hnode]
      congr 1
      simp only [tetVol, det3, vec, mkRec_cell, mkRec_face]; ring
    · rw [Option.map_some]
      show some (areaVector [((s.coords c.types).nodeCoord (s.j.m.vmap.id _ - 1)), ((s.coords c.types).nodeCoord (s.j.m.vmap.id _ - 1)), _]) = _
      rw [hnode, hnode]; rfl

/-! ### the sides of a cell -/

theorem loop_corners (h : s.Solid r) (t : Types.TypeInfo) (f : Fin s.j.m.nf) :
    (s.j.loop (s.j.m.fmap.id f - 1)).map (s.coords t).nodeCoord = s.corners f := by
  unfold JMesh.loop Source.corners
  rw [s.j.m.fnum.at_id, Option.map_some, Option.getD_some, List.map_map]
  exact List.map_congr_left fun v _ => node_place s (.inl h.space) v

theorem outward_corners3 (h : s.Solid r) (t : Types.TypeInfo) (q : Fin s.j.m.nf × Bool) :
    areaVector (SideGeom.outwardCorners s.j.loop (s.coords t) (s.j.m.fmap.id q.1 - 1, flipDir s.j.faceflip (s.j.m.fmap.id q.1 - 1) q.2)) =
      if s.j.isFlipped q.1 then neg (areaVector (s.outward q)) else areaVector (s.outward q) := by
  have hl := loop_corners h t q.1
  have hrev := fun l : List Point => (areaVector_invariance l 0 0 0 0).2.1
  have hfd : flipDir s.j.faceflip (s.j.m.fmap.id q.1 - 1) q.2 = if s.j.isFlipped q.1 then - dirInt q.2 else dirInt q.2 := rfl
  unfold SideGeom.outwardCorners SideGeom.Spec.outwardFace Source.outward
  dsimp only
  rw [hfd]
  obtain ⟨f, b⟩ := q
  dsimp only at hl ⊢
  have hnn : ∀ p : Point, p.d = 3 → neg (neg p) = p := by
    intro p hp; obtain ⟨d, x, y, z⟩ := p; dsimp only at hp; subst hp
    rw [MeshGeom.neg3, MeshGeom.neg3, neg_neg, neg_neg, neg_neg]
  cases s.j.isFlipped f <;> cases b
  · show areaVector ((s.j.loop _).reverse.map _) = areaVector (s.corners f).reverse
    rw [List.map_reverse, hl]
  · show areaVector ((s.j.loop _).map _) = areaVector (s.corners f)
    rw [hl]
  · show areaVector ((s.j.loop _).map _) = neg (areaVector (s.corners f).reverse)
    rw [hl, hrev, hnn _ rfl]
  · show areaVector ((s.j.loop _).reverse.map _) = neg (areaVector (s.corners f))
    rw [List.map_reverse, hl, hrev]

/-- **C133** the volumes of the sides of a cell add up to the cones from its centroid over its faces, those over flipped faces
subtracted instead of added -/
theorem side_volumes_of_cell (h : s.Solid r) (hs : r.sides = true) {c : Types.Caches} {i : Info}
    (hc : Types.cacheExtra (s.base r) = some c) (hi : c.side = some i) (k : CornerInfo) {cell : Nat} {rg : Fin s.j.m.nr}
    (hr : (s.j.m.rmap s.j.bg).at cell = some rg) (hreal : s.j.Real3 rg) :
    ∃ (l : List Nat) (vs : List ℝ), i.cellGetSides cell = some l ∧ l.map (s.sideVolume r c i k) = vs.map some ∧
      vs.sum = ((s.j.m.region rg).faces.map fun q =>
        (if s.j.isFlipped q.1 then -1 else 1) * s.cone ((s.coords c.types).cellCentroid cell)
          ((s.coords c.types).faceCentroid (s.j.m.fmap.id q.1 - 1)) q).sum := by
  obtain ⟨hci, hv, ho, hn⟩ := caches3 h hs hc hi
  have S := solid3 h hs c.types hv ho
  have hlt := (s.j.m.rnum s.j.bg).lt_of_at hr
  have hmem : cell ∈ (Types.source (s.j.base3 r) c.types).cells := by
    show cell ∈ (s.j.base3 r).cells.all
    rw [cells3_range]; exact List.mem_range.mpr hlt
  obtain ⟨i', e', hvol⟩ := SideGeom.side_volumes_3d _ _ _ S
  rw [hci] at e'; cases e'
  obtain ⟨l, vs, hl, hvs, hsum⟩ := hvol k cell hmem
  obtain ⟨i', e', _, _, _, _, hcs, _⟩ := sides_are_incidences _ hv
  rw [hci] at e'; cases e'
  obtain ⟨l', hl', _, hin⟩ := hcs cell (hv.cells_lt cell hmem)
  rw [hl] at hl'; cases hl'
  refine ⟨l, vs, hl, ?_, ?_⟩
  · rw [← hvs]
    refine List.map_congr_left fun x hx => ?_
    obtain ⟨rec, hrec, hcell⟩ := (hin x).mp hx
    have hgeo := side_geo_real (s := s) (r := r) hs hi (by rintro b rfl; rw [base_eq3 h]; rfl) hrec
      (real_type3 h hc (by rw [hcell]; exact hr) hreal) k
    unfold Source.sideVolume
    rw [hgeo]
    unfold Source.smesh; rw [base_eq3 h]
    rfl
  · rw [hsum]
    have e0 : (Types.source (s.j.base3 r) c.types).cellFaces cell = (s.j.m.region rg).faces.map fun q =>
        (s.j.m.fmap.id q.1 - 1, flipDir s.j.faceflip (s.j.m.fmap.id q.1 - 1) q.2) := by
      show (s.j.cellGetFaces3 cell).getD [] = _
      rw [(public3 h.ready).1 cell hlt, cellFaces3_eq h.ready hr, Option.getD_some]
    rw [e0, List.map_map]
    refine sum_map_congr _ _ _ fun q _ => ?_
    dsimp only [Function.comp]
    rw [outward_corners3 h]
    unfold Source.cone
    cases s.j.isFlipped q.1
    · simp
    · rw [areaVector, MeshGeom.neg3]
      simp only [if_true, inner3, mk3]
      ring

/-- the corners of a face as handed to the geometry, as a rotation of the face seen from a cell or of its reverse -/
theorem faceCoords_turned (h : s.Solid r) (q : Fin s.j.m.nf × Bool) : ∃ k,
    s.gmesh.faceCoords (s.j.m.fmap.id q.1 - 1) = (s.outward q).rotate k ∨
      s.gmesh.faceCoords (s.j.m.fmap.id q.1 - 1) = ((s.outward q).rotate k).reverse := by
  obtain ⟨k, hk⟩ := oriented_rotated h q
  refine ⟨k, ?_⟩
  unfold MeshGeom.orientedFace at hk
  split at hk
  · exact .inl hk
  · exact .inr (by rw [← hk, List.reverse_reverse])

/-- the centroid of a flat face lies in its plane -/
theorem cone_flat (h : s.Solid r) (t : Types.TypeInfo) (q : Fin s.j.m.nf × Bool) (hq : SideGeom.Spec.Flat (s.outward q)) (C : Point) :
    s.cone C ((s.coords t).faceCentroid (s.j.m.fmap.id q.1 - 1)) q = volumeFrom C [s.outward q] := by
  have hl := (face_corners_d h q.1).1
  have hd := (face_corners_d h q.1).2
  have hA : ∃ e : ℝ, e * e = 1 ∧ ∀ b, inner3 (areaVector (s.gmesh.faceCoords (s.j.m.fmap.id q.1 - 1))) b = e * inner3 (areaVector (s.outward q)) b := by
    obtain ⟨k, hk | hk⟩ := faceCoords_turned h q
    · refine ⟨1, by norm_num, fun b => ?_⟩
      rw [hk, (areaVector_invariance _ 0 0 0 k).2.2, one_mul]
    · refine ⟨-1, by norm_num, fun b => ?_⟩
      rw [hk, (areaVector_invariance _ 0 0 0 k).2.1, (areaVector_invariance _ 0 0 0 k).2.2, areaVector, MeshGeom.neg3]
      simp only [inner3, mk3]; ring
  have hp : (s.gmesh.faceCoords (s.j.m.fmap.id q.1 - 1)).Perm (s.outward q) := by
    obtain ⟨k, hk | hk⟩ := faceCoords_turned h q
    · rw [hk]; exact List.rotate_perm _ _
    · rw [hk]; exact (List.reverse_perm _).trans (List.rotate_perm _ _)
  obtain ⟨e, he, hA⟩ := hA
  have hf : SideGeom.Spec.Flat (s.gmesh.faceCoords (s.j.m.fmap.id q.1 - 1)) := by
    intro a ha b hb
    rw [hA, hq a (hp.mem_iff.mp ha) b (hp.mem_iff.mp hb), mul_zero]
  have h0 := SideGeom.flat_centroid _ hl hd hf
  rw [hA, vertexMean_perm hp, ← face_centroid_of h t] at h0
  have h1 : inner3 (areaVector (s.outward q)) (vec (vertexMean 3 (s.outward q)) ((s.coords t).faceCentroid (s.j.m.fmap.id q.1 - 1))) = 0 := by
    rcases mul_eq_zero.mp h0 with h2 | h2
    · rw [h2] at he; norm_num at he
    · exact h2
  unfold Source.cone volumeFrom
  rw [List.flatMap_cons, List.flatMap_nil, List.append_nil, MeshGeom.facets_sum, SideGeom.sdot_inner]
  generalize (s.coords t).faceCentroid _ = F at *
  generalize areaVector _ = A at *
  generalize vertexMean _ _ = M at *
  simp only [inner3, vec] at *
  linear_combination h1 / 3

theorem volumeFrom_faces (o : Point) (rg : Fin s.j.m.nr) :
    volumeFrom o (s.surface rg) = ((s.j.m.region rg).faces.map fun q => volumeFrom o [s.outward q]).sum := by
  unfold Source.surface
  generalize (s.j.m.region rg).faces = l
  induction l with
  | nil => rfl
  | cons q l ih =>
    rw [List.map_cons, List.map_cons, List.sum_cons, ← ih]
    unfold volumeFrom
    rw [List.flatMap_cons, List.flatMap_cons, List.flatMap_nil, List.append_nil, List.map_append, List.sum_append]

/-- **C133** the sides of a cell with flat faces, a closed surface and more than four corners: their volumes add up to the volume
reported for the cell minus twice the cones from its centroid over its flipped faces -/
theorem side_volumes_and_cell (h : s.Solid r) (hs : r.sides = true) {c : Types.Caches} {i : Info}
    (hc : Types.cacheExtra (s.base r) = some c) (hi : c.side = some i) (k : CornerInfo) {cell : Nat} {rg : Fin s.j.m.nr}
    (hr : (s.j.m.rmap s.j.bg).at cell = some rg) (hreal : s.j.Real3 rg)
    (h4 : 4 < (s.gmesh.cellCoords cell).length) (hne : (s.j.m.region rg).faces ≠ [])
    (hst : StarShaped3 (s.gmesh.cellCoords cell) (s.surface rg)) (hw : s.j.m.Watertight (s.j.m.region rg))
    (hflat : ∀ q ∈ (s.j.m.region rg).faces, SideGeom.Spec.Flat (s.outward q)) :
    ∃ (l : List Nat) (vs : List ℝ) (vol : ℝ) (cen : Point), i.cellGetSides cell = some l ∧ l.map (s.sideVolume r c i k) = vs.map some ∧
      MeshGeom.computeCellGeometry s.gmesh cell = some (vol, cen) ∧
      vs.sum = vol - 2 * (((s.j.m.region rg).faces.filter fun q => s.j.isFlipped q.1).map fun q => volumeFrom cen [s.outward q]).sum := by
  obtain ⟨l, vs, hl, hvs, hsum⟩ := side_volumes_of_cell h hs hc hi k hr hreal
  obtain ⟨vol, cen, hg, _, hvol⟩ := volume_of_mesh h hr h4 hne
  refine ⟨l, vs, vol, cen, hl, hvs, hg, ?_⟩
  have hcen : (s.coords c.types).cellCentroid cell = cen := by
    obtain ⟨l', hl'⟩ := cellGet_some h hr
    unfold Source.coords; dsimp only
    rw [hl', Option.bind_some]
    unfold Source.cellGeo
    rw [if_neg (real_type3 h hc hr hreal), hg]; rfl
  rw [hsum, (hvol hst hw cen).1, volumeFrom_faces, hcen]
  have hcone : ∀ q ∈ (s.j.m.region rg).faces, s.cone cen ((s.coords c.types).faceCentroid (s.j.m.fmap.id q.1 - 1)) q = volumeFrom cen [s.outward q] :=
    fun q hq => cone_flat h c.types q (hflat q hq) cen
  revert hcone
  generalize (s.j.m.region rg).faces = fs
  intro hcone
  induction fs with
  | nil => simp
  | cons q fs ih =>
    have ih := ih fun q' hq' => hcone q' (List.mem_cons_of_mem _ hq')
    rw [List.map_cons, List.map_cons, List.sum_cons, List.sum_cons, ih, List.filter_cons, hcone q (List.mem_cons_self ..)]
    cases s.j.isFlipped q.1
    · simp; ring
    · simp; ring

/-- **C133** the sides fill the cell if none of its faces is flipped; flipped faces are missing -/
theorem sides_fill_cell_mesh_partial (h : s.Solid r) (hs : r.sides = true) {c : Types.Caches} {i : Info}
    (hc : Types.cacheExtra (s.base r) = some c) (hi : c.side = some i) (k : CornerInfo) {cell : Nat} {rg : Fin s.j.m.nr}
    (hr : (s.j.m.rmap s.j.bg).at cell = some rg) (hreal : s.j.Real3 rg)
    (h4 : 4 < (s.gmesh.cellCoords cell).length) (hne : (s.j.m.region rg).faces ≠ [])
    (hst : StarShaped3 (s.gmesh.cellCoords cell) (s.surface rg)) (hw : s.j.m.Watertight (s.j.m.region rg))
    (hflat : ∀ q ∈ (s.j.m.region rg).faces, SideGeom.Spec.Flat (s.outward q))
    (hfl : ∀ q ∈ (s.j.m.region rg).faces, s.j.isFlipped q.1 = false) :
    ∃ (l : List Nat) (vs : List ℝ) (cen : Point), i.cellGetSides cell = some l ∧ l.map (s.sideVolume r c i k) = vs.map some ∧
      MeshGeom.computeCellGeometry s.gmesh cell = some (vs.sum, cen) := by
  obtain ⟨l, vs, vol, cen, h1, h2, h3, h5⟩ := side_volumes_and_cell h hs hc hi k hr hreal h4 hne hst hw hflat
  refine ⟨l, vs, cen, h1, h2, ?_⟩
  rw [h3, h5, List.filter_eq_nil_iff.mpr (by intro q hq; rw [hfl q hq]; simp)]
  simp

/-- **C133** the normals of the sides of a cell over one of its faces add up to the normal of the face with respect to the cell, or to
its opposite if the face is flipped -/
theorem side_normals_of_face (h : s.Solid r) (hs : r.sides = true) {c : Types.Caches} {i : Info}
    (hc : Types.cacheExtra (s.base r) = some c) (hi : c.side = some i) (k : CornerInfo) {cell : Nat} {rg : Fin s.j.m.nr}
    (hr : (s.j.m.rmap s.j.bg).at cell = some rg) (hreal : s.j.Real3 rg) {q : Fin s.j.m.nf × Bool} (hq : q ∈ (s.j.m.region rg).faces) :
    ∃ (l : List Nat) (ns : List Point) (n : Point), i.cellGetSides cell = some l ∧
      (l.filter fun x => decide ((i.side x).map (·.face) = some (s.j.m.fmap.id q.1 - 1))).map (s.sideNormal r c i k) = ns.map some ∧
      MeshGeom.faceNormal s.gmesh (s.j.m.fmap.id q.1 - 1) (some cell) = some n ∧
      SideGeom.Spec.sum3 ns = if s.j.isFlipped q.1 then neg n else n := by
  obtain ⟨hci, hv, ho, hn⟩ := caches3 h hs hc hi
  have S := solid3 h hs c.types hv ho
  have hlt := (s.j.m.rnum s.j.bg).lt_of_at hr
  have hmem : cell ∈ (Types.source (s.j.base3 r) c.types).cells := by
    show cell ∈ (s.j.base3 r).cells.all
    rw [cells3_range]; exact List.mem_range.mpr hlt
  have hcf : (s.j.m.fmap.id q.1 - 1, flipDir s.j.faceflip (s.j.m.fmap.id q.1 - 1) q.2) ∈ (Types.source (s.j.base3 r) c.types).cellFaces cell := by
    show _ ∈ (s.j.cellGetFaces3 cell).getD []
    rw [(public3 h.ready).1 cell hlt, cellFaces3_eq h.ready hr, Option.getD_some]
    exact List.mem_map_of_mem hq
  obtain ⟨i', e', hnor⟩ := SideGeom.side_normals_sum_to_face _ _ _ S
  rw [hci] at e'; cases e'
  obtain ⟨l, ns, hl, hns, hsum⟩ := hnor k cell _ _ ⟨hmem, hcf⟩
  obtain ⟨i', e', _, _, _, _, hcs, _⟩ := sides_are_incidences _ hv
  rw [hci] at e'; cases e'
  obtain ⟨l', hl', _, hin⟩ := hcs cell (hv.cells_lt cell hmem)
  rw [hl] at hl'; cases hl'
  refine ⟨l, ns, _, hl, ?_, normals_of_mesh h hr hq, by rw [hsum, outward_corners3 h]⟩
  rw [← hns]
  refine List.map_congr_left fun x hx => ?_
  obtain ⟨rec, hrec, hcell⟩ := (hin x).mp (List.mem_of_mem_filter hx)
  have hgeo := side_geo_real (s := s) (r := r) hs hi (by rintro b rfl; rw [base_eq3 h]; rfl) hrec
    (real_type3 h hc (by rw [hcell]; exact hr) hreal) k
  unfold Source.sideNormal
  rw [hgeo]
  unfold Source.smesh; rw [base_eq3 h]
  rfl

end Jali.Mstk

/-! ### example: the upper pyramid of the octahedron. Its square and one of its triangles are flipped on this rank. -/
namespace Jali.Mstk
open Jali.Geom Jali.Geom.Point Jali.Geom.Spec Jali.Sides Jali.Sides.Spec

theorem octa_surface0 : octa.surface (0 : Fin 2) = [[mk3 (-1) 1 0, mk3 1 1 0, mk3 1 (-1) 0, mk3 (-1) (-1) 0],
    [mk3 (-1) (-1) 0, mk3 1 (-1) 0, mk3 0 0 1], [mk3 1 (-1) 0, mk3 1 1 0, mk3 0 0 1], [mk3 1 1 0, mk3 (-1) 1 0, mk3 0 0 1],
    [mk3 (-1) 1 0, mk3 (-1) (-1) 0, mk3 0 0 1]] := rfl

theorem octa_flat0 : ∀ q ∈ (octa.j.m.region (0 : Fin 2)).faces, SideGeom.Spec.Flat (octa.outward q) := by
  intro q hq
  have hm : octa.outward q ∈ octa.surface (0 : Fin 2) := List.mem_map_of_mem hq
  rw [octa_surface0] at hm
  generalize octa.outward q = f at hm
  simp only [List.mem_cons, List.not_mem_nil, or_false] at hm
  intro a ha b hb
  rcases hm with rfl | rfl | rfl | rfl | rfl
  all_goals
    simp only [List.mem_cons, List.not_mem_nil, or_false] at ha hb
    simp only [areaVector, polyEdges, mk3, List.rotate_cons_succ, List.rotate_zero, List.zip_cons_cons, List.cons_append,
      List.nil_append, List.zip_nil_right, List.map_cons, List.map_nil, List.sum_cons, List.sum_nil, inner3, vec]
    first
    | (rcases ha with rfl | rfl | rfl | rfl <;> rcases hb with rfl | rfl | rfl | rfl <;> norm_num [mk3])
    | (rcases ha with rfl | rfl | rfl <;> rcases hb with rfl | rfl | rfl <;> norm_num [mk3])

theorem octa_pyramid : MeshGeom.computeCellGeometry octa.gmesh 0 = some (4 / 3, mk3 0 0 (1 / 4)) := by
  have h4 : 4 < (octa.gmesh.cellCoords 0).length := by rw [octa_coords.1]; simp
  obtain ⟨vol, cen, e, _, hv⟩ := volume_of_mesh octa_solid (c := 0) (rg := (0 : Fin 2)) octa_cells.1 h4 (by decide +kernel)
  obtain ⟨h1, h2, h3, h5⟩ := hv octa_star.1 (octa_watertight 0) (mk3 0 0 0)
  have hd : cen.d = 3 := by
    have := cell_centroid_d octa_solid ⟨[], [], [], []⟩ 0
    obtain ⟨l', hl'⟩ := cellGet_some octa_solid (c := 0) (rg := (0 : Fin 2)) octa_cells.1
    unfold Source.coords at this; dsimp only at this
    rw [hl', Option.bind_some] at this
    unfold Source.cellGeo at this
    rw [if_neg (by simp), e] at this
    exact this
  rw [octa_surface0] at h1 h2 h3 h5
  simp only [volumeFrom, momentFrom, List.flatMap_cons, List.flatMap_nil, facets, List.cons_append, List.nil_append, List.map_cons, List.map_nil,
    List.sum_cons, List.sum_nil, tetVol, det3, vec, mk3, vertexMean, mean, polyEdges, List.rotate_cons_succ, List.rotate_zero,
    List.zip_cons_cons, List.zip_nil_right, List.length_cons, List.length_nil] at h1 h2 h3 h5
  norm_num at h1 h2 h3 h5
  subst h1
  norm_num at h2 h3 h5
  rw [e]
  obtain ⟨d, x, y, z⟩ := cen
  dsimp only at hd h2 h3 h5
  subst hd
  have hz : z = 1 / 4 := by linarith
  subst h2 h3 hz
  rfl

/-- the volumes of its sides add up to 1/6, not to its volume 4/3 -/
theorem octa_sides_wrong : ∃ (c : Types.Caches) (i : Info),
    Types.cacheExtra (octa.base (MeshCache.closure ⟨true, true, true, true, true⟩)) = some c ∧ c.side = some i ∧
      ∀ k, ∃ (l : List Nat) (vs : List ℝ), i.cellGetSides 0 = some l ∧
        l.map (octa.sideVolume (MeshCache.closure ⟨true, true, true, true, true⟩) c i k) = vs.map some ∧ vs.sum = 1 / 6 := by
  obtain ⟨c, i, hc, hi⟩ := caches3_exist octa_solid rfl
  have h4 : 4 < (octa.gmesh.cellCoords 0).length := by rw [octa_coords.1]; simp
  refine ⟨c, i, hc, hi, fun k => ?_⟩
  obtain ⟨l, vs, vol, cen, hl, hvs, hg, hsum⟩ := side_volumes_and_cell octa_solid rfl hc hi k (cell := 0) (rg := (0 : Fin 2)) octa_cells.1
    (by intro _; rfl) h4 (by decide +kernel) octa_star.1 (octa_watertight 0) octa_flat0
  rw [octa_pyramid] at hg; cases hg
  refine ⟨l, vs, hl, hvs, hsum.trans ?_⟩
  have hfil : ((octa.j.m.region (0 : Fin 2)).faces.filter fun q => octa.j.isFlipped q.1) = [((0 : Fin 9), false), (1, true)] := by decide +kernel
  rw [hfil]
  show (4 / 3 : ℝ) - 2 * ([volumeFrom (mk3 0 0 (1 / 4)) [[mk3 (-1) 1 0, mk3 1 1 0, mk3 1 (-1) 0, mk3 (-1) (-1) 0]],
    volumeFrom (mk3 0 0 (1 / 4)) [[mk3 (-1) (-1) 0, mk3 1 (-1) 0, mk3 0 0 1]]]).sum = _
  simp only [volumeFrom, List.flatMap_cons, List.flatMap_nil, facets, List.cons_append, List.nil_append, List.map_cons, List.map_nil,
    List.sum_cons, List.sum_nil, tetVol, det3, vec, mk3, vertexMean, mean, polyEdges, List.rotate_cons_succ, List.rotate_zero,
    List.zip_cons_cons, List.zip_nil_right, List.length_cons, List.length_nil]
  norm_num

/-- **C133 is false as stated**: the sides of a star-shaped cell with flat faces and a closed surface need not fill the cell -/
theorem sides_do_not_fill_cell : ¬ ∀ (s : Source ℝ) (r : MeshCache.Request) (_ : s.Solid r) (_ : r.sides = true) (c : Types.Caches) (i : Info)
    (_ : Types.cacheExtra (s.base r) = some c) (_ : c.side = some i) (k : CornerInfo) (cell : Nat) (rg : Fin s.j.m.nr)
    (_ : (s.j.m.rmap s.j.bg).at cell = some rg) (_ : s.j.Real3 rg) (_ : 4 < (s.gmesh.cellCoords cell).length)
    (_ : StarShaped3 (s.gmesh.cellCoords cell) (s.surface rg)) (_ : s.j.m.Watertight (s.j.m.region rg))
    (_ : ∀ q ∈ (s.j.m.region rg).faces, SideGeom.Spec.Flat (s.outward q)),
    ∃ (l : List Nat) (vs : List ℝ) (cen : Point), i.cellGetSides cell = some l ∧ l.map (s.sideVolume r c i k) = vs.map some ∧
      MeshGeom.computeCellGeometry s.gmesh cell = some (vs.sum, cen) := by
  intro H
  obtain ⟨c, i, hc, hi, hk⟩ := octa_sides_wrong
  have h4 : 4 < (octa.gmesh.cellCoords 0).length := by rw [octa_coords.1]; simp
  obtain ⟨_, hv, _, hn⟩ := caches3 octa_solid rfl hc hi
  obtain ⟨_, k, _⟩ := corners _ hv hn
  obtain ⟨l, vs, hl, hvs, hsum⟩ := hk k
  obtain ⟨l', vs', cen, hl', hvs', hg⟩ := H octa _ octa_solid rfl c i hc hi k 0 (0 : Fin 2) octa_cells.1 (by intro _; rfl) h4 octa_star.1
    (octa_watertight 0) octa_flat0
  rw [hl] at hl'; cases hl'
  rw [hvs] at hvs'
  have := List.map_injective_iff.mpr (Option.some_injective ℝ) hvs'
  subst this
  rw [octa_pyramid] at hg
  have := (Prod.mk.inj (Option.some.inj hg)).1
  rw [hsum] at this
  norm_num at this

/-- the same mesh on a rank where no face is flipped -/
noncomputable abbrev octaN : Source ℝ := { octa with j := { octaJ with faceflip := List.replicate 9 false } }

theorem octaN_solid : octaN.Solid (MeshCache.closure ⟨true, true, true, true, true⟩) where
  made := ⟨⟨_, rfl⟩, rfl, rfl, fun _ => rfl, fun _ => rfl⟩
  faces := rfl
  dim := rfl
  space := rfl
  polygons := octa_solid.polygons
  regions := octa_solid.regions
  three := octa_solid.three

/-- there the sides of the upper pyramid have the volume of the pyramid, and the normals of those over the square add up to its normal -/
example : ∃ (c : Types.Caches) (i : Info),
    Types.cacheExtra (octaN.base (MeshCache.closure ⟨true, true, true, true, true⟩)) = some c ∧ c.side = some i ∧
      ∀ k, ∃ (l : List Nat) (vs : List ℝ) (ns : List Point), i.cellGetSides 0 = some l ∧
        l.map (octaN.sideVolume (MeshCache.closure ⟨true, true, true, true, true⟩) c i k) = vs.map some ∧
        (∃ cen, MeshGeom.computeCellGeometry octaN.gmesh 0 = some (vs.sum, cen)) ∧
        (l.filter fun x => decide ((i.side x).map (·.face) = some 0)).map
          (octaN.sideNormal (MeshCache.closure ⟨true, true, true, true, true⟩) c i k) = ns.map some ∧
        MeshGeom.faceNormal octaN.gmesh 0 (some 0) = some (SideGeom.Spec.sum3 ns) := by
  obtain ⟨c, i, hc, hi⟩ := caches3_exist octaN_solid rfl
  have hcc : octaN.gmesh.cellCoords 0 = [mk3 1 (-1) 0, mk3 1 1 0, mk3 (-1) 1 0, mk3 (-1) (-1) 0, mk3 0 0 1] := by
    have a0 := gmesh_cellCoords octaN_solid (c := 0) (rg := (0 : Fin 2)) octa_cells.1
    have b0 : octaN.j.m.mrVertices (octaN.j.m.region (0 : Fin 2)) = ([1, 2, 3, 0, 4] : List (Fin 6)) := octa_cells.2.2.1
    rw [b0] at a0
    exact a0
  have h4 : 4 < (octaN.gmesh.cellCoords 0).length := by rw [hcc]; simp
  have hst : StarShaped3 (octaN.gmesh.cellCoords 0) (octaN.surface (0 : Fin 2)) := by
    have := octa_star.1
    rw [octa_coords.1] at this
    rw [hcc]; exact this
  refine ⟨c, i, hc, hi, fun k => ?_⟩
  obtain ⟨l, vs, cen, hl, hvs, hg⟩ := sides_fill_cell_mesh_partial octaN_solid rfl hc hi k (cell := 0) (rg := (0 : Fin 2)) octa_cells.1
    (by intro _; rfl) h4 (by decide +kernel) hst (octa_watertight 0) octa_flat0 (by decide +kernel)
  obtain ⟨l', ns, n, hl', hns, hn, hsum⟩ := side_normals_of_face octaN_solid rfl hc hi k (cell := 0) (rg := (0 : Fin 2)) octa_cells.1
    (by intro _; rfl) (q := ((0 : Fin 9), false)) (by decide +kernel)
  rw [hl] at hl'; cases hl'
  have e0 : octaN.j.m.fmap.id (0 : Fin 9) - 1 = 0 := by decide +kernel
  have e1 : octaN.j.isFlipped (0 : Fin 9) = false := by decide +kernel
  dsimp only at hns hn hsum
  rw [e0] at hns hn
  rw [e1] at hsum
  exact ⟨l, vs, ns, hl, hvs, ⟨cen, hg⟩, hns, by rw [hsum]; exact hn⟩

end Jali.Mstk
