import Verif.Props.MstkGeometry
import Verif.Proof.PointLocation3c
import Verif.Props.Polyhedron
import Verif.Props.MstkExtract3
/-!
C148: finding the cell of an MSTK mesh of polyhedra that contains a point, for every position of the nodes and every point.
-/
namespace Jali.Mstk
open Jali.Geom Jali.Geom.Point Jali.Geom.Spec Jali.MeshGeom

variable {s : Source ℝ} {r : MeshCache.Request}

theorem pointInCell_solid (h : s.Solid r) (t : Point) (c : Nat) : pointInCell s.gmesh t c =
    pointInPolyhed t (s.gmesh.cellCoords c) (((s.gmesh.cellFaces c).map (orientedFace s.gmesh)).map List.length)
      ((s.gmesh.cellFaces c).map (orientedFace s.gmesh)).flatten := by
  unfold pointInCell
  rw [if_pos (gmesh_dim3 h).1]

theorem oriented_d (h : s.Solid r) {c : Nat} {rg : Fin s.j.m.nr} (hc : (s.j.m.rmap s.j.bg).at c = some rg) :
    ∀ f ∈ (s.gmesh.cellFaces c).map (orientedFace s.gmesh), ∀ p ∈ f, p.d = 3 := by
  rw [gmesh_cellFaces h hc, List.map_map]
  intro f hf
  obtain ⟨q, _, rfl⟩ := List.mem_map.mp hf
  obtain ⟨k, hk⟩ := oriented_rotated h q
  intro p hp
  have hp' : p ∈ (s.outward q).rotate k := by rw [← hk]; exact hp
  exact outward_d h q p (List.mem_rotate.mp hp')

theorem innerSide_rotated {fs gs : List (List Point)} (h : List.Forall₂ (fun f g => ∃ k, f = g.rotate k) fs gs) (t : Point) :
    (∀ f ∈ fs, ∀ x ∈ facets f, InnerSide t x) ↔ ∀ g ∈ gs, ∀ x ∈ facets g, InnerSide t x := by
  have hp := rotated_flatMap (fun x => tetVol t x.1 x.2.1 x.2.2) (fun a b c => facets_reverse_pos _ a b c) h
  have key : ∀ fs : List (List Point), (∀ f ∈ fs, ∀ x ∈ facets f, InnerSide t x) ↔
      ∀ v ∈ (fs.flatMap facets).map fun x => tetVol t x.1 x.2.1 x.2.2, 0 ≤ v := by
    intro fs
    unfold InnerSide
    simp only [List.mem_map, List.mem_flatMap]
    constructor
    · rintro h x ⟨t, ⟨f, hf, ht⟩, rfl⟩; exact h f hf t ht
    · intro h f hf t ht; exact h _ ⟨t, ⟨f, hf, ht⟩, rfl⟩
  rw [key, key]
  exact ⟨fun hx x hm => hx x (hp.mem_iff.mpr hm), fun hx x hm => hx x (hp.mem_iff.mp hm)⟩

/-- **C148, the part that holds.** A cell without triangles among its faces contains a point exactly if the point is on the inner side of
(or in the plane of) every triangle its faces, seen from outside, are divided into, whether or not faces are flipped on this rank. -/
theorem solid_cell_contains_partial (h : s.Solid r) (t : Point) {c : Nat} {rg : Fin s.j.m.nr} (hc : (s.j.m.rmap s.j.bg).at c = some rg)
    (h4 : 4 ≤ (s.gmesh.cellCoords c).length) (hnt : ∀ q ∈ (s.j.m.region rg).faces, (s.j.m.face q.1).edges.length ≠ 3) :
    pointInCell s.gmesh t c = true ↔ ∀ g ∈ s.surface rg, ∀ x ∈ facets g, InnerSide t x := by
  rw [pointInCell_solid h, point_in_polyhed_partial t _ h4 _ (oriented_d h hc), innerSide_rotated (oriented_surface h hc)]
  rw [gmesh_cellFaces h hc, List.map_map]
  intro f hf
  obtain ⟨q, hq, rfl⟩ := List.mem_map.mp hf
  obtain ⟨k, hk⟩ := oriented_rotated h q
  show (orientedFace s.gmesh (s.j.m.fmap.id q.1 - 1, flipDir s.j.faceflip (s.j.m.fmap.id q.1 - 1) q.2)).length ≠ 3
  rw [hk, List.length_rotate, outward_length]
  exact hnt q hq

/-- the triangles of a face turned around are the triangles of the face turned around -/
theorem facets_reverse_mem (l : List Point) {x : Point × Point × Point} (hx : x ∈ facets l) (t : Point) :
    ∃ y ∈ facets l.reverse, tetVol t y.1 y.2.1 y.2.2 = - tetVol t x.1 x.2.1 x.2.2 := by
  by_cases hl : l.length = 3
  · obtain ⟨a, b, c, rfl⟩ := List.length_eq_three.mp hl
    have : x = (a, b, c) := by simpa [facets] using hx
    subst this
    refine ⟨(c, b, a), by simp [facets], ?_⟩
    simp only [tetVol, det3, vec]; ring
  · rw [facets_other _ hl] at hx
    obtain ⟨e, he, rfl⟩ := List.mem_map.mp hx
    refine ⟨(e.2, e.1, vertexMean 3 l), ?_, ?_⟩
    · rw [facets_other _ (by rw [List.length_reverse]; exact hl), vertexMean_perm (List.reverse_perm l)]
      refine List.mem_map.mpr ⟨e.swap, ?_, rfl⟩
      exact (edges_reverse l).mem_iff.mpr (List.mem_map.mpr ⟨e, he, rfl⟩)
    · simp only [tetVol, det3, vec]; ring

/-- **C148, neighbours, the part that holds.** A point that two neighbours without triangles both contain is in the planes of all the
triangles their common face is divided into: no point is strictly inside of both. -/
theorem neighbours_share_face_only_partial (h : s.Solid r) (t : Point) {c c' : Nat} {rg rg' : Fin s.j.m.nr}
    (hc : (s.j.m.rmap s.j.bg).at c = some rg) (hc' : (s.j.m.rmap s.j.bg).at c' = some rg') {f : Fin s.j.m.nf} {d : Bool}
    (hf : (f, d) ∈ (s.j.m.region rg).faces) (hf' : (f, !d) ∈ (s.j.m.region rg').faces)
    (h4 : 4 ≤ (s.gmesh.cellCoords c).length) (h4' : 4 ≤ (s.gmesh.cellCoords c').length)
    (hnt : ∀ q ∈ (s.j.m.region rg).faces, (s.j.m.face q.1).edges.length ≠ 3)
    (hnt' : ∀ q ∈ (s.j.m.region rg').faces, (s.j.m.face q.1).edges.length ≠ 3)
    (hin : pointInCell s.gmesh t c = true) (hin' : pointInCell s.gmesh t c' = true) :
    ∀ x ∈ facets (s.outward (f, d)), tetVol t x.1 x.2.1 x.2.2 = 0 := by
  rw [solid_cell_contains_partial h t hc h4 hnt] at hin
  rw [solid_cell_contains_partial h t hc' h4' hnt'] at hin'
  have hrev : s.outward (f, !d) = (s.outward (f, d)).reverse := by
    unfold Source.outward; cases d <;> simp
  intro x hx
  have i1 := hin _ (List.mem_map_of_mem hf) x hx
  obtain ⟨y, hy, hv⟩ := facets_reverse_mem _ hx t
  have i2 := hin' (s.outward (f, !d)) (List.mem_map_of_mem hf') y (by rw [hrev]; exact hy)
  unfold InnerSide at i1 i2
  rw [hv] at i2
  linarith

/-- **C148 is false of the code for tetrahedra**: of a cell all of whose faces are triangles only the first face is looked at -/
theorem tet_cell_contains (h : s.Solid r) (t : Point) {c : Nat} {rg : Fin s.j.m.nr} (hc : (s.j.m.rmap s.j.bg).at c = some rg)
    (h4 : 4 ≤ (s.gmesh.cellCoords c).length) {q : Fin s.j.m.nf × Bool} {qs : List (Fin s.j.m.nf × Bool)}
    (hq : (s.j.m.region rg).faces = q :: qs) (htri : ∀ q ∈ (s.j.m.region rg).faces, (s.j.m.face q.1).edges.length = 3) :
    pointInCell s.gmesh t c = true ↔ ∀ x ∈ facets (s.outward q), InnerSide t x := by
  have hos := oriented_surface h hc
  have hd := oriented_d h hc
  have hl3 : ∀ f ∈ (s.gmesh.cellFaces c).map (orientedFace s.gmesh), f.length = 3 := by
    rw [gmesh_cellFaces h hc, List.map_map]
    intro f hf
    obtain ⟨q, hq, rfl⟩ := List.mem_map.mp hf
    obtain ⟨k, hk⟩ := oriented_rotated h q
    show (orientedFace s.gmesh (s.j.m.fmap.id q.1 - 1, flipDir s.j.faceflip (s.j.m.fmap.id q.1 - 1) q.2)).length = 3
    rw [hk, List.length_rotate, outward_length]
    exact htri q hq
  rw [pointInCell_solid h]
  generalize (s.gmesh.cellFaces c).map (orientedFace s.gmesh) = fs at hos hd hl3
  unfold Source.surface at hos
  rw [hq, List.map_cons] at hos
  cases hos with
  | cons hk hrest =>
    rename_i f fs'
    obtain ⟨x, y, z, rfl⟩ := List.length_eq_three.mp (hl3 f (by simp))
    have hd0 := hd [x, y, z] (by simp)
    rw [point_in_polyhed_triangles t _ h4 x y z fs' (hd0 x (by simp)) (hd0 y (by simp)) (hd0 z (by simp))
      (fun f hf => hl3 f (by simp [hf]))]
    have := innerSide_rotated (fs := [[x, y, z]]) (gs := [s.outward q]) (.cons hk .nil) t
    rw [List.forall_mem_singleton, List.forall_mem_singleton] at this
    rw [← this]
    show _ ↔ ∀ w ∈ [(x, y, z)], _
    rw [List.forall_mem_singleton]

/-- every corner of the cell is on the inner side of (or in the plane of) every triangle its faces are divided into -/
def Source.ConvexCell (s : Source ℝ) (rg : Fin s.j.m.nr) : Prop :=
  ∀ g ∈ s.surface rg, ∀ x ∈ facets g, ∀ g' ∈ s.surface rg, ∀ v ∈ g', InnerSide v x

theorem sum_faces (h : s.Solid r) (g : Tri → ℝ) (hc : ∀ a b c, g (a, b, c) = g (b, c, a)) (hr : ∀ a b c, g (b, a, c) = - g (a, b, c)) :
    ((List.finRange s.j.m.nr).map fun rg => (((s.surface rg).flatMap facets).map g).sum).sum =
      (((s.j.m.boundary.map s.outward).flatMap facets).map g).sum := by
  have key := oneSided_sum (fun rg => (s.j.m.region rg).faces) (fun rg => List.Nodup.of_map _ (h.regions.noface rg))
      (fun q c c' h1 h2 => h.regions.sides _ _ _ _ h1 h2) (fun q => ((facets (s.outward q)).map g).sum) (by
      intro f d
      have hrev := facets_reverse g hc hr (s.corners f)
      unfold Source.outward
      cases d
      · show ((facets (s.corners f)).map _).sum = -((facets (s.corners f).reverse).map _).sum
        rw [hrev, neg_neg]
      · exact hrev)
  refine Eq.trans (sum_map_congr _ _ _ fun rg _ => ?_) (key.trans ?_)
  · unfold Source.surface; rw [sum_flatMap, List.map_map]; rfl
  · rw [sum_flatMap, List.map_map]; rfl

/-- the faces with a cell on one side only form a closed surface -/
theorem boundary_balanced (h : s.Solid r) (hw : ∀ rg, s.j.m.Watertight (s.j.m.region rg)) :
    Balanced ((s.j.m.boundary.map s.outward).flatMap facets) := by
  intro φ hφ
  rw [← sum_faces h (round3 φ) (fun a b c => round3_cycle φ a b c) (fun a b c => by
    unfold round3; dsimp only; rw [hφ a b, hφ c a, hφ b c]; ring)]
  have : ∀ rg ∈ List.finRange s.j.m.nr, (((s.surface rg).flatMap facets).map (round3 φ)).sum = 0 :=
    fun rg _ => closed_balanced (surface_closed h.polygons rg (hw rg)) φ hφ
  rw [List.map_congr_left this]; simp

/-- **C148, every point is found, the part that holds.** In a mesh of convex cells with closed surfaces and without triangles, every point
strictly on the inner side of all triangles the faces of the boundary are divided into is in a cell. The domain need not be convex: the point
must see all of its boundary from inside. -/
theorem some_solid_cell_contains_partial (h : s.Solid r) (h4 : ∀ c < s.j.m.nr, 4 ≤ (s.gmesh.cellCoords c).length)
    (hnt : ∀ f, (s.j.m.face f).edges.length ≠ 3) (hw : ∀ rg, s.j.m.Watertight (s.j.m.region rg)) (hcv : ∀ rg, s.ConvexCell rg)
    (hne : s.j.m.boundary ≠ []) (t : Point) (hin : ∀ q ∈ s.j.m.boundary, ∀ x ∈ facets (s.outward q), 0 < tetVol t x.1 x.2.1 x.2.2) :
    ∃ c < s.j.m.nr, pointInCell s.gmesh t c = true := by
  by_contra hno
  push Not at hno
  have N := s.j.m.rnum s.j.bg
  -- each cell has a triangle with t on its outer side
  have hout : ∀ rg : Fin s.j.m.nr, ∃ T ∈ (s.surface rg).flatMap facets, vol t T < 0 := by
    intro rg
    have h1 := hno _ (N.id_lt rg)
    rw [ne_eq, solid_cell_contains_partial h t (N.at_id rg) (h4 _ (N.id_lt rg)) (fun q _ => hnt q.1)] at h1
    push Not at h1
    obtain ⟨g, hg, x, hx, hlt⟩ := h1
    exact ⟨x, List.mem_flatMap.2 ⟨g, hg, hx⟩, not_le.1 hlt⟩
  -- move the point a little
  obtain ⟨ρ, hρ, hnear⟩ := near t (((s.j.m.boundary.map s.outward).flatMap facets) ++
    (List.finRange s.j.m.nr).flatMap fun rg => (s.surface rg).flatMap facets)
  obtain ⟨dx, dy, hdx, hdy, hgen⟩ := generic_near t ((s.j.m.boundary.map s.outward).flatMap facets) hρ
  have hnear := hnear dx dy hdx hdy
  generalize moved t dx dy = t' at hnear hgen
  have hin' : ∀ T ∈ (s.j.m.boundary.map s.outward).flatMap facets, 0 < vol t' T := by
    intro T hT
    refine (hnear T (List.mem_append.2 (.inl hT))).1 ?_
    obtain ⟨g, hg, hx⟩ := List.mem_flatMap.1 hT
    obtain ⟨q, hq, rfl⟩ := List.mem_map.1 hg
    exact hin q hq T hx
  have hne' : (s.j.m.boundary.map s.outward).flatMap facets ≠ [] := by
    obtain ⟨q, hq⟩ := List.exists_mem_of_ne_nil _ hne
    have hl := outward_length (s := s) q
    have h3 := h.three q.1
    intro h0
    rw [List.flatMap_eq_nil_iff] at h0
    have := h0 (s.outward q) (List.mem_map_of_mem hq)
    rw [facets_other _ (by rw [hl]; exact hnt q.1), List.map_eq_nil_iff] at this
    have := congrArg List.length this
    rw [edges_length, List.length_nil] at this
    omega
  have hpos := surrounds_hit (boundary_balanced h hw) hne' hgen hin'
  have hsum := sum_faces h (fun T => ((hits t' T : ℤ) : ℝ)) (fun a b c => by rw [hits_cycle]) (fun a b c => by rw [hits_reverse]; push_cast; rfl)
  have hz : ∀ rg ∈ List.finRange s.j.m.nr, (((s.surface rg).flatMap facets).map fun T => ((hits t' T : ℤ) : ℝ)).sum = 0 := by
    intro rg _
    obtain ⟨X, hX, hlt⟩ := hout rg
    have hX' := (hnear X (List.mem_append.2 (.inr (List.mem_flatMap.2 ⟨rg, List.mem_finRange _, hX⟩)))).2 hlt
    obtain ⟨A, B, C, D, hA⟩ := vol_affine X
    have := hits_separated (closed_balanced (surface_closed h.polygons rg (hw rg))) (t := t') A B C D (by rw [← hA]; exact hX') (by
      intro T hT
      obtain ⟨g', hg', hT'⟩ := List.mem_flatMap.1 hT
      refine facets_affine A B C D g' (fun v hv => ?_) hT'
      obtain ⟨g, hg, hx⟩ := List.mem_flatMap.1 hX
      rw [← hA]
      exact hcv rg g hg X hx g' hg' v hv)
    have e : ((((s.surface rg).flatMap facets).map (hits t')).sum : ℤ) = 0 := this
    have e2 : (((((s.surface rg).flatMap facets).map (hits t')).sum : ℤ) : ℝ) = 0 := by rw [e]; simp
    rw [cast_sumZ, List.map_map] at e2
    exact e2
  rw [List.map_congr_left hz] at hsum
  have e : (((((s.j.m.boundary.map s.outward).flatMap facets).map (hits t')).sum : ℤ) : ℝ) = 0 := by
    rw [cast_sumZ, List.map_map]
    refine Eq.trans hsum.symm ?_
    simp
  have e' : ((((s.j.m.boundary.map s.outward).flatMap facets).map (hits t')).sum : ℤ) = 0 := by exact_mod_cast e
  omega

/-! ### examples -/

/-- two cubes side by side -/
abbrev hexMesh : MMesh where
  nv := 12
  ne := 20
  nf := 11
  nr := 2
  vtx := fun _ => ⟨.interior, 0⟩
  edge := ![⟨.interior, 0, 0, 3, false⟩, ⟨.interior, 0, 3, 9, false⟩, ⟨.interior, 0, 9, 6, false⟩, ⟨.interior, 0, 6, 0, false⟩, ⟨.interior, 0, 1, 4, false⟩,
    ⟨.interior, 0, 4, 10, false⟩, ⟨.interior, 0, 10, 7, false⟩, ⟨.interior, 0, 7, 1, false⟩, ⟨.interior, 0, 2, 5, false⟩,
    ⟨.interior, 0, 5, 11, false⟩, ⟨.interior, 0, 11, 8, false⟩, ⟨.interior, 0, 8, 2, false⟩, ⟨.interior, 0, 6, 7, false⟩,
    ⟨.interior, 0, 1, 0, false⟩, ⟨.interior, 0, 9, 10, false⟩, ⟨.interior, 0, 4, 3, false⟩, ⟨.interior, 0, 7, 8, false⟩,
    ⟨.interior, 0, 2, 1, false⟩, ⟨.interior, 0, 10, 11, false⟩, ⟨.interior, 0, 5, 4, false⟩]
  face := ![⟨.interior, 0, [(0, true), (1, true), (2, true), (3, true)], false, false⟩,
    ⟨.interior, 0, [(4, true), (5, true), (6, true), (7, true)], false, false⟩,
    ⟨.interior, 0, [(8, true), (9, true), (10, true), (11, true)], false, false⟩,
    ⟨.interior, 0, [(3, false), (12, true), (7, true), (13, true)], false, false⟩,
    ⟨.interior, 0, [(1, true), (14, true), (5, false), (15, true)], false, false⟩,
    ⟨.interior, 0, [(13, false), (4, true), (15, true), (0, false)], false, false⟩,
    ⟨.interior, 0, [(12, true), (6, false), (14, false), (2, true)], false, false⟩,
    ⟨.interior, 0, [(7, false), (16, true), (11, true), (17, true)], false, false⟩,
    ⟨.interior, 0, [(5, true), (18, true), (9, false), (19, true)], false, false⟩,
    ⟨.interior, 0, [(17, false), (8, true), (19, true), (4, false)], false, false⟩,
    ⟨.interior, 0, [(16, true), (10, false), (18, false), (6, true)], false, false⟩]
  region := ![⟨.interior, 0, [(0, false), (1, true), (3, false), (4, true), (5, false), (6, true)], false⟩,
    ⟨.interior, 0, [(1, false), (2, true), (7, false), (8, true), (9, false), (10, true)], false⟩]

/-- the common face and another one are flipped -/
abbrev hexJ : JMesh where
  m := hexMesh
  faces := true
  edges := true
  bg := false
  serial := false
  faceflip := [false, true, false, true, false, false, false, false, false, false, false]
  edgeflip := List.replicate 20 false

noncomputable abbrev hexes : Source ℝ where
  j := hexJ
  dim3 := true
  spaceDim := 3
  xyz := fun v : Fin 12 => match v with
    | 0 => ⟨0, 0, 0⟩
    | 1 => ⟨1, 0, 0⟩
    | 2 => ⟨2, 0, 0⟩
    | 3 => ⟨0, 1, 0⟩
    | 4 => ⟨1, 1, 0⟩
    | 5 => ⟨2, 1, 0⟩
    | 6 => ⟨0, 0, 1⟩
    | 7 => ⟨1, 0, 1⟩
    | 8 => ⟨2, 0, 1⟩
    | 9 => ⟨0, 1, 1⟩
    | 10 => ⟨1, 1, 1⟩
    | _ => ⟨2, 1, 1⟩

theorem hexes_solid : hexes.Solid (MeshCache.closure ⟨true, true, true, true, true⟩) where
  made := ⟨⟨_, rfl⟩, rfl, rfl, fun _ => rfl, fun _ => rfl⟩
  faces := rfl
  dim := rfl
  space := rfl
  polygons := by
    refine ⟨?_, ?_, ?_, ?_⟩
    · show ∀ e : Fin 20, (hexMesh.edge e).v0 ≠ (hexMesh.edge e).v1
      decide +kernel
    · show ∀ f : Fin 11, (hexMesh.face f).edges.map hexMesh.finish = ((hexMesh.face f).edges.map hexMesh.start).rotate 1
      decide +kernel
    · show ∀ f : Fin 11, ((hexMesh.face f).edges.map hexMesh.start).Nodup
      decide +kernel
    · show ∀ f : Fin 11, ((hexMesh.face f).edges.map Prod.fst).Nodup
      decide +kernel
  regions := by
    refine ⟨?_, ?_⟩
    · show ∀ r : Fin 2, ((hexMesh.region r).faces.map Prod.fst).Nodup
      decide +kernel
    · show ∀ (f : Fin 11) (d : Bool) (r r' : Fin 2), (f, d) ∈ (hexMesh.region r).faces → (f, d) ∈ (hexMesh.region r').faces → r = r'
      decide +kernel
  three := by
    show ∀ f : Fin 11, 3 ≤ (hexMesh.face f).edges.length
    decide +kernel

theorem hexes_watertight : ∀ rg : Fin 2, hexMesh.Watertight (hexMesh.region rg) := by
  unfold MMesh.Watertight
  decide +kernel

theorem hexes_cells : (hexMesh.rmap false).at 0 = some 0 ∧ (hexMesh.rmap false).at 1 = some 1 ∧
    (∀ rg : Fin 2, (hexMesh.mrVertices (hexMesh.region rg)).length = 8) ∧ (∀ f : Fin 11, (hexMesh.face f).edges.length = 4) ∧
    hexMesh.boundary = [(0, false), (3, false), (4, true), (5, false), (6, true), (2, true), (7, false), (8, true), (9, false), (10, true)] := by
  decide +kernel

theorem hexes_corners {c : Nat} (hc : c < 2) : (hexes.gmesh.cellCoords c).length = 8 := by
  obtain ⟨h0, h1, hl, _⟩ := hexes_cells
  have : c = 0 ∨ c = 1 := by omega
  rcases this with rfl | rfl
  · have a0 := gmesh_cellCoords hexes_solid (c := 0) (rg := (0 : Fin 2)) h0
    rw [a0, List.length_map]; exact hl 0
  · have a0 := gmesh_cellCoords hexes_solid (c := 1) (rg := (1 : Fin 2)) h1
    rw [a0, List.length_map]; exact hl 1

theorem hexes_convex : ∀ rg : Fin 2, hexes.ConvexCell rg := by
  have s0 : hexes.surface (0 : Fin 2) = [[mk3 0 0 1, mk3 0 1 1, mk3 0 1 0, mk3 0 0 0],
    [mk3 1 0 0, mk3 1 1 0, mk3 1 1 1, mk3 1 0 1],
    [mk3 1 0 0, mk3 1 0 1, mk3 0 0 1, mk3 0 0 0],
    [mk3 0 1 0, mk3 0 1 1, mk3 1 1 1, mk3 1 1 0],
    [mk3 0 1 0, mk3 1 1 0, mk3 1 0 0, mk3 0 0 0],
    [mk3 0 0 1, mk3 1 0 1, mk3 1 1 1, mk3 0 1 1]] := rfl
  have s1 : hexes.surface (1 : Fin 2) = [[mk3 1 0 1, mk3 1 1 1, mk3 1 1 0, mk3 1 0 0],
    [mk3 2 0 0, mk3 2 1 0, mk3 2 1 1, mk3 2 0 1],
    [mk3 2 0 0, mk3 2 0 1, mk3 1 0 1, mk3 1 0 0],
    [mk3 1 1 0, mk3 1 1 1, mk3 2 1 1, mk3 2 1 0],
    [mk3 1 1 0, mk3 2 1 0, mk3 2 0 0, mk3 1 0 0],
    [mk3 1 0 1, mk3 2 0 1, mk3 2 1 1, mk3 1 1 1]] := rfl
  have b0 : ∀ g ∈ hexes.surface (0 : Fin 2), ∀ v ∈ g, 0 ≤ v.x ∧ v.x ≤ 1 ∧ 0 ≤ v.y ∧ v.y ≤ 1 ∧ 0 ≤ v.z ∧ v.z ≤ 1 := by
    rw [s0]; simp [mk3]
  have b1 : ∀ g ∈ hexes.surface (1 : Fin 2), ∀ v ∈ g, 1 ≤ v.x ∧ v.x ≤ 2 ∧ 0 ≤ v.y ∧ v.y ≤ 1 ∧ 0 ≤ v.z ∧ v.z ≤ 1 := by
    rw [s1]; simp [mk3]
  intro rg
  have hg : rg = 0 ∨ rg = 1 := by revert rg; decide
  rcases hg with rfl | rfl
  all_goals
    intro g hg x hx g' hg' v hv
    first
    | (have hb := b0 g' hg' v hv; rw [s0] at hg)
    | (have hb := b1 g' hg' v hv; rw [s1] at hg)
    obtain ⟨h1, h2, h3, h4, h5, h6⟩ := hb
    clear b0 b1 hg' hv
    simp only [List.mem_cons, List.not_mem_nil, or_false] at hg
    rcases hg with rfl | rfl | rfl | rfl | rfl | rfl
    all_goals
      simp only [facets, polyEdges, List.rotate_cons_succ, List.rotate_zero, List.zip_cons_cons, List.cons_append,
        List.nil_append, List.zip_nil_right, List.map_cons, List.map_nil, List.mem_cons, List.not_mem_nil, or_false] at hx
      rcases hx with rfl | rfl | rfl | rfl
      all_goals
        simp only [InnerSide, tetVol, det3, vec, vertexMean, mean, mk3, List.map_cons, List.map_nil, List.sum_cons, List.sum_nil,
          List.length_cons, List.length_nil]
        norm_num
        linarith

/-- every point strictly inside of the box of the two cubes is in one of them -/
example (t : Point) (h1 : 0 < t.x) (h2 : t.x < 2) (h3 : 0 < t.y) (h4 : t.y < 1) (h5 : 0 < t.z) (h6 : t.z < 1) :
    ∃ c < 2, pointInCell hexes.gmesh t c = true := by
  obtain ⟨_, _, _, hq, hb⟩ := hexes_cells
  have hb' : hexes.j.m.boundary = [((0 : Fin 11), false), (3, false), (4, true), (5, false), (6, true), (2, true), (7, false), (8, true),
    (9, false), (10, true)] := hb
  refine some_solid_cell_contains_partial hexes_solid (fun c hc => by rw [hexes_corners hc]; decide)
    (show ∀ f : Fin 11, (hexMesh.face f).edges.length ≠ 3 from fun f => by rw [hq f]; decide) hexes_watertight hexes_convex
    (by rw [hb']; simp) t ?_
  have e : hexes.j.m.boundary.map hexes.outward = [[mk3 0 0 1, mk3 0 1 1, mk3 0 1 0, mk3 0 0 0],
    [mk3 1 0 0, mk3 1 0 1, mk3 0 0 1, mk3 0 0 0],
    [mk3 0 1 0, mk3 0 1 1, mk3 1 1 1, mk3 1 1 0],
    [mk3 0 1 0, mk3 1 1 0, mk3 1 0 0, mk3 0 0 0],
    [mk3 0 0 1, mk3 1 0 1, mk3 1 1 1, mk3 0 1 1],
    [mk3 2 0 0, mk3 2 1 0, mk3 2 1 1, mk3 2 0 1],
    [mk3 2 0 0, mk3 2 0 1, mk3 1 0 1, mk3 1 0 0],
    [mk3 1 1 0, mk3 1 1 1, mk3 2 1 1, mk3 2 1 0],
    [mk3 1 1 0, mk3 2 1 0, mk3 2 0 0, mk3 1 0 0],
    [mk3 1 0 1, mk3 2 0 1, mk3 2 1 1, mk3 1 1 1]] := by rw [hb']; rfl
  intro q hq' x hx
  have hg : hexes.outward q ∈ hexes.j.m.boundary.map hexes.outward := List.mem_map_of_mem hq'
  rw [e] at hg
  generalize hexes.outward q = g at hg hx
  clear e hb hb' hq' hq
  simp only [List.mem_cons, List.not_mem_nil, or_false] at hg
  rcases hg with rfl | rfl | rfl | rfl | rfl | rfl | rfl | rfl | rfl | rfl
  all_goals
    simp only [facets, polyEdges, List.rotate_cons_succ, List.rotate_zero, List.zip_cons_cons, List.cons_append,
      List.nil_append, List.zip_nil_right, List.map_cons, List.map_nil, List.mem_cons, List.not_mem_nil, or_false] at hx
    rcases hx with rfl | rfl | rfl | rfl
    all_goals
      simp only [tetVol, det3, vec, vertexMean, mean, mk3, List.map_cons, List.map_nil, List.sum_cons, List.sum_nil,
        List.length_cons, List.length_nil]
      norm_num
      linarith

/-- a point that both cubes contain is in the plane between them -/
example (t : Point) (h0 : pointInCell hexes.gmesh t 0 = true) (h1 : pointInCell hexes.gmesh t 1 = true) : t.x = 1 := by
  obtain ⟨c0, c1, _, hq, _⟩ := hexes_cells
  have hq' : ∀ f : Fin 11, (hexMesh.face f).edges.length ≠ 3 := fun f => by rw [hq f]; decide
  have := neighbours_share_face_only_partial hexes_solid t (c := 0) (c' := 1) (rg := (0 : Fin 2)) (rg' := (1 : Fin 2)) c0 c1
    (f := (1 : Fin 11)) (d := true) (by decide +kernel) (by decide +kernel) (by rw [hexes_corners (by decide)]; decide)
    (by rw [hexes_corners (by decide)]; decide) (fun q _ => hq' q.1) (fun q _ => hq' q.1) h0 h1
  have e : hexes.outward ((1 : Fin 11), true) = [mk3 1 0 0, mk3 1 1 0, mk3 1 1 1, mk3 1 0 1] := rfl
  rw [e] at this
  have hx := this (mk3 1 0 0, mk3 1 1 0, vertexMean 3 [mk3 1 0 0, mk3 1 1 0, mk3 1 1 1, mk3 1 0 1]) (by
    simp [facets, polyEdges, List.rotate_cons_succ])
  simp only [tetVol, det3, vec, vertexMean, mean, mk3, List.map_cons, List.map_nil, List.sum_cons, List.sum_nil,
        List.length_cons, List.length_nil] at hx
  norm_num at hx
  linarith

/-- two tetrahedra with a common face -/
noncomputable abbrev tets : Source ℝ where
  j := ⟨twoTets, true, true, false, true, List.replicate 7 false, List.replicate 9 false⟩
  dim3 := true
  spaceDim := 3
  xyz := fun v : Fin 5 => match v with
    | 0 => ⟨0, 0, 0⟩
    | 1 => ⟨1, 0, 0⟩
    | 2 => ⟨0, 1, 0⟩
    | 3 => ⟨0, 0, 1⟩
    | _ => ⟨1, 1, 1⟩

theorem tets_solid : tets.Solid (MeshCache.closure ⟨true, true, true, true, true⟩) where
  made := ⟨⟨_, rfl⟩, rfl, rfl, fun _ => rfl, fun _ => rfl⟩
  faces := rfl
  dim := rfl
  space := rfl
  polygons := by
    refine ⟨?_, ?_, ?_, ?_⟩
    · show ∀ e : Fin 9, (twoTets.edge e).v0 ≠ (twoTets.edge e).v1
      decide +kernel
    · show ∀ f : Fin 7, (twoTets.face f).edges.map twoTets.finish = ((twoTets.face f).edges.map twoTets.start).rotate 1
      decide +kernel
    · show ∀ f : Fin 7, ((twoTets.face f).edges.map twoTets.start).Nodup
      decide +kernel
    · show ∀ f : Fin 7, ((twoTets.face f).edges.map Prod.fst).Nodup
      decide +kernel
  regions := by
    refine ⟨?_, ?_⟩
    · show ∀ r : Fin 2, ((twoTets.region r).faces.map Prod.fst).Nodup
      decide +kernel
    · show ∀ (f : Fin 7) (d : Bool) (r r' : Fin 2), (f, d) ∈ (twoTets.region r).faces → (f, d) ∈ (twoTets.region r').faces → r = r'
      decide +kernel
  three := by
    show ∀ f : Fin 7, 3 ≤ (twoTets.face f).edges.length
    decide +kernel

theorem tets_cells : (twoTets.rmap false).at 0 = some 0 ∧ (twoTets.rmap false).at 1 = some 1 ∧
    (∀ rg : Fin 2, (twoTets.mrVertices (twoTets.region rg)).length = 4) ∧ (∀ f : Fin 7, (twoTets.face f).edges.length = 3) := by
  decide +kernel

/-- **C148 is false of the code, witness.** Both tetrahedra of a mesh are reported to contain a point far away from them, although it is
strictly on the outer side of a face of each. -/
theorem tet_mesh_wrong : pointInCell tets.gmesh (mk3 5 5 5) 0 = true ∧ pointInCell tets.gmesh (mk3 5 5 5) 1 = true ∧
    ∀ rg : Fin 2, ∃ g ∈ tets.surface rg, ∃ x ∈ facets g, ¬ InnerSide (mk3 5 5 5) x := by
  obtain ⟨c0, c1, hl, h3⟩ := tets_cells
  have k0 := gmesh_cellCoords tets_solid (c := 0) (rg := (0 : Fin 2)) c0
  have k1 := gmesh_cellCoords tets_solid (c := 1) (rg := (1 : Fin 2)) c1
  have l0 : 4 ≤ (tets.gmesh.cellCoords 0).length := by rw [k0, List.length_map]; exact (hl 0).ge
  have l1 : 4 ≤ (tets.gmesh.cellCoords 1).length := by rw [k1, List.length_map]; exact (hl 1).ge
  have s0 : tets.surface (0 : Fin 2) = [[mk3 0 0 0, mk3 0 1 0, mk3 1 0 0], [mk3 0 0 0, mk3 1 0 0, mk3 0 0 1],
    [mk3 0 0 0, mk3 0 0 1, mk3 0 1 0], [mk3 1 0 0, mk3 0 1 0, mk3 0 0 1]] := rfl
  have s1 : tets.surface (1 : Fin 2) = [[mk3 0 0 1, mk3 0 1 0, mk3 1 0 0], [mk3 1 0 0, mk3 0 1 0, mk3 1 1 1],
    [mk3 0 1 0, mk3 0 0 1, mk3 1 1 1], [mk3 0 0 1, mk3 1 0 0, mk3 1 1 1]] := rfl
  refine ⟨?_, ?_, ?_⟩
  · rw [tet_cell_contains tets_solid _ (c := 0) (rg := (0 : Fin 2)) c0 l0 (q := ((0 : Fin 7), true)) rfl fun q _ => h3 q.1]
    show ∀ x ∈ facets [mk3 0 0 0, mk3 0 1 0, mk3 1 0 0], _
    intro x hx
    simp only [facets, List.mem_singleton] at hx
    subst hx
    simp only [InnerSide, tetVol, det3, vec, mk3]; norm_num
  · rw [tet_cell_contains tets_solid _ (c := 1) (rg := (1 : Fin 2)) c1 l1 (q := ((3 : Fin 7), false)) rfl fun q _ => h3 q.1]
    show ∀ x ∈ facets [mk3 0 0 1, mk3 0 1 0, mk3 1 0 0], _
    intro x hx
    simp only [facets, List.mem_singleton] at hx
    subst hx
    simp only [InnerSide, tetVol, det3, vec, mk3]; norm_num
  · intro rg
    have hg : rg = 0 ∨ rg = 1 := by revert rg; decide
    rcases hg with rfl | rfl
    · rw [s0]
      refine ⟨[mk3 1 0 0, mk3 0 1 0, mk3 0 0 1], by simp, _, List.mem_singleton_self _, ?_⟩
      simp only [InnerSide, tetVol, det3, vec, mk3]; norm_num
    · rw [s1]
      refine ⟨[mk3 1 0 0, mk3 0 1 0, mk3 1 1 1], by simp, _, List.mem_singleton_self _, ?_⟩
      simp only [InnerSide, tetVol, det3, vec, mk3]; norm_num

end Jali.Mstk
