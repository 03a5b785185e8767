import Verif.Proof.MstkGeometry
import Mathlib.Data.Fin.VecNotation
/-
C130, C131: normals of faces and volumes of cells of MSTK meshes of polyhedra, for every position of the nodes. The spec is in
`Spec/MstkGeometry.lean`: `surface r` is the surface of region `r` of the MSTK mesh seen from outside.
-/
namespace Jali.Mstk
open Jali.Geom Jali.Geom.Point Jali.Geom.Spec Jali.MeshGeom

variable {s : Source ℝ} {r : MeshCache.Request}

/-! ### C130 -/

/-- **C130** the normal of a face with respect to a cell is the area vector of the face as seen from outside of the cell, whether or
not the face is flipped on this rank -/
theorem normals_of_mesh (h : s.Solid r) {c : Nat} {rg : Fin s.j.m.nr} (hc : (s.j.m.rmap s.j.bg).at c = some rg)
    {q : Fin s.j.m.nf × Bool} (hq : q ∈ (s.j.m.region rg).faces) :
    faceNormal s.gmesh (s.j.m.fmap.id q.1 - 1) (some c) = some (areaVector (s.outward q)) := by
  have hmem : (s.j.m.fmap.id q.1 - 1, flipDir s.j.faceflip (s.j.m.fmap.id q.1 - 1) q.2) ∈ s.gmesh.cellFaces c := by
    rw [gmesh_cellFaces h hc]; exact List.mem_map_of_mem hq
  rw [outward_eq s.gmesh c (good_cell h hc) hmem]
  obtain ⟨k, hk⟩ := oriented_rotated h q
  rw [hk, (areaVector_invariance _ 0 0 0 k).2.2]

/-- the area vector of a face seen from its two sides -/
theorem outward_opposite (f : Fin s.j.m.nf) (d : Bool) : areaVector (s.outward (f, !d)) = neg (areaVector (s.outward (f, d))) := by
  unfold Source.outward
  cases d
  · show areaVector (s.corners f) = neg (areaVector (s.corners f).reverse)
    rw [(areaVector_invariance _ 0 0 0 0).2.1]
    simp [areaVector, neg, mk3]
  · show areaVector (s.corners f).reverse = neg (areaVector (s.corners f))
    rw [(areaVector_invariance _ 0 0 0 0).2.1]

/-- **C130** two cells with a common face see opposite normals -/
theorem normals_opposite (h : s.Solid r) {f c c' : Nat} (hf : Has (s.j.faceCells3 f .ALL) c) (hf' : Has (s.j.faceCells3 f .ALL) c')
    (hne : c ≠ c') : ∃ n, faceNormal s.gmesh f (some c) = some n ∧ faceNormal s.gmesh f (some c') = some (neg n) := by
  rw [has_faceCells3 h.ready.faces] at hf hf'
  obtain ⟨rg, fh, hrg, hfh, hm, _⟩ := hf
  obtain ⟨rg', fh', hrg', hfh', hm', _⟩ := hf'
  rw [hfh] at hfh'; cases hfh'
  obtain ⟨⟨_, d⟩, hq, rfl⟩ := List.mem_map.mp hm
  obtain ⟨⟨_, d'⟩, hq', e⟩ := List.mem_map.mp hm'
  dsimp only at e; subst e
  have hd : d' = !d := by
    cases d <;> cases d' <;> first | rfl | skip
    all_goals
      have := h.regions.sides _ _ _ _ hq hq'
      subst this
      rw [← s.j.m.rnum s.j.bg |>.at_iff.mp hrg, (s.j.m.rnum s.j.bg).at_iff.mp hrg'] at hne
      exact absurd rfl hne
  subst hd
  have e1 := normals_of_mesh h hrg hq
  have e2 := normals_of_mesh h hrg' hq'
  have ef : s.j.m.fmap.id _ - 1 = f := s.j.m.fnum.at_iff.mp hfh
  dsimp only at e1 e2
  rw [ef] at e1 e2
  exact ⟨_, e1, by rw [e2, outward_opposite]⟩

/-- **C130** the outward normals of a cell with a closed surface add up to zero -/
theorem normals_sum_to_zero (h : s.Solid r) {c : Nat} {rg : Fin s.j.m.nr} (hc : (s.j.m.rmap s.j.bg).at c = some rg)
    (hw : s.j.m.Watertight (s.j.m.region rg)) :
    ∃ ns : List Point, (s.gmesh.cellFaces c).mapM (fun fd => faceNormal s.gmesh fd.1 (some c)) = some ns ∧ vecSum ns = zero 3 :=
  outward_normals_sum s.gmesh c (good_cell h hc) (closed_rotated (oriented_surface h hc) (surface_closed h.polygons rg hw))

/-- **C130** if the cell is star-shaped around the average of its corners, the normals point away from it -/
theorem normals_point_out (h : s.Solid r) {c : Nat} {rg : Fin s.j.m.nr} (hc : (s.j.m.rmap s.j.bg).at c = some rg)
    (hs : StarShaped3 (s.gmesh.cellCoords c) (s.surface rg)) {fd : Nat × Int} (hfd : fd ∈ s.gmesh.cellFaces c) :
    ∃ n, faceNormal s.gmesh fd.1 (some c) = some n ∧
      0 < sdot n (vec (vertexMean 3 (s.gmesh.cellCoords c)) (vertexMean 3 (s.gmesh.faceCoords fd.1))) :=
  outward_normals_point_out s.gmesh c (good_cell h hc) ((starShaped_rotated (oriented_surface h hc) _).mpr hs) hfd

/-! ### C131 -/

/-- **C131** the volume of a cell with more than four corners is positive exactly if the cell is star-shaped around the average of its
corners; if moreover its surface is closed, volume and centroid are those of the inside of the surface, measured from any point `o` -/
theorem volume_of_mesh (h : s.Solid r) {c : Nat} {rg : Fin s.j.m.nr} (hc : (s.j.m.rmap s.j.bg).at c = some rg)
    (h4 : 4 < (s.gmesh.cellCoords c).length) (hne : (s.j.m.region rg).faces ≠ []) :
    ∃ vol cen, computeCellGeometry s.gmesh c = some (vol, cen) ∧
      (0 < vol ↔ StarShaped3 (s.gmesh.cellCoords c) (s.surface rg)) ∧
      (StarShaped3 (s.gmesh.cellCoords c) (s.surface rg) → s.j.m.Watertight (s.j.m.region rg) → ∀ o,
        vol = volumeFrom o (s.surface rg) ∧ vol * cen.x = momentFrom Point.x o (s.surface rg) ∧
        vol * cen.y = momentFrom Point.y o (s.surface rg) ∧ vol * cen.z = momentFrom Point.z o (s.surface rg)) := by
  have hos := oriented_surface h hc
  have hcell : computeCellGeometry s.gmesh c = some (polyhedVolCentroid (s.gmesh.cellCoords c)
      (((s.gmesh.cellFaces c).map (orientedFace s.gmesh)).map List.length) ((s.gmesh.cellFaces c).map (orientedFace s.gmesh)).flatten) := by
    unfold computeCellGeometry
    rw [if_pos (gmesh_dim3 h).1]
  generalize hfs : (s.gmesh.cellFaces c).map (orientedFace s.gmesh) = fs at hos hcell
  have h3 : ∀ f ∈ fs, ∀ p ∈ f, p.d = 3 := by
    rw [← hfs, gmesh_cellFaces h hc, List.map_map]
    intro f hf
    obtain ⟨q, _, rfl⟩ := List.mem_map.mp hf
    obtain ⟨k, hk⟩ := oriented_rotated h q
    intro p hp
    have hp' : p ∈ (s.outward q).rotate k := by rw [← hk]; exact hp
    exact outward_d h q p (List.mem_rotate.mp hp')
  have hex : ∃ f ∈ fs, f ≠ [] := by
    obtain ⟨q, hq⟩ := List.exists_mem_of_ne_nil _ hne
    rw [← hfs, gmesh_cellFaces h hc, List.map_map]
    refine ⟨_, List.mem_map_of_mem hq, ?_⟩
    obtain ⟨k, hk⟩ := oriented_rotated h q
    intro h0
    have : ((s.outward q).rotate k).length = 0 := by rw [← hk]; exact congrArg List.length h0
    rw [List.length_rotate, outward_length] at this
    have := h.three q.1
    omega
  obtain ⟨p1, p2⟩ := polyhedron_volume (s.gmesh.cellCoords c) fs h4 h3 hex
  refine ⟨_, _, hcell, p1.trans (starShaped_rotated hos _), fun hst hw o => ?_⟩
  have := p2 ((starShaped_rotated hos _).mpr hst) (closed_rotated hos (surface_closed h.polygons rg hw)) o
  rwa [volumeFrom_rotated hos, momentFrom_rotated hos, momentFrom_rotated hos, momentFrom_rotated hos] at this

/-- the faces of MSTK with a region on one side only, as seen from it -/
def MMesh.boundary (m : MMesh) : List (Fin m.nf × Bool) := oneSided fun rg => (m.region rg).faces

/-- **C131** the cells fill the domain: if all cells are star-shaped with closed surfaces and more than four corners, the volumes
reported for all cells add up to the volume inside of the boundary faces of the mesh, measured from any point `o` -/
theorem volumes_fill_domain (h : s.Solid r) (h4 : ∀ c < s.j.m.nr, 4 < (s.gmesh.cellCoords c).length)
    (hne : ∀ rg, (s.j.m.region rg).faces ≠ []) (hw : ∀ rg, s.j.m.Watertight (s.j.m.region rg))
    (hst : ∀ c rg, (s.j.m.rmap s.j.bg).at c = some rg → StarShaped3 (s.gmesh.cellCoords c) (s.surface rg)) :
    ∃ vols : List (ℝ × Point), (List.range s.j.m.nr).mapM (computeCellGeometry s.gmesh) = some vols ∧
      (∀ v ∈ vols, 0 < v.1) ∧ ∀ o, (vols.map Prod.fst).sum = volumeFrom o (s.j.m.boundary.map s.outward) := by
  have N := s.j.m.rnum s.j.bg
  have key : ∀ c, ∃ v : ℝ × Point, c < s.j.m.nr → computeCellGeometry s.gmesh c = some v ∧ 0 < v.1 ∧
      ∀ rg, (s.j.m.rmap s.j.bg).at c = some rg → ∀ o, v.1 = volumeFrom o (s.surface rg) := by
    intro c
    by_cases hc : c < s.j.m.nr
    · obtain ⟨rg, hrg⟩ := N.at_some hc
      obtain ⟨vol, cen, e1, e2, e3⟩ := volume_of_mesh h hrg (h4 c hc) (hne rg)
      refine ⟨(vol, cen), fun _ => ⟨e1, e2.mpr (hst c rg hrg), fun rg' hrg' o => ?_⟩⟩
      rw [hrg] at hrg'; cases hrg'
      exact (e3 (hst c rg hrg) (hw rg) o).1
    · exact ⟨(0, zero 0), fun h' => absurd h' hc⟩
  choose v hv using key
  refine ⟨(List.range s.j.m.nr).map v, mapM_total fun c hc => (hv c (List.mem_range.mp hc)).1, ?_, fun o => ?_⟩
  · intro x hx
    obtain ⟨c, hc, rfl⟩ := List.mem_map.mp hx
    exact (hv c (List.mem_range.mp hc)).2.1
  · have hp := range_perm_ids N
    rw [List.map_map, (hp.map _).sum_eq, List.map_map]
    have e1 : ∀ rg : Fin s.j.m.nr, (v ((s.j.m.rmap s.j.bg).id rg - 1)).1 =
        ((s.j.m.region rg).faces.map fun q => ((facets (s.outward q)).map fun t => tetVol o t.1 t.2.1 t.2.2).sum).sum := by
      intro rg
      rw [(hv _ (N.id_lt rg)).2.2 rg (N.at_id rg) o]
      unfold volumeFrom Source.surface
      rw [sum_flatMap, List.map_map]; rfl
    refine (sum_map_congr _ _ _ fun rg _ => e1 rg).trans ?_
    refine (oneSided_sum (fun rg => (s.j.m.region rg).faces) (fun rg => List.Nodup.of_map _ (h.regions.noface rg))
      (fun q c c' h1 h2 => h.regions.sides _ _ _ _ h1 h2) _ ?_).trans ?_
    rotate_left
    · unfold volumeFrom
      rw [sum_flatMap, List.map_map]; rfl
    · intro f d
      have hrev := facets_reverse (fun t => tetVol o t.1 t.2.1 t.2.2) (fun a b c => facets_reverse_pos o a b c)
        (fun a b c => by simp only [tetVol, det3, vec]; ring) (s.corners f)
      unfold Source.outward
      cases d
      · show ((facets (s.corners f)).map _).sum = -((facets (s.corners f).reverse).map _).sum
        rw [hrev, neg_neg]
      · exact hrev

end Jali.Mstk

/-! ### example: an octahedron cut into two pyramids; two faces are flipped -/
namespace Jali.Mstk
open Jali.Geom Jali.Geom.Point Jali.Geom.Spec Jali.MeshGeom

/-- corners 0-3 of the square, 4 above, 5 below; edges 0-3 of the square, 4-7 to the top, 8-11 to the bottom; face 0 is the square -/
abbrev octaMesh : MMesh where
  nv := 6
  ne := 12
  nf := 9
  nr := 2
  vtx i := ⟨.interior, i + 1⟩
  edge i := ⟨.interior, i + 1, ![0, 1, 2, 3, 0, 1, 2, 3, 0, 1, 2, 3] i, ![1, 2, 3, 0, 4, 4, 4, 4, 5, 5, 5, 5] i, false⟩
  face i := { ptype := .interior, gid := i + 1, edges := (
    ![[(0, true), (1, true), (2, true), (3, true)],
      [(0, true), (5, true), (4, false)], [(1, true), (6, true), (5, false)], [(2, true), (7, true), (6, false)],
      [(3, true), (4, true), (7, false)],
      [(0, false), (8, true), (9, false)], [(1, false), (9, true), (10, false)], [(2, false), (10, true), (11, false)],
      [(3, false), (11, true), (8, false)]] : Fin 9 → List (Fin 12 × Bool)) i }
  region i := { ptype := .interior, gid := i + 1, faces := (
    ![[(0, false), (1, true), (2, true), (3, true), (4, true)], [(0, true), (5, true), (6, true), (7, true), (8, true)]] :
      Fin 2 → List (Fin 9 × Bool)) i }

abbrev octaJ : JMesh where
  m := octaMesh
  faces := true
  edges := true
  bg := false
  serial := false
  faceflip := [true, true, false, false, false, false, false, false, false]
  edgeflip := List.replicate 12 false

noncomputable abbrev octa : Source ℝ where
  j := octaJ
  dim3 := true
  spaceDim := 3
  xyz v := match v.val with
    | 0 => ⟨-1, -1, 0⟩
    | 1 => ⟨1, -1, 0⟩
    | 2 => ⟨1, 1, 0⟩
    | 3 => ⟨-1, 1, 0⟩
    | 4 => ⟨0, 0, 1⟩
    | _ => ⟨0, 0, -1⟩

theorem octa_solid : octa.Solid (MeshCache.closure ⟨true, true, true, true, true⟩) where
  made := ⟨⟨_, rfl⟩, rfl, rfl, fun _ => rfl, fun _ => rfl⟩
  faces := rfl
  dim := rfl
  space := rfl
  polygons := by
    refine ⟨?_, ?_, ?_, ?_⟩
    · show ∀ e : Fin 12, (octaMesh.edge e).v0 ≠ (octaMesh.edge e).v1
      decide +kernel
    · show ∀ f : Fin 9, (octaMesh.face f).edges.map octaMesh.finish = ((octaMesh.face f).edges.map octaMesh.start).rotate 1
      decide +kernel
    · show ∀ f : Fin 9, ((octaMesh.face f).edges.map octaMesh.start).Nodup
      decide +kernel
    · show ∀ f : Fin 9, ((octaMesh.face f).edges.map Prod.fst).Nodup
      decide +kernel
  regions := by
    refine ⟨?_, ?_⟩
    · show ∀ r : Fin 2, ((octaMesh.region r).faces.map Prod.fst).Nodup
      decide +kernel
    · show ∀ (f : Fin 9) (d : Bool) (r r' : Fin 2), (f, d) ∈ (octaMesh.region r).faces → (f, d) ∈ (octaMesh.region r').faces → r = r'
      decide +kernel
  three := by
    show ∀ f : Fin 9, 3 ≤ (octaMesh.face f).edges.length
    decide +kernel

theorem octa_watertight : ∀ rg : Fin 2, octaMesh.Watertight (octaMesh.region rg) := by
  unfold MMesh.Watertight
  decide +kernel

theorem octa_cells : (octaMesh.rmap false).at 0 = some 0 ∧ (octaMesh.rmap false).at 1 = some 1 ∧
    octaMesh.mrVertices (octaMesh.region 0) = [1, 2, 3, 0, 4] ∧ octaMesh.mrVertices (octaMesh.region 1) = [1, 2, 0, 3, 5] ∧
    octaMesh.boundary = [(1, true), (2, true), (3, true), (4, true), (5, true), (6, true), (7, true), (8, true)] := by
  decide +kernel

/-- the square is a flipped face; its normal points down with respect to the upper cell and up with respect to the lower one -/
example : octaJ.faceflip[0]? = some true ∧ faceNormal octa.gmesh 0 (some 0) = some (mk3 0 0 (-4)) ∧
    faceNormal octa.gmesh 0 (some 1) = some (mk3 0 0 4) := by
  have e0 : octaMesh.fmap.id 0 - 1 = 0 := by decide +kernel
  have a0 := normals_of_mesh octa_solid (c := 0) (rg := (0 : Fin 2)) octa_cells.1 (q := ((0 : Fin 9), false)) (by decide +kernel)
  have a1 := normals_of_mesh octa_solid (c := 1) (rg := (1 : Fin 2)) octa_cells.2.1 (q := ((0 : Fin 9), true)) (by decide +kernel)
  have e0' : octa.j.m.fmap.id (0 : Fin 9) - 1 = 0 := e0
  dsimp only at a0 a1
  rw [e0'] at a0 a1
  refine ⟨rfl, a0.trans (congrArg some ?_), a1.trans (congrArg some ?_)⟩
  · show areaVector [mk3 (-1) 1 0, mk3 1 1 0, mk3 1 (-1) 0, mk3 (-1) (-1) 0] = _
    simp only [areaVector, polyEdges, mk3, List.rotate_cons_succ, List.rotate_zero, List.zip_cons_cons, List.cons_append,
      List.nil_append, List.zip_nil_right, List.map_cons, List.map_nil, List.sum_cons, List.sum_nil]
    norm_num
  · show areaVector [mk3 (-1) (-1) 0, mk3 1 (-1) 0, mk3 1 1 0, mk3 (-1) 1 0] = _
    simp only [areaVector, polyEdges, mk3, List.rotate_cons_succ, List.rotate_zero, List.zip_cons_cons, List.cons_append,
      List.nil_append, List.zip_nil_right, List.map_cons, List.map_nil, List.sum_cons, List.sum_nil]
    norm_num

theorem octa_coords : octa.gmesh.cellCoords 0 = [mk3 1 (-1) 0, mk3 1 1 0, mk3 (-1) 1 0, mk3 (-1) (-1) 0, mk3 0 0 1] ∧
    octa.gmesh.cellCoords 1 = [mk3 1 (-1) 0, mk3 1 1 0, mk3 (-1) (-1) 0, mk3 (-1) 1 0, mk3 0 0 (-1)] := by
  have a0 := gmesh_cellCoords octa_solid (c := 0) (rg := (0 : Fin 2)) octa_cells.1
  have a1 := gmesh_cellCoords octa_solid (c := 1) (rg := (1 : Fin 2)) octa_cells.2.1
  have b0 : octa.j.m.mrVertices (octa.j.m.region (0 : Fin 2)) = ([1, 2, 3, 0, 4] : List (Fin 6)) := octa_cells.2.2.1
  have b1 : octa.j.m.mrVertices (octa.j.m.region (1 : Fin 2)) = ([1, 2, 0, 3, 5] : List (Fin 6)) := octa_cells.2.2.2.1
  rw [b0] at a0
  rw [b1] at a1
  exact ⟨a0, a1⟩

theorem octa_star : StarShaped3 (octa.gmesh.cellCoords 0) (octa.surface (0 : Fin 2)) ∧
    StarShaped3 (octa.gmesh.cellCoords 1) (octa.surface (1 : Fin 2)) := by
  have s0 : octa.surface (0 : Fin 2) = [[mk3 (-1) 1 0, mk3 1 1 0, mk3 1 (-1) 0, mk3 (-1) (-1) 0],
    [mk3 (-1) (-1) 0, mk3 1 (-1) 0, mk3 0 0 1], [mk3 1 (-1) 0, mk3 1 1 0, mk3 0 0 1], [mk3 1 1 0, mk3 (-1) 1 0, mk3 0 0 1],
    [mk3 (-1) 1 0, mk3 (-1) (-1) 0, mk3 0 0 1]] := rfl
  have s1 : octa.surface (1 : Fin 2) = [[mk3 (-1) (-1) 0, mk3 1 (-1) 0, mk3 1 1 0, mk3 (-1) 1 0],
    [mk3 1 (-1) 0, mk3 (-1) (-1) 0, mk3 0 0 (-1)], [mk3 1 1 0, mk3 1 (-1) 0, mk3 0 0 (-1)], [mk3 (-1) 1 0, mk3 1 1 0, mk3 0 0 (-1)],
    [mk3 (-1) (-1) 0, mk3 (-1) 1 0, mk3 0 0 (-1)]] := rfl
  rw [octa_coords.1, octa_coords.2, s0, s1]
  constructor
  all_goals
    intro f hf t ht
    simp only [List.mem_cons, List.not_mem_nil, or_false] at hf
    rcases hf with rfl | rfl | rfl | rfl | rfl
    all_goals
      simp only [facets, polyEdges, List.rotate_cons_succ, List.rotate_zero, List.zip_cons_cons, List.cons_append,
        List.nil_append, List.zip_nil_right, List.map_cons, List.map_nil, List.mem_cons, List.not_mem_nil, or_false] at ht
      first
      | (subst ht
         simp only [tetVol, det3, vec, vertexMean, mean, mk3, List.map_cons, List.map_nil, List.sum_cons, List.sum_nil,
           List.length_cons, List.length_nil]
         norm_num)
      | (rcases ht with rfl | rfl | rfl | rfl
         all_goals
           simp only [tetVol, det3, vec, vertexMean, mean, mk3, List.map_cons, List.map_nil, List.sum_cons, List.sum_nil,
             List.length_cons, List.length_nil]
           norm_num)

/-- the volumes of the two pyramids add up to that of the octahedron -/
example : ∃ vols : List (ℝ × Point), (List.range 2).mapM (computeCellGeometry octa.gmesh) = some vols ∧
    (∀ v ∈ vols, 0 < v.1) ∧ (vols.map Prod.fst).sum = 8 / 3 := by
  have hlt : ∀ c : Nat, c < 2 → c = 0 ∨ c = 1 := by intro c hc; omega
  obtain ⟨vols, h1, h2, h3⟩ := volumes_fill_domain octa_solid
    (fun c hc => by
      rcases hlt c hc with rfl | rfl
      · rw [octa_coords.1]; simp
      · rw [octa_coords.2]; simp)
    (by show ∀ rg : Fin 2, (octaMesh.region rg).faces ≠ []; decide +kernel) octa_watertight
    (fun c rg hrg => by
      have hc : c < 2 := (octaMesh.rnum false).lt_of_at hrg
      rcases hlt c hc with rfl | rfl
      · have e : some (0 : Fin 2) = some rg := octa_cells.1.symm.trans hrg
        cases e; exact octa_star.1
      · have e : some (1 : Fin 2) = some rg := octa_cells.2.1.symm.trans hrg
        cases e; exact octa_star.2)
  refine ⟨vols, h1, h2, (h3 (mk3 0 0 0)).trans ?_⟩
  have hb : octa.j.m.boundary = [((1 : Fin 9), true), (2, true), (3, true), (4, true), (5, true), (6, true), (7, true), (8, true)] :=
    octa_cells.2.2.2.2
  rw [hb]
  show volumeFrom _ [[mk3 (-1) (-1) 0, mk3 1 (-1) 0, mk3 0 0 1], [mk3 1 (-1) 0, mk3 1 1 0, mk3 0 0 1], [mk3 1 1 0, mk3 (-1) 1 0, mk3 0 0 1],
    [mk3 (-1) 1 0, mk3 (-1) (-1) 0, mk3 0 0 1],
    [mk3 1 (-1) 0, mk3 (-1) (-1) 0, mk3 0 0 (-1)], [mk3 1 1 0, mk3 1 (-1) 0, mk3 0 0 (-1)], [mk3 (-1) 1 0, mk3 1 1 0, mk3 0 0 (-1)],
    [mk3 (-1) (-1) 0, mk3 (-1) 1 0, mk3 0 0 (-1)]] = _
  simp only [volumeFrom, List.flatMap_cons, List.flatMap_nil, facets, List.cons_append, List.nil_append, List.map_cons, List.map_nil,
    List.sum_cons, List.sum_nil, tetVol, det3, vec, mk3]
  norm_num

end Jali.Mstk
