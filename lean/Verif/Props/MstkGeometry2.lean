import Verif.Proof.MstkGeometry2
import Verif.Props.MstkExtractMisc
/-
C132: normals of faces and areas of cells of MSTK meshes of polygons in the plane, for every position of the nodes.
-/
namespace Jali.Mstk
open Jali.Geom Jali.Geom.Point Jali.Geom.Spec Jali.MeshGeom

variable {s : Source ℝ} {r : MeshCache.Request}

theorem neg_edgeNormal (a b : Point) : neg (edgeNormal a b) = edgeNormal b a := by
  simp only [edgeNormal, neg, mk2]
  ext <;> simp

/-- **C132** the normal of a face with respect to a cell is the edge, as the cell runs along it, turned by a right angle to the right,
whether or not the face is flipped on this rank -/
theorem plane_normals_of_mesh (h : s.Flat r) {c : Nat} {g : Fin s.j.m.nf} (hc : (s.j.m.cmap s.j.bg).at c = some g)
    {p : Fin s.j.m.ne × Bool} (hp : p ∈ (s.j.m.face g).edges) :
    faceNormal s.gmesh (s.j.m.emap.id p.1 - 1) (some c) = some (edgeNormal (s.place (s.j.m.start p)) (s.place (s.j.m.finish p))) := by
  have hmem : (s.j.m.emap.id p.1 - 1, flipDir s.j.faceflip (s.j.m.emap.id p.1 - 1) p.2) ∈ s.gmesh.cellFaces c := by
    rw [gmesh_cellFaces2 h hc]; exact List.mem_map_of_mem hp
  have hd := faceDir_of_mem s.gmesh (cellFaces_nodup2 h hc) hmem
  have hcell : c ∈ s.gmesh.faceCells (s.j.m.emap.id p.1 - 1) := by
    rw [gmesh_faceCells2 h (s.j.m.enum.id_lt p.1), hasFst_cellFaces2 h.ready]
    exact ⟨g, p.1, hc, s.j.m.enum.at_id p.1, List.mem_map_of_mem hp⟩
  obtain ⟨n1, n2⟩ := face_normal_cell s.gmesh _ c (good_face2 h p.1) (listed2 h p.1) hcell
  have hor := oriented_edge h p
  have hv : faceVector s.gmesh (s.j.m.emap.id p.1 - 1) =
      edgeNormal (pt (s.gmesh.faceCoords (s.j.m.emap.id p.1 - 1)) 0) (pt (s.gmesh.faceCoords (s.j.m.emap.id p.1 - 1)) 1) := by
    unfold faceVector
    rw [if_neg (by rw [(gmesh_dim2 h).1]; decide)]
  unfold orientedFace at hor
  rcases flipDir_unit s.j.faceflip (s.j.m.emap.id p.1 - 1) p.2 with e | e
  · rw [if_pos e] at hor
    rw [n1 (by rw [hd, e]), hv, hor]; rfl
  · rw [if_neg (by show ¬ (flipDir s.j.faceflip (s.j.m.emap.id p.1 - 1) p.2 = 1); rw [e]; decide)] at hor
    have hor' : s.gmesh.faceCoords (s.j.m.emap.id p.1 - 1) = [s.place (s.j.m.finish p), s.place (s.j.m.start p)] := by
      rw [← List.reverse_reverse (s.gmesh.faceCoords _), hor]; rfl
    rw [n2 (by rw [hd, e]), hv, hor', neg_edgeNormal]; rfl

/-- **C132** two cells with a common face see opposite normals -/
theorem plane_normals_opposite (h : s.Flat r) {f c c' : Nat} (hf : Has (s.j.faceCells2 f .ALL) c) (hf' : Has (s.j.faceCells2 f .ALL) c')
    (hne : c ≠ c') : ∃ n, faceNormal s.gmesh f (some c) = some n ∧ faceNormal s.gmesh f (some c') = some (neg n) := by
  rw [has_faceCells2 h.ready.faces] at hf hf'
  obtain ⟨g, e, hg, he, hm, _⟩ := hf
  obtain ⟨g', e', hg', he', hm', _⟩ := hf'
  rw [he] at he'; cases he'
  obtain ⟨⟨_, d⟩, hq, rfl⟩ := List.mem_map.mp hm
  obtain ⟨⟨_, d'⟩, hq', e1⟩ := List.mem_map.mp hm'
  dsimp only at e1; subst e1
  have hd : d' = !d := by
    cases d <;> cases d' <;> first | rfl | skip
    all_goals
      have := h.cells _ _ _ _ hq hq'
      subst this
      rw [← (s.j.m.cnum s.j.bg).at_iff.mp hg, (s.j.m.cnum s.j.bg).at_iff.mp hg'] at hne
      exact absurd rfl hne
  subst hd
  have e1 := plane_normals_of_mesh h hg hq
  have e2 := plane_normals_of_mesh h hg' hq'
  have ef : s.j.m.emap.id _ - 1 = f := s.j.m.enum.at_iff.mp he
  dsimp only at e1 e2
  rw [ef] at e1 e2
  refine ⟨_, e1, ?_⟩
  rw [e2, neg_edgeNormal]
  cases d <;> rfl

/-- **C132** the outward normals of a cell add up to zero -/
theorem plane_normals_sum_to_zero (h : s.Flat r) {c : Nat} {g : Fin s.j.m.nf} (hc : (s.j.m.cmap s.j.bg).at c = some g) :
    ∃ ns : List Point, (s.gmesh.cellFaces c).mapM (fun fd => faceNormal s.gmesh fd.1 (some c)) = some ns ∧
      (ns.map Point.x).sum = 0 ∧ (ns.map Point.y).sum = 0 := by
  refine ⟨(s.j.m.face g).edges.map fun p => edgeNormal (s.place (s.j.m.start p)) (s.place (s.j.m.finish p)), ?_, ?_⟩
  · rw [gmesh_cellFaces2 h hc, mapM_bind_map]
    exact mapM_total fun p hp => plane_normals_of_mesh h hc hp
  · have hx := edges_telescope (s.corners g) (fun p => p.y)
    have hy := edges_telescope (s.corners g) (fun p => -p.x)
    rw [corners_edges h.polygons, List.map_map] at hx hy
    constructor
    · rw [List.map_map]; exact hx
    · rw [List.map_map, ← hy]
      refine sum_map_congr _ _ _ fun p _ => ?_
      simp only [Function.comp, edgeNormal, mk2]; ring

/-- **C132** if the cell runs counter-clockwise around the average of its corners, the normals point away from it, are perpendicular to
the faces and as long as they are -/
theorem plane_normals_point_out (h : s.Flat r) {c : Nat} {g : Fin s.j.m.nf} (hc : (s.j.m.cmap s.j.bg).at c = some g)
    (hs : StarShaped (s.corners g)) {p : Fin s.j.m.ne × Bool} (hp : p ∈ (s.j.m.face g).edges) :
    ∃ n, faceNormal s.gmesh (s.j.m.emap.id p.1 - 1) (some c) = some n ∧ n.d = 2 ∧
      0 < n.x * ((s.place (s.j.m.start p)).x - (vertexMean 2 (s.corners g)).x) +
        n.y * ((s.place (s.j.m.start p)).y - (vertexMean 2 (s.corners g)).y) ∧
      n.x * ((s.place (s.j.m.finish p)).x - (s.place (s.j.m.start p)).x) +
        n.y * ((s.place (s.j.m.finish p)).y - (s.place (s.j.m.start p)).y) = 0 ∧
      n.x ^ 2 + n.y ^ 2 = ((s.place (s.j.m.finish p)).x - (s.place (s.j.m.start p)).x) ^ 2 +
        ((s.place (s.j.m.finish p)).y - (s.place (s.j.m.start p)).y) ^ 2 := by
  refine ⟨_, plane_normals_of_mesh h hc hp, rfl, ?_, ?_, ?_⟩
  · have h0 := hs (s.place (s.j.m.start p), s.place (s.j.m.finish p)) (by
      rw [corners_edges h.polygons]; exact List.mem_map.mpr ⟨p, hp, rfl⟩)
    simp only [orient2] at h0
    simp only [edgeNormal, mk2]
    nlinarith [h0]
  · simp only [edgeNormal, mk2]; ring
  · simp only [edgeNormal, mk2]; ring

theorem corners_d2 (h : s.Flat r) (g : Fin s.j.m.nf) : ∀ p ∈ s.corners g, p.d = 2 := by
  intro p hp
  obtain ⟨v, _, rfl⟩ := List.mem_map.mp hp
  exact (place_d s (.inr h.space) v).trans h.space

/-- **C132** area and centroid of a cell that runs counter-clockwise around the average of its corners are those of the contour
formulas. A cell with at least four corners is reported to have a positive area only if it does. -/
theorem area_of_mesh (h : s.Flat r) {c : Nat} {g : Fin s.j.m.nf} (hc : (s.j.m.cmap s.j.bg).at c = some g)
    (h3 : 3 ≤ (s.j.m.face g).edges.length) :
    ∃ area cen, computeCellGeometry s.gmesh c = some (area, cen) ∧
      (StarShaped (s.corners g) → 0 < area ∧ area = shoelace (s.corners g) ∧ area * cen.x = momentX (s.corners g) ∧
        area * cen.y = momentY (s.corners g)) ∧
      (4 ≤ (s.j.m.face g).edges.length → 0 < area → StarShaped (s.corners g)) := by
  have hl : (s.corners g).length = (s.j.m.face g).edges.length := by simp [Source.corners]
  have hd := corners_d2 h g
  have hcell : computeCellGeometry s.gmesh c =
      some ((polygonAreaCentroidNormal (s.corners g)).area, (polygonAreaCentroidNormal (s.corners g)).centroid) := by
    unfold computeCellGeometry
    rw [if_neg (by rw [(gmesh_dim2 h).1]; decide), if_pos (gmesh_dim2 h).1, gmesh_cellCoords2 h hc]
  refine ⟨_, _, hcell, ?_⟩
  rw [← hl] at h3 ⊢
  generalize s.corners g = l at *
  rcases Nat.lt_or_ge 3 l.length with h4 | h4
  · obtain ⟨a1, _, a3⟩ := polygon_area_plane l h4 hd
    exact ⟨fun hs => ⟨a1.mpr hs, a3 hs⟩, fun _ hpos => a1.mp hpos⟩
  · refine ⟨fun hs => ?_, fun h4' => absurd h4' (by omega)⟩
    obtain ⟨a, b, c, rfl⟩ := List.length_eq_three.mp (show l.length = 3 by omega)
    obtain ⟨t1, t2, t3, _⟩ := triangle_area_plane a b c (hd a (by simp)) (hd b (by simp)) (hd c (by simp))
    have key : 0 < shoelace [a, b, c] := by
      have hsum : shoelace [a, b, c] = (orient2 (vertexMean 2 [a, b, c]) a b + orient2 (vertexMean 2 [a, b, c]) b c +
          orient2 (vertexMean 2 [a, b, c]) c a) / 2 := by
        simp only [shoelace, polyEdges, List.rotate_cons_succ, List.rotate_zero, List.zip_cons_cons, List.cons_append,
          List.nil_append, List.zip_nil_right, List.map_cons, List.map_nil, List.sum_cons, List.sum_nil, orient2]
        ring
      have o1 := hs (a, b) (by simp [polyEdges, List.rotate_cons_succ])
      have o2 := hs (b, c) (by simp [polyEdges, List.rotate_cons_succ])
      have o3 := hs (c, a) (by simp [polyEdges, List.rotate_cons_succ])
      rw [hsum]
      dsimp only at o1 o2 o3
      linarith
    have e1 : (polygonAreaCentroidNormal [a, b, c]).area = shoelace [a, b, c] := by rw [t1, abs_of_pos key]
    refine ⟨by rw [e1]; exact key, e1, ?_, ?_⟩
    · rw [e1, t2]
      simp only [shoelace, momentX, polyEdges, List.rotate_cons_succ, List.rotate_zero, List.zip_cons_cons, List.cons_append,
          List.nil_append, List.zip_nil_right, List.map_cons, List.map_nil, List.sum_cons, List.sum_nil]
      ring
    · rw [e1, t3]
      simp only [shoelace, momentY, polyEdges, List.rotate_cons_succ, List.rotate_zero, List.zip_cons_cons, List.cons_append,
          List.nil_append, List.zip_nil_right, List.map_cons, List.map_nil, List.sum_cons, List.sum_nil]
      ring

/-- **C132 is false of the code for triangles**: a cell with three corners that runs clockwise is reported to have a positive area -/
theorem inverted_triangle_cell (h : s.Flat r) {c : Nat} {g : Fin s.j.m.nf} (hc : (s.j.m.cmap s.j.bg).at c = some g)
    {p1 p2 p3 : Point} (h3 : s.corners g = [p1, p2, p3]) (hinv : orient2 p1 p2 p3 < 0) :
    ∃ area cen, computeCellGeometry s.gmesh c = some (area, cen) ∧ 0 < area := by
  have hd := corners_d2 h g
  rw [h3] at hd
  refine ⟨(polygonAreaCentroidNormal (s.corners g)).area, (polygonAreaCentroidNormal (s.corners g)).centroid, ?_, ?_⟩
  · unfold computeCellGeometry
    rw [if_neg (by rw [(gmesh_dim2 h).1]; decide), if_pos (gmesh_dim2 h).1, gmesh_cellCoords2 h hc]
  · rw [h3]
    exact inverted_triangle_not_flagged _ _ _ (hd p1 (by simp)) (hd p2 (by simp)) (hd p3 (by simp)) hinv

/-- the edges of MSTK with a cell on one side only, as the cell runs along them -/
def MMesh.boundary2 (m : MMesh) : List (Fin m.ne × Bool) := oneSided fun g => (m.face g).edges

/-- the area inside of a set of directed edges, by the contour formula -/
noncomputable def Source.areaInside (s : Source ℝ) (l : List (Fin s.j.m.ne × Bool)) : ℝ :=
  (l.map fun p => ((s.place (s.j.m.start p)).x * (s.place (s.j.m.finish p)).y -
    (s.place (s.j.m.finish p)).x * (s.place (s.j.m.start p)).y) / 2).sum

/-- **C132** the cells fill the domain: if all cells run counter-clockwise around the averages of their corners, the areas reported add
up to the area inside of the boundary faces -/
theorem areas_fill_domain (h : s.Flat r) (h3 : ∀ g, 3 ≤ (s.j.m.face g).edges.length) (hst : ∀ g, StarShaped (s.corners g)) :
    ∃ as : List (ℝ × Point), (List.range s.j.m.nf).mapM (computeCellGeometry s.gmesh) = some as ∧
      (∀ v ∈ as, 0 < v.1) ∧ (as.map Prod.fst).sum = s.areaInside s.j.m.boundary2 := by
  have N := s.j.m.cnum s.j.bg
  have key : ∀ c, ∃ v : ℝ × Point, c < s.j.m.nf → computeCellGeometry s.gmesh c = some v ∧ 0 < v.1 ∧
      ∀ g, (s.j.m.cmap s.j.bg).at c = some g → v.1 = shoelace (s.corners g) := by
    intro c
    by_cases hc : c < s.j.m.nf
    · obtain ⟨g, hg⟩ := N.at_some hc
      obtain ⟨vol, cen, e1, e2, e3⟩ := area_of_mesh h hg (h3 g)
      refine ⟨(vol, cen), fun _ => ⟨e1, (e2 (hst g)).1, fun g' hg' => ?_⟩⟩
      rw [hg] at hg'; cases hg'
      exact (e2 (hst g)).2.1
    · exact ⟨(0, zero 0), fun h' => absurd h' hc⟩
  choose v hv using key
  refine ⟨(List.range s.j.m.nf).map v, mapM_total fun c hc => (hv c (List.mem_range.mp hc)).1, ?_, ?_⟩
  · intro x hx
    obtain ⟨c, hc, rfl⟩ := List.mem_map.mp hx
    exact (hv c (List.mem_range.mp hc)).2.1
  · have hp := range_perm_ids N
    rw [List.map_map, (hp.map _).sum_eq, List.map_map]
    have e1 : ∀ g : Fin s.j.m.nf, (v ((s.j.m.cmap s.j.bg).id g - 1)).1 =
        ((s.j.m.face g).edges.map fun p => ((s.place (s.j.m.start p)).x * (s.place (s.j.m.finish p)).y -
          (s.place (s.j.m.finish p)).x * (s.place (s.j.m.start p)).y) / 2).sum := by
      intro g
      rw [(hv _ (N.id_lt g)).2.2 g (N.at_id g)]
      unfold shoelace
      rw [corners_edges h.polygons, List.map_map]
      have := sum_map_mulc (s.j.m.face g).edges (1 / 2) (fun p => (s.place (s.j.m.start p)).x * (s.place (s.j.m.finish p)).y -
          (s.place (s.j.m.finish p)).x * (s.place (s.j.m.start p)).y)
      refine Eq.trans ?_ (Eq.trans this.symm ?_)
      · simp only [Function.comp_def]; ring
      · refine sum_map_congr _ _ _ fun p _ => ?_
        ring
    refine (sum_map_congr _ _ _ fun g _ => e1 g).trans ?_
    refine oneSided_sum (fun g => (s.j.m.face g).edges) (fun g => List.Nodup.of_map _ (h.polygons.noedge g))
      (fun q c c' h1 h2 => h.cells _ _ _ _ h1 h2) _ ?_
    intro e d
    cases d
    · show ((s.place (s.j.m.edge e).v0).x * _ - _) / 2 = -(((s.place (s.j.m.edge e).v1).x * _ - _) / 2)
      simp only [MMesh.start, MMesh.finish]
      simp
      ring
    · show ((s.place (s.j.m.edge e).v1).x * _ - _) / 2 = -(((s.place (s.j.m.edge e).v0).x * _ - _) / 2)
      simp only [MMesh.start, MMesh.finish]
      simp
      ring

/-- a square and a triangle to the right of it, whose free corner is at height 0 and any distance; the common face is flipped -/
abbrev kiteMesh : MMesh where
  nv := 5
  ne := 6
  nf := 2
  nr := 0
  vtx := fun _ => ⟨.interior, 0⟩
  edge := ![⟨.interior, 0, 0, 1, false⟩, ⟨.interior, 0, 1, 2, false⟩, ⟨.interior, 0, 2, 3, false⟩, ⟨.interior, 0, 3, 0, false⟩,
    ⟨.interior, 0, 1, 4, false⟩, ⟨.interior, 0, 4, 2, false⟩]
  face := ![⟨.interior, 0, [(0, true), (1, true), (2, true), (3, true)], false, false⟩,
    ⟨.interior, 0, [(1, false), (4, true), (5, true)], false, false⟩]
  region := fun i => i.elim0

abbrev kiteJ : JMesh := ⟨kiteMesh, true, true, false, true, [false, true, false, false, false, false], List.replicate 6 false⟩

noncomputable abbrev kite (a : ℝ) : Source ℝ where
  j := kiteJ
  dim3 := false
  spaceDim := 2
  xyz := fun v : Fin 5 => match v with
    | 0 => ⟨0, 0, 0⟩
    | 1 => ⟨1, 0, 0⟩
    | 2 => ⟨1, 1, 0⟩
    | 3 => ⟨0, 1, 0⟩
    | _ => ⟨a, 0, 0⟩

theorem kite_flat (a : ℝ) : (kite a).Flat (MeshCache.closure ⟨true, true, true, true, true⟩) where
  made := ⟨⟨_, rfl⟩, rfl, rfl, fun _ => rfl, fun _ => rfl⟩
  faces := rfl
  dim := rfl
  space := rfl
  polygons := by
    refine ⟨?_, ?_, ?_, ?_⟩
    · show ∀ e : Fin 6, (kiteMesh.edge e).v0 ≠ (kiteMesh.edge e).v1
      decide +kernel
    · show ∀ f : Fin 2, (kiteMesh.face f).edges.map kiteMesh.finish = ((kiteMesh.face f).edges.map kiteMesh.start).rotate 1
      decide +kernel
    · show ∀ f : Fin 2, ((kiteMesh.face f).edges.map kiteMesh.start).Nodup
      decide +kernel
    · show ∀ f : Fin 2, ((kiteMesh.face f).edges.map Prod.fst).Nodup
      decide +kernel
  cells := by show kiteMesh.OrientedCells; unfold MMesh.OrientedCells; decide +kernel

theorem kite_cells : (kiteMesh.cmap false).at 0 = some 0 ∧ (kiteMesh.cmap false).at 1 = some 1 ∧
    kiteMesh.boundary2 = [(0, true), (2, true), (3, true), (4, true), (5, true)] := by
  decide +kernel

theorem kite_corners (a : ℝ) : (kite a).corners (0 : Fin 2) = [mk2 0 0, mk2 1 0, mk2 1 1, mk2 0 1] ∧
    (kite a).corners (1 : Fin 2) = [mk2 1 1, mk2 1 0, mk2 a 0] := ⟨rfl, rfl⟩

theorem kite_star (a : ℝ) (ha : 1 < a) : ∀ g : Fin 2, StarShaped ((kite a).corners g) := by
  intro g
  obtain ⟨h0, h1⟩ := kite_corners a
  have hg : g = 0 ∨ g = 1 := by revert g; decide
  rcases hg with rfl | rfl
  · rw [h0]
    intro e he
    simp only [polyEdges, List.rotate_cons_succ, List.rotate_zero, List.zip_cons_cons, List.cons_append,
      List.nil_append, List.zip_nil_right, List.mem_cons, List.not_mem_nil, or_false] at he
    rcases he with rfl | rfl | rfl | rfl <;>
    · simp only [orient2, vertexMean, mean, mk2, List.map_cons, List.map_nil, List.sum_cons, List.sum_nil, List.length_cons, List.length_nil]
      norm_num
  · rw [h1]
    intro e he
    simp only [polyEdges, List.rotate_cons_succ, List.rotate_zero, List.zip_cons_cons, List.cons_append,
      List.nil_append, List.zip_nil_right, List.mem_cons, List.not_mem_nil, or_false] at he
    rcases he with rfl | rfl | rfl <;>
    · simp only [orient2, vertexMean, mean, mk2, List.map_cons, List.map_nil, List.sum_cons, List.sum_nil, List.length_cons, List.length_nil]
      norm_num
      try linarith

/-- the normal of the common face, which is flipped, points to the right with respect to the square and to the left with respect to the
triangle -/
example (a : ℝ) : kiteJ.faceflip[1]? = some true ∧ faceNormal (kite a).gmesh 1 (some 0) = some (mk2 1 0) ∧
    faceNormal (kite a).gmesh 1 (some 1) = some (mk2 (-1) 0) := by
  have e0 : kiteMesh.emap.id 1 - 1 = 1 := by decide +kernel
  have a0 := plane_normals_of_mesh (kite_flat a) (c := 0) (g := (0 : Fin 2)) kite_cells.1 (p := ((1 : Fin 6), true))
    (by show ((1 : Fin 6), true) ∈ (kiteMesh.face 0).edges; decide +kernel)
  have a1 := plane_normals_of_mesh (kite_flat a) (c := 1) (g := (1 : Fin 2)) kite_cells.2.1 (p := ((1 : Fin 6), false))
    (by show ((1 : Fin 6), false) ∈ (kiteMesh.face 1).edges; decide +kernel)
  have e0' : (kite a).j.m.emap.id (1 : Fin 6) - 1 = 1 := e0
  dsimp only at a0 a1
  rw [e0'] at a0 a1
  refine ⟨rfl, a0.trans (congrArg some ?_), a1.trans (congrArg some ?_)⟩
  · show edgeNormal (mk2 1 0) (mk2 1 1) = _
    simp only [edgeNormal, mk2]; norm_num
  · show edgeNormal (mk2 1 1) (mk2 1 0) = _
    simp only [edgeNormal, mk2]; norm_num

example (a : ℝ) (ha : 1 < a) : ∃ as : List (ℝ × Point), (List.range 2).mapM (computeCellGeometry (kite a).gmesh) = some as ∧
    (∀ v ∈ as, 0 < v.1) ∧ (as.map Prod.fst).sum = (a + 1) / 2 := by
  obtain ⟨as, h1, h2, h3⟩ := areas_fill_domain (kite_flat a) (by show ∀ g : Fin 2, 3 ≤ (kiteMesh.face g).edges.length; decide +kernel)
    (kite_star a ha)
  refine ⟨as, h1, h2, h3.trans ?_⟩
  have hb : (kite a).j.m.boundary2 = [((0 : Fin 6), true), (2, true), (3, true), (4, true), (5, true)] := kite_cells.2.2
  rw [hb]
  show (0 * 0 - 1 * 0) / 2 + ((1 * 1 - 0 * 1) / 2 + ((0 * 0 - 0 * 1) / 2 + ((1 * 0 - a * 0) / 2 + ((a * 1 - 1 * 0) / 2 + 0)))) = (a + 1) / 2
  ring

/-- the free corner of the triangle is moved into the square: the area of the cell stays positive -/
example : ∃ area cen, computeCellGeometry (kite (1 / 2)).gmesh 1 = some (area, cen) ∧ 0 < area :=
  inverted_triangle_cell (kite_flat _) kite_cells.2.1 (kite_corners _).2 (by
    simp only [orient2, mk2]; norm_num)

end Jali.Mstk
