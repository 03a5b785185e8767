import Verif.Proof.FlatFace
import Verif.Props.Sides
/-! Property theorems C80, C81, C82: volumes and normals of sides and wedges, in two and three dimensions. -/
namespace Jali.SideGeom
open Jali.Sides Jali.Sides.Spec Jali.Geom Jali.Geom.Spec Jali.Geom.Point Spec

/-! ### vocabulary -/

/-- A solid mesh with coordinates in space; `faceNodes f` are the vertices of face `f` in order. -/
structure Solid (m : Src) (faceNodes : Nat → List Nat) (g : Coords) : Prop where
  valid : Valid m
  oriented : Oriented m
  dim : m.manifoldDim = 3
  around : RunsAround m faceNodes
  nodes : ∀ n, (g.nodeCoord n).d = 3
  faces : ∀ f, (g.faceCentroid f).d = 3
  cells : ∀ c, (g.cellCentroid c).d = 3

/-- A plane mesh. -/
structure Plane (m : Src) (g : Coords) : Prop where
  valid : Valid m
  dim : m.manifoldDim = 2
  around : ∀ c ∈ m.cells, PlaneCell m c
  nodes : ∀ n, (g.nodeCoord n).d = 2
  cells : ∀ c, (g.cellCentroid c).d = 2

/-- the corners of a face of a cell, ordered so that its area vector points out of the cell -/
def outwardCorners (faceNodes : Nat → List Nat) (g : Coords) (fd : Nat × Int) : List Point :=
  (outwardFace faceNodes fd).map g.nodeCoord

theorem visit_dirs {m : Src} (ho : Oriented m) {s : Nat} {v : Visit} (hv : (visits m)[s]? = some v) :
    (v.fdir = 1 ∨ v.fdir = -1) ∧ (v.edir = 1 ∨ v.edir = -1) := by
  have h1 := mem_visits.1 (List.mem_of_getElem? hv)
  exact ⟨ho.fdir _ _ _ h1.1, ho.edir _ _ _ _ _ h1.1 h1.2⟩

theorem edge_mid3 {p q : Point} (hp : p.d = 3) : sdiv (p + q) 2 = midpoint 3 p q := by
  rw [add3 _ hp, sdiv, smul3, midpoint]
  ext <;> simp only <;> ring

theorem edge_mid2 {p q : Point} (hp : p.d = 2) : sdiv (p + q) 2 = mk2 ((p.x + q.x) / 2) ((p.y + q.y) / 2) := by
  rw [add2 _ hp, sdiv, smul2, mk2]
  ext <;> simp only <;> ring

theorem midpoint_comm (d : Nat) (p q : Point) : midpoint d p q = midpoint d q p := by
  simp only [midpoint]; ext <;> simp only <;> ring

/-- the stored geometry of a side of a solid mesh -/
theorem solid_stored {m : Src} {faceNodes : Nat → List Nat} {g : Coords} (h : Solid m faceNodes g) {i : Info} (hi : InfoOk m i)
    (k : CornerInfo) {s : Nat} {v : Visit} (hv : (visits m)[s]? = some v) :
    let A := g.nodeCoord (outEdge m v).1
    let B := g.nodeCoord (outEdge m v).2
    sideStored (ofCaches m i k g) s = some ⟨tetVol (g.cellCentroid v.cell) A B (g.faceCentroid v.face),
      triVec A B (g.faceCentroid v.face), triVec (midpoint 3 A B) (g.faceCentroid v.face) (g.cellCentroid v.cell)⟩ := by
  intro A B
  obtain ⟨hf, he⟩ := visit_dirs h.oriented hv
  rw [stored3 k g hi h.dim hv hf he]
  have hm : sdiv (g.nodeCoord (m.edgeNodes v.edge).1 + g.nodeCoord (m.edgeNodes v.edge).2) 2 = midpoint 3 A B := by
    rw [edge_mid3 (h.nodes _)]
    simp only [A, B, outEdge, usedEdge]
    rcases hf with hf | hf <;> rcases he with he | he <;> simp [hf, he]
    all_goals exact midpoint_comm _ _ _
  obtain ⟨h1, h2, h3⟩ := side3_eq (a := A) (b := B) (f := g.faceCentroid v.face) (c := g.cellCentroid v.cell)
    (e := midpoint 3 A B) (h.nodes _) (h.faces _) (h.cells _) rfl
  rw [hm]
  congr 1
  calc side3 B A (g.faceCentroid v.face) (g.cellCentroid v.cell) (midpoint 3 A B)
      = ⟨(side3 B A (g.faceCentroid v.face) (g.cellCentroid v.cell) (midpoint 3 A B)).vol,
         (side3 B A (g.faceCentroid v.face) (g.cellCentroid v.cell) (midpoint 3 A B)).outward,
         (side3 B A (g.faceCentroid v.face) (g.cellCentroid v.cell) (midpoint 3 A B)).mid⟩ := rfl
    _ = _ := by rw [h1, h2, h3]

/-! ### examples -/

/-- A pyramid over a square; the base is used against its direction. -/
def pyr : Src where
  manifoldDim := 3
  cells := [0]
  ncells := 1
  nedges := 8
  nnodes := 5
  cellType _ := .PARALLEL_OWNED
  cellFaces _ := [(0, -1), (1, 1), (2, 1), (3, 1), (4, 1)]
  faceEdges f := [[(0, 1), (1, 1), (2, 1), (3, 1)], [(0, 1), (5, 1), (4, -1)], [(1, 1), (6, 1), (5, -1)],
    [(2, 1), (7, 1), (6, -1)], [(3, 1), (4, 1), (7, -1)]].getD f []
  edgeNodes e := [(0, 1), (1, 2), (2, 3), (3, 0), (0, 4), (1, 4), (2, 4), (3, 4)].getD e (0, 0)
  cellNodes _ := [0, 1, 2, 3, 4]

def pyrFaces (f : Nat) : List Nat := [[1, 2, 3, 0], [0, 1, 4], [1, 2, 4], [2, 3, 4], [3, 0, 4]].getD f [0, 0, 0]

/-- the pyramid with the geometric queries of Model/MeshGeometry.lean -/
noncomputable def pyrG : MeshGeom.GMesh where
  manifoldDim := 3
  spaceDim := 3
  geomType := .CARTESIAN
  cellFaces := pyr.cellFaces
  faceCells f := if f < 5 then [0] else []
  faceCoords f := (pyrFaces f).map fun n => pyramidCorners.getD n (zero 3)
  cellCoords _ := pyramidCorners
  edgeNodes := pyr.edgeNodes
  nodeCoord n := pyramidCorners.getD n (zero 3)

noncomputable def pyrCoords : Coords where
  spaceDim := 3
  geomType := .CARTESIAN
  nodeCoord n := pyramidCorners.getD n (zero 3)
  faceCentroid f := (polygonAreaCentroidNormal (pyrG.faceCoords f)).centroid
  cellCentroid _ := (polyhedVolCentroid pyramidCorners (pyramid.map List.length) pyramid.flatten).2

theorem pyr_valid : Valid pyr ∧ Oriented pyr :=
  ⟨Valid.ofLists (by decide) (by decide) (by decide) (by decide) (by decide) (by decide) (by decide +kernel),
    Oriented.ofLists (by decide) (by decide) (by decide +kernel)⟩

theorem pyr_node_d (n : Nat) : (pyrCoords.nodeCoord n).d = 3 := by
  match n with
  | 0 | 1 | 2 | 3 | 4 => rfl
  | n + 5 => rfl

theorem pyr_face_points (f : Nat) : (∀ p ∈ pyrG.faceCoords f, p.d = 3) ∧ 3 ≤ (pyrG.faceCoords f).length := by
  constructor
  · intro p hp
    obtain ⟨n, _, rfl⟩ := List.mem_map.1 hp
    exact pyr_node_d n
  · match f with
    | 0 | 1 | 2 | 3 | 4 => simp [pyrG, pyrFaces]
    | f + 5 => simp [pyrG, pyrFaces]

theorem polygon_centroid_d (l : List Point) (h : 3 ≤ l.length) (h3 : ∀ p ∈ l, p.d = 3) : (polygonAreaCentroidNormal l).centroid.d = 3 := by
  have hd := h3 _ (pt_zero_mem (show 0 < l.length by omega))
  rcases Nat.lt_or_ge 3 l.length with hl | hl
  · rw [polygon_loop l hl]
    simp only [hd, divAssign, mulAssign]
    exact foldl_addAssign_d _ _
  · have hl3 : l.length = 3 := by omega
    simp only [polygonAreaCentroidNormal, hl3, hd, meanPoint3]; rfl

theorem pyr_solid : Solid pyr pyrFaces pyrCoords where
  valid := pyr_valid.1
  oriented := pyr_valid.2
  dim := rfl
  around := by
    intro c f fd hf
    have : ∀ p ∈ pyr.cellFaces 0, ((pyr.faceEdges p.1).map (usedEdge pyr)).Perm (polyEdges (pyrFaces p.1)) := by decide +kernel
    exact this (f, fd) hf.2
  nodes := pyr_node_d
  faces f := polygon_centroid_d _ (pyr_face_points f).2 (pyr_face_points f).1
  cells _ := by
    change (polyhedVolCentroid pyramidCorners (pyramid.map List.length) pyramid.flatten).2.d = 3
    rw [polyhed_loop pyramidCorners pyramid (by simp [pyramidCorners]) (by simp [pyramid, mk3])]

/-- The two quadrilaterals of Props/Sides.lean with corners on the grid, and cell and edge centres. -/
noncomputable def quadCoords : Coords where
  spaceDim := 2
  geomType := .CARTESIAN
  nodeCoord n := mk2 ((n % 3 : Nat) : ℝ) ((n / 3 : Nat) : ℝ)
  faceCentroid f := sdiv (mk2 (((quads.edgeNodes f).1 % 3 : Nat) : ℝ) (((quads.edgeNodes f).1 / 3 : Nat) : ℝ) +
    mk2 (((quads.edgeNodes f).2 % 3 : Nat) : ℝ) (((quads.edgeNodes f).2 / 3 : Nat) : ℝ)) 2
  cellCentroid c := mk2 ((c : ℝ) + 1 / 2) (1 / 2)

theorem quad_plane : Plane quads quadCoords where
  valid := quads_ok.1
  dim := rfl
  around c hc := by
    unfold PlaneCell
    have : ∀ c ∈ quads.cells, ((quads.cellFaces c).flatMap fun f => (quads.faceEdges f.1).map fun e =>
      if f.2 = 1 then quads.edgeNodes e.1 else (quads.edgeNodes e.1).swap).Perm (polyEdges (quads.cellNodes c)) := by decide +kernel
    exact this c hc
  nodes _ := rfl
  cells _ := rfl

theorem quad_mid (c f e : Nat) (h : Incident quads c f e) :
    quadCoords.faceCentroid f = sdiv (quadCoords.nodeCoord (quads.edgeNodes e).1 + quadCoords.nodeCoord (quads.edgeNodes e).2) 2 := by
  obtain ⟨_, ed, he⟩ := h
  simp only [quads, List.mem_cons, List.not_mem_nil, or_false, Prod.mk.injEq] at he
  rw [he.1]; rfl

/-! ### C80: the sides fill the cell -/

theorem face_fan_volume {m : Src} {faceNodes : Nat → List Nat} {g : Coords} (h : Solid m faceNodes g) {c : Nat} {fd : Nat × Int}
    (hf : HasFace m c fd.1 fd.2) (o : Point) :
    ((faceVisits m c fd.1 fd.2).map fun v => tetVol o (g.nodeCoord (outEdge m v).1) (g.nodeCoord (outEdge m v).2)
      (g.faceCentroid v.face)).sum = inner3 (areaVector (outwardCorners faceNodes g fd)) (vec o (g.faceCentroid fd.1)) / 3 := by
  have hp := out_edges h.around hf
  rw [← fan_volume, outwardCorners, edges_map, List.map_map]
  have := (hp.map fun e => tetVol o (g.nodeCoord e.1) (g.nodeCoord e.2) (g.faceCentroid fd.1)).sum_eq
  rw [List.map_map] at this
  simp only [faceVisits, List.map_map, Function.comp_def] at this ⊢
  exact this

/-- **C80, in space.** The volumes of the sides of a cell add up to the sum, over its faces, of the volume of the cone from
the cell's centroid over the face: a third of the product of the face's outward area vector and the vector from the centroid
of the cell to that of the face. -/
theorem side_volumes_3d (m : Src) (faceNodes : Nat → List Nat) (g : Coords) (h : Solid m faceNodes g) :
    ∃ i, cacheSideInfo m = some i ∧ ∀ k, ∀ c ∈ m.cells, ∃ (l : List Nat) (vs : List ℝ), i.cellGetSides c = some l ∧
      l.map (sideVolume (ofCaches m i k g)) = vs.map some ∧
      vs.sum = ((m.cellFaces c).map fun fd =>
        inner3 (areaVector (outwardCorners faceNodes g fd)) (vec (g.cellCentroid c) (g.faceCentroid fd.1)) / 3).sum := by
  obtain ⟨i, e, hi⟩ := cache_ok h.valid
  refine ⟨i, e, fun k c hc => ?_⟩
  obtain ⟨l, hl, hm⟩ := cell_sides_map h.valid hi hc (sideVolume (ofCaches m i k g))
    (fun v => some (tetVol (g.cellCentroid v.cell) (g.nodeCoord (outEdge m v).1) (g.nodeCoord (outEdge m v).2) (g.faceCentroid v.face)))
    (fun s v hv => by rw [sideVolume, solid_stored h hi k hv]; rfl)
  refine ⟨l, (cellVisits m c).map fun v => tetVol (g.cellCentroid v.cell) (g.nodeCoord (outEdge m v).1)
    (g.nodeCoord (outEdge m v).2) (g.faceCentroid v.face), hl, by rw [hm, List.map_map]; rfl, ?_⟩
  rw [cellVisits_eq, sum_flatMap]
  apply sum_map_congr
  intro fd hfd
  rw [← face_fan_volume h ⟨hc, hfd⟩]
  apply sum_map_congr
  intro v hv
  obtain ⟨e, _, rfl⟩ := List.mem_map.1 hv
  rfl

theorem sdot_inner (a b : Point) : MeshGeom.sdot a b = inner3 a b := rfl

/-- **C80, in space.** If the surface of the cell is closed and the centroid of each face lies in the plane through the
average of its corners perpendicular to its area vector, the volumes of the sides add up to the volume inside of the surface,
from whichever point `o` it is measured: the sides leave no gap and overlap nowhere more than they gain. -/
theorem sides_fill_cell_3d (m : Src) (faceNodes : Nat → List Nat) (g : Coords) (h : Solid m faceNodes g) :
    ∃ i, cacheSideInfo m = some i ∧ ∀ k, ∀ c ∈ m.cells,
      Closed ((m.cellFaces c).map (outwardCorners faceNodes g)) →
      (∀ fd ∈ m.cellFaces c, inner3 (areaVector (outwardCorners faceNodes g fd))
        (vec (vertexMean 3 (outwardCorners faceNodes g fd)) (g.faceCentroid fd.1)) = 0) →
      ∃ (l : List Nat) (vs : List ℝ), i.cellGetSides c = some l ∧ l.map (sideVolume (ofCaches m i k g)) = vs.map some ∧
        ∀ o, vs.sum = volumeFrom o ((m.cellFaces c).map (outwardCorners faceNodes g)) := by
  obtain ⟨i, e, hi⟩ := side_volumes_3d m faceNodes g h
  refine ⟨i, e, fun k c hc hcl hpl => ?_⟩
  obtain ⟨l, vs, h1, h2, h3⟩ := hi k c hc
  refine ⟨l, vs, h1, h2, fun o => ?_⟩
  have hv : volumeFrom o ((m.cellFaces c).map (outwardCorners faceNodes g)) =
      volumeFrom (g.cellCentroid c) ((m.cellFaces c).map (outwardCorners faceNodes g)) := closed_volume _ hcl _ _
  rw [hv, h3, volumeFrom, sum_flatMap, List.map_map]
  apply sum_map_congr
  intro fd hfd
  simp only [Function.comp_def]
  rw [MeshGeom.facets_sum, sdot_inner]
  have hp := hpl fd hfd
  simp only [inner3, vec] at hp ⊢
  linarith

/-- **C80, the reported volume.** For a cell with more than four corners, closed, with flat faces, star-shaped around the
average of its corners, and with the face centroids the mesh reports, the volumes of the sides add up to the volume the mesh
reports for the cell. -/
theorem side_volumes_sum_to_cell_volume (m : Src) (faceNodes : Nat → List Nat) (g : Coords) (h : Solid m faceNodes g)
    (G : MeshGeom.GMesh) (hG : G.manifoldDim = 3) (hfaces : G.cellFaces = m.cellFaces)
    (hcoord : G.faceCoords = fun f => (faceNodes f).map g.nodeCoord) (hf3 : ∀ f, 3 ≤ (faceNodes f).length)
    (hcen : ∀ f, ∃ r, MeshGeom.computeFaceGeometry G f = some r ∧ g.faceCentroid f = r.2.1) :
    ∃ i, cacheSideInfo m = some i ∧ ∀ k, ∀ c ∈ m.cells, m.cellFaces c ≠ [] → 4 < (G.cellCoords c).length →
      StarShaped3 (G.cellCoords c) ((m.cellFaces c).map (outwardCorners faceNodes g)) →
      Closed ((m.cellFaces c).map (outwardCorners faceNodes g)) →
      (∀ fd ∈ m.cellFaces c, Flat (G.faceCoords fd.1)) →
      ∃ (l : List Nat) (vs : List ℝ) (vol : ℝ) (cen : Point), i.cellGetSides c = some l ∧ l.map (sideVolume (ofCaches m i k g)) = vs.map some ∧
        MeshGeom.computeCellGeometry G c = some (vol, cen) ∧ vs.sum = vol ∧ 0 < vol := by
  obtain ⟨i, e, hi⟩ := sides_fill_cell_3d m faceNodes g h
  refine ⟨i, e, fun k c hc hne h4 hss hcl hfl => ?_⟩
  have ho : ∀ fd ∈ m.cellFaces c, outwardCorners faceNodes g fd = MeshGeom.orientedFace G fd := by
    intro fd _
    simp only [outwardCorners, outwardFace, MeshGeom.orientedFace, hcoord]
    split
    · rfl
    · rw [List.map_reverse]
  have hd : ∀ f, ∀ p ∈ G.faceCoords f, p.d = 3 := by
    intro f p hp
    rw [hcoord] at hp
    obtain ⟨n, _, rfl⟩ := List.mem_map.1 hp
    exact h.nodes n
  have hlen : ∀ f, 3 ≤ (G.faceCoords f).length := by intro f; rw [hcoord]; simpa using hf3 f
  have hmean : ∀ L : List Point, vertexMean 3 L.reverse = vertexMean 3 L := by
    intro L; simp only [vertexMean, mean, List.map_reverse, List.sum_reverse, List.length_reverse]
  obtain ⟨l, vs, h1, h2, h3⟩ := hi k c hc hcl (by
    intro fd hfd
    obtain ⟨r, hr, hr'⟩ := hcen fd.1
    have hc' : g.faceCentroid fd.1 = (polygonAreaCentroidNormal (G.faceCoords fd.1)).centroid := by
      rw [hr']
      simp only [MeshGeom.computeFaceGeometry, hG, if_true, Option.map_eq_some_iff] at hr
      obtain ⟨_, _, rfl⟩ := hr
      rfl
    have hp := flat_centroid _ (hlen fd.1) (hd fd.1) (hfl fd hfd)
    rw [ho fd hfd, hc', MeshGeom.orientedFace]
    split
    · exact hp
    · rw [hmean, (areaVector_invariance (G.faceCoords fd.1) 0 0 0 0).2.1, areaVector, MeshGeom.neg3]
      simp only [areaVector] at hp
      simp only [inner3] at hp ⊢
      linarith)
  set fs := (m.cellFaces c).map (outwardCorners faceNodes g) with hfs
  have hfs' : (G.cellFaces c).map (MeshGeom.orientedFace G) = fs := by
    rw [hfaces, hfs]; exact (List.map_congr_left ho).symm
  have hd3 : ∀ f ∈ fs, ∀ p ∈ f, p.d = 3 := by
    intro f hf p hp
    obtain ⟨fd, _, rfl⟩ := List.mem_map.1 hf
    obtain ⟨n, _, rfl⟩ := List.mem_map.1 hp
    exact h.nodes n
  have hnf : ∃ f ∈ fs, f ≠ [] := by
    obtain ⟨fd, hfd⟩ := List.exists_mem_of_ne_nil _ hne
    refine ⟨_, List.mem_map_of_mem hfd, ?_⟩
    rw [ho fd hfd]
    intro h0
    have := congrArg List.length h0
    have h5 := hlen fd.1
    unfold MeshGeom.orientedFace at this
    rw [List.length_nil] at this
    split at this
    · omega
    · rw [List.length_reverse] at this; omega
  obtain ⟨p1, p2⟩ := polyhedron_volume (G.cellCoords c) fs h4 hd3 hnf
  refine ⟨l, vs, (polyhedVolCentroid (G.cellCoords c) (fs.map List.length) fs.flatten).1,
    (polyhedVolCentroid (G.cellCoords c) (fs.map List.length) fs.flatten).2, h1, h2, ?_, ?_, p1.2 hss⟩
  · simp only [MeshGeom.computeCellGeometry, hG, if_true, hfs']
  · rw [h3 (zero 3), (p2 hss hcl (zero 3)).1]

/-- The volumes of the sixteen sides of the pyramid of base 1 and height 3 add up to the volume reported. -/
example : ∃ i, cacheSideInfo pyr = some i ∧ ∀ k, ∃ (l : List Nat) (vs : List ℝ) (vol : ℝ) (cen : Point), i.cellGetSides 0 = some l ∧
    l.map (sideVolume (ofCaches pyr i k pyrCoords)) = vs.map some ∧
    MeshGeom.computeCellGeometry pyrG 0 = some (vol, cen) ∧ vs.sum = vol ∧ 0 < vol := by
  obtain ⟨i, e, h⟩ := side_volumes_sum_to_cell_volume pyr pyrFaces pyrCoords pyr_solid pyrG rfl rfl rfl
    (fun f => by have := (pyr_face_points f).2; simpa [pyrG] using this)
    (fun f => by
      match f with
      | 0 | 1 | 2 | 3 | 4 => exact ⟨_, rfl, rfl⟩
      | f + 5 => exact ⟨_, rfl, rfl⟩)
  have hfs : (pyr.cellFaces 0).map (outwardCorners pyrFaces pyrCoords) = pyramid := by
    simp [pyr, outwardCorners, outwardFace, pyrFaces, pyrCoords, pyramidCorners, pyramid]
  refine ⟨i, e, fun k => h k 0 (by decide) (by decide) (by simp [pyrG, pyramidCorners]) ?_ ?_ ?_⟩
  · rw [hfs]; exact pyramid_starShaped
  · rw [hfs]
    exact closed_of_index (fun i : Nat => pt pyramidCorners i) [[0, 3, 2, 1], [0, 1, 4], [1, 2, 4], [2, 3, 4], [3, 0, 4]] (by decide)
  · intro fd hfd p hp q hq
    simp only [pyr, List.mem_cons, List.not_mem_nil, or_false] at hfd
    rcases hfd with rfl | rfl | rfl | rfl | rfl <;>
      simp [pyrG, pyrFaces, pyramidCorners] at hp hq <;>
      simp only [pyrG, pyrFaces, pyramidCorners, List.getD_cons_zero, List.getD_cons_succ, List.map_cons, List.map_nil, areaVector,
        polyEdges, List.rotate_cons_succ, List.rotate_zero, List.zip_cons_cons, List.cons_append, List.nil_append, List.zip_nil_right,
        List.sum_cons, List.sum_nil, mk3] <;>
      rcases hp with rfl | rfl | rfl | rfl <;> rcases hq with rfl | rfl | rfl | rfl <;>
      simp [inner3, vec, mk3] <;> norm_num

/-- the sum of absolute values is the sum only of numbers that are not negative -/
theorem abs_sum_eq {α : Type} (l : List α) (f : α → ℝ) : (l.map fun a => |f a|).sum = (l.map f).sum ↔ ∀ a ∈ l, 0 ≤ f a := by
  constructor
  · intro h
    have h0 : (l.map fun a => |f a| - f a).sum = 0 := by rw [sum_map_sub, h, sub_self]
    have h1 := sum_zero_all l (fun a => |f a| - f a) (fun a _ => sub_nonneg.2 (le_abs_self _)) h0
    intro a ha
    have := h1 a ha
    have := abs_nonneg (f a)
    linarith
  · intro h
    apply sum_map_congr
    intro a ha
    exact abs_of_nonneg (h a ha)

theorem plane_stored {m : Src} {g : Coords} (h : Plane m g) {i : Info} (hi : InfoOk m i)
    (k : CornerInfo) {s : Nat} {v : Visit} (hv : (visits m)[s]? = some v) :
    let e := if v.fdir = 1 then m.edgeNodes v.edge else (m.edgeNodes v.edge).swap
    let A := g.nodeCoord e.1
    let B := g.nodeCoord e.2
    let C := g.cellCentroid v.cell
    sideStored (ofCaches m i k g) s = some ⟨|orient2 A B C| / 2, MeshGeom.edgeNormal A B, mk2 (C.y - A.y) (-(C.x - A.x))⟩ := by
  intro e A B C
  rw [stored2 k g hi h.dim hv]
  obtain ⟨h1, h2, h3⟩ := side2_eq (a := A) (b := B) (c := C) (h.nodes _) (h.cells _)
  congr 1
  calc side2 A B C = ⟨(side2 A B C).vol, (side2 A B C).outward, (side2 A B C).mid⟩ := rfl
    _ = _ := by rw [h1, h2, h3]

/-- **C80, in the plane.** No side has a negative volume, and the volumes of the sides of a cell add up to the area inside of
its outline exactly if, seen from the centroid of the cell, no edge runs clockwise. -/
theorem sides_fill_cell_2d (m : Src) (g : Coords) (h : Plane m g) :
    ∃ i, cacheSideInfo m = some i ∧ ∀ k, ∀ c ∈ m.cells, ∃ (l : List Nat) (vs : List ℝ), i.cellGetSides c = some l ∧
      l.map (sideVolume (ofCaches m i k g)) = vs.map some ∧ (∀ v ∈ vs, 0 ≤ v) ∧
      (vs.sum = shoelace ((m.cellNodes c).map g.nodeCoord) ↔
        ∀ e ∈ polyEdges ((m.cellNodes c).map g.nodeCoord), 0 ≤ orient2 (g.cellCentroid c) e.1 e.2) := by
  obtain ⟨i, e, hi⟩ := cache_ok h.valid
  refine ⟨i, e, fun k c hc => ?_⟩
  let en : Visit → Nat × Nat := fun v => if v.fdir = 1 then m.edgeNodes v.edge else (m.edgeNodes v.edge).swap
  obtain ⟨l, hl, hm⟩ := cell_sides_map h.valid hi hc (sideVolume (ofCaches m i k g))
    (fun v => some (|orient2 (g.nodeCoord (en v).1) (g.nodeCoord (en v).2) (g.cellCentroid v.cell)| / 2))
    (fun s v hv => by rw [sideVolume, plane_stored h hi k hv]; rfl)
  refine ⟨l, (cellVisits m c).map fun v => |orient2 (g.nodeCoord (en v).1) (g.nodeCoord (en v).2) (g.cellCentroid v.cell)| / 2, hl,
    by rw [hm, List.map_map]; rfl, ?_, ?_⟩
  · intro x hx
    obtain ⟨v, _, rfl⟩ := List.mem_map.1 hx
    have := abs_nonneg (orient2 (g.nodeCoord (en v).1) (g.nodeCoord (en v).2) (g.cellCentroid v.cell))
    linarith
  · have hp := h.around c hc
    have hs : ((cellVisits m c).map fun v => |orient2 (g.nodeCoord (en v).1) (g.nodeCoord (en v).2) (g.cellCentroid v.cell)| / 2).sum =
        ((polyEdges ((m.cellNodes c).map g.nodeCoord)).map fun e => |orient2 (g.cellCentroid c) e.1 e.2 / 2|).sum := by
      rw [edges_map, List.map_map]
      have h1 := (hp.map fun e => |orient2 (g.cellCentroid c) (g.nodeCoord e.1) (g.nodeCoord e.2) / 2|).sum_eq
      simp only [Function.comp_def]
      rw [← h1]
      unfold cellVisits
      simp only [List.map_flatMap, List.map_map, Function.comp_def, en]
      congr 1
      apply List.flatMap_congr
      intro f _
      apply List.map_congr_left
      intro e _
      rw [abs_div, abs_two]
      congr 2
      simp only [orient2]; ring
    rw [hs, ← fan_area _ (g.cellCentroid c), abs_sum_eq]
    constructor
    · intro h0 e he
      have := h0 e he
      linarith
    · intro h0 e he
      have := h0 e he
      linarith

/-- the four sides of the first quadrilateral fill the unit square -/
example : ∃ i, cacheSideInfo quads = some i ∧ ∀ k, ∃ (l : List Nat) (vs : List ℝ), i.cellGetSides 0 = some l ∧
    l.map (sideVolume (ofCaches quads i k quadCoords)) = vs.map some ∧ vs.sum = 1 := by
  obtain ⟨i, e, h⟩ := sides_fill_cell_2d quads quadCoords quad_plane
  refine ⟨i, e, fun k => ?_⟩
  obtain ⟨l, vs, h1, h2, _, h3⟩ := h k 0 (by decide)
  refine ⟨l, vs, h1, h2, ?_⟩
  rw [h3.2]
  · simp [shoelace, polyEdges, quads, quadCoords, mk2]
  · intro e he
    simp [polyEdges, quads, quadCoords, mk2] at he
    rcases he with rfl | rfl | rfl | rfl <;> simp [orient2, quadCoords, mk2] <;> norm_num

/-! ### C81: normals of sides -/

/-- **C81, in space.** The normals of the sides of a cell on one of its faces add up to the area vector of the face pointing out
of the cell. -/
theorem side_normals_sum_to_face (m : Src) (faceNodes : Nat → List Nat) (g : Coords) (h : Solid m faceNodes g) :
    ∃ i, cacheSideInfo m = some i ∧ ∀ k c f fd, HasFace m c f fd → ∃ (l : List Nat) (ns : List Point), i.cellGetSides c = some l ∧
      (l.filter fun s => decide ((i.side s).map (·.face) = some f)).map (sideFacetNormal (ofCaches m i k g)) = ns.map some ∧
      sum3 ns = areaVector (outwardCorners faceNodes g (f, fd)) := by
  obtain ⟨i, e, hi⟩ := cache_ok h.valid
  refine ⟨i, e, fun k c f fd hf => ?_⟩
  obtain ⟨l, hl, hm⟩ := face_sides_map h.valid hi hf (sideFacetNormal (ofCaches m i k g))
    (fun v => some (triVec (g.nodeCoord (outEdge m v).1) (g.nodeCoord (outEdge m v).2) (g.faceCentroid v.face)))
    (fun s v hv => by rw [sideFacetNormal, solid_stored h hi k hv]; rfl)
  refine ⟨l, (faceVisits m c f fd).map fun v => triVec (g.nodeCoord (outEdge m v).1) (g.nodeCoord (outEdge m v).2) (g.faceCentroid v.face),
    hl, by rw [hm, List.map_map]; rfl, ?_⟩
  rw [← fan_normal _ (g.faceCentroid f), outwardCorners, edges_map, List.map_map]
  have hp := out_edges h.around hf
  have key : ∀ T : Point → ℝ, (((faceVisits m c f fd).map fun v => triVec (g.nodeCoord (outEdge m v).1) (g.nodeCoord (outEdge m v).2)
      (g.faceCentroid v.face)).map T).sum = (((polyEdges (outwardFace faceNodes (f, fd))).map
        ((fun e => triVec e.1 e.2 (g.faceCentroid f)) ∘ fun e => (g.nodeCoord e.1, g.nodeCoord e.2))).map T).sum := by
    intro T
    have h1 := (hp.map fun e => T (triVec (g.nodeCoord e.1) (g.nodeCoord e.2) (g.faceCentroid f))).sum_eq
    simp only [faceVisits, List.map_map, Function.comp_def] at h1 ⊢
    exact h1
  simp only [sum3, key]

/-- **C81, agreement with `face_normal`.** They add up to the normal `face_normal` reports for the face and the cell. -/
theorem side_normals_sum_to_face_normal (m : Src) (faceNodes : Nat → List Nat) (g : Coords) (h : Solid m faceNodes g)
    (G : MeshGeom.GMesh) (hfaces : G.cellFaces = m.cellFaces) (hcoord : G.faceCoords = fun f => (faceNodes f).map g.nodeCoord)
    (c f : Nat) (fd : Int) (hf : HasFace m c f fd) (hgood : MeshGeom.GoodCell G c) :
    ∃ i, cacheSideInfo m = some i ∧ ∀ k, ∃ (l : List Nat) (ns : List Point), i.cellGetSides c = some l ∧
      (l.filter fun s => decide ((i.side s).map (·.face) = some f)).map (sideFacetNormal (ofCaches m i k g)) = ns.map some ∧
      MeshGeom.faceNormal G f (some c) = some (sum3 ns) := by
  obtain ⟨i, e, hi⟩ := side_normals_sum_to_face m faceNodes g h
  refine ⟨i, e, fun k => ?_⟩
  obtain ⟨l, ns, h1, h2, h3⟩ := hi k c f fd hf
  refine ⟨l, ns, h1, h2, ?_⟩
  have := MeshGeom.outward_eq G c hgood (fd := (f, fd)) (by rw [hfaces]; exact hf.2)
  rw [h3, this]
  congr 2
  simp only [outwardCorners, outwardFace, MeshGeom.orientedFace, hcoord]
  split
  · rfl
  · rw [List.map_reverse]

/-- **C80, C81, one side in space.** The coordinates of a side are its two nodes, the centroid of its face and that of its
cell; its volume is the signed volume of the tetrahedron with these corners; its normal is the area vector of the triangle
of its nodes and the face's centroid, and its product with the vector from the cell's centroid to any corner of the triangle is
three times the volume, so it points out of the cell if the volume is positive. -/
theorem side_geometry_3d (m : Src) (faceNodes : Nat → List Nat) (g : Coords) (h : Solid m faceNodes g) :
    ∃ i, cacheSideInfo m = some i ∧ ∀ k s r, i.side s = some r → ∃ (a b : Nat) (v : ℝ) (n : Point),
      let M := ofCaches m i k g
      let A := g.nodeCoord a
      let B := g.nodeCoord b
      let F := g.faceCentroid r.face
      let C := g.cellCentroid r.cell
      sideGetNode m i s 0 = some a ∧ sideGetNode m i s 1 = some b ∧ sideGetCoordinates M s true = some [A, B, F, C] ∧
      sideVolume M s = some v ∧ v = tetVol A B F C ∧ sideFacetNormal M s = some n ∧ n = areaVector [B, A, F] ∧
      ∀ p ∈ [A, B, F], inner3 n (vec C p) = 3 * v := by
  obtain ⟨i, e, hi⟩ := cache_ok h.valid
  refine ⟨i, e, fun k s r hs => ?_⟩
  obtain ⟨v, hv, rfl⟩ := hi.side_iff.1 hs
  obtain ⟨hf, he⟩ := visit_dirs h.oriented hv
  obtain ⟨n0, n1⟩ := nodes3 hi h.dim hv hf he
  have hst := solid_stored h hi k hv
  refine ⟨(outEdge m v).2, (outEdge m v).1, _, _, n0, n1, ?_, ?_, rfl, ?_, rfl, ?_⟩
  · simp [sideGetCoordinates, ofCaches, n0, n1, hs, h.dim, mkRec_face, mkRec_cell]
  · rw [sideVolume, hst, Option.map_some, mkRec_face, mkRec_cell]
    congr 1
    simp only [tetVol, det3, vec]; ring
  · rw [sideFacetNormal, hst, Option.map_some, mkRec_face]; rfl
  · intro p hp
    change inner3 (triVec _ _ _) _ = _
    simp only [triVec_eq, mkRec_face, mkRec_cell] at hp ⊢
    simp only [List.mem_cons, List.not_mem_nil, or_false] at hp
    rcases hp with rfl | rfl | rfl <;> simp only [inner3, tetVol, det3, vec] <;> ring

/-- **C81, one side in the plane.** The normal of a side is its edge turned to the right; its product with the vector from the
cell's centroid to either node is twice the signed area of the triangle (centroid, node, node), whose size is the volume. -/
theorem side_geometry_2d (m : Src) (g : Coords) (h : Plane m g) :
    ∃ i, cacheSideInfo m = some i ∧ ∀ k s r, i.side s = some r → ∃ (a b : Nat) (v : ℝ) (n : Point),
      let M := ofCaches m i k g
      let A := g.nodeCoord a
      let B := g.nodeCoord b
      let C := g.cellCentroid r.cell
      sideGetNode m i s 0 = some a ∧ sideGetNode m i s 1 = some b ∧ sideGetCoordinates M s true = some [A, B, C] ∧
      sideVolume M s = some v ∧ v = |orient2 C A B| / 2 ∧ sideFacetNormal M s = some n ∧ n = mk2 (B.y - A.y) (A.x - B.x) ∧
      ∀ p ∈ [A, B], inner3 n (vec C p) = orient2 C A B := by
  obtain ⟨i, e, hi⟩ := cache_ok h.valid
  refine ⟨i, e, fun k s r hs => ?_⟩
  obtain ⟨v, hv, rfl⟩ := hi.side_iff.1 hs
  obtain ⟨n0, n1⟩ := nodes2 hi h.dim hv
  have hst := plane_stored h hi k hv
  refine ⟨_, _, _, _, n0, n1, ?_, ?_, rfl, ?_, rfl, ?_⟩
  · simp [sideGetCoordinates, ofCaches, n0, n1, hs, h.dim, mkRec_cell]
  · rw [sideVolume, hst, Option.map_some, mkRec_cell]
    congr 3
    simp only [orient2]; ring
  · rw [sideFacetNormal, hst, Option.map_some]; rfl
  · intro p hp
    simp only [List.mem_cons, List.not_mem_nil, or_false] at hp
    rcases hp with rfl | rfl <;> simp only [inner3, mk2, vec, orient2] <;> ring

/-- **C81, opposite sides.** The normals of a side and of its opposite side in the neighbouring cell are opposite, in the
plane and in space. -/
theorem opposite_side_normals (m : Src) (faceNodes : Nat → List Nat) (g : Coords) (ho : Oriented m)
    (h : Solid m faceNodes g ∨ Plane m g) :
    ∃ i, cacheSideInfo m = some i ∧ ∀ k (s t : Nat), i.opposite s = some (t : Int) → ∃ n n',
      sideFacetNormal (ofCaches m i k g) s = some n ∧ sideFacetNormal (ofCaches m i k g) t = some n' ∧
      n'.x = -n.x ∧ n'.y = -n.y ∧ n'.z = -n.z := by
  have hval : Valid m := h.elim (·.valid) (·.valid)
  have hdim : m.manifoldDim = 2 ∨ m.manifoldDim = 3 := h.elim (fun h => .inr h.dim) (fun h => .inl h.dim)
  obtain ⟨i, e, h1⟩ := opposite_sides m hval
  obtain ⟨i', e', h2⟩ := opposite_sides_reversed m hval ho hdim
  rw [e] at e'; cases e'
  refine ⟨i, e, fun k s t hst => ?_⟩
  obtain ⟨a, b, ha, hb, hb', ha'⟩ := h2 s t hst
  obtain ⟨r, hr⟩ : ∃ r, i.side s = some r := by
    unfold sideGetNode at ha
    rw [Option.map_eq_some_iff] at ha
    exact ⟨_, ha.choose_spec.1⟩
  obtain ⟨q, hq, hface⟩ : ∃ q, i.side t = some q ∧ q.face = r.face := by
    rcases h1 s r hr with ⟨hn, _⟩ | ⟨t', q, ht', _, hq, hf, _⟩
    · rw [hst] at hn; simp at hn
    · rw [hst] at ht'
      have : t = t' := by simpa using ht'
      subst this
      exact ⟨q, hq, hf⟩
  rcases h with h | h
  · obtain ⟨i', e', h3⟩ := side_geometry_3d m faceNodes g h
    rw [e] at e'; cases e'
    obtain ⟨a1, b1, v1, n1, x1, y1, _, _, _, z1, w1, _⟩ := h3 k s r hr
    obtain ⟨a2, b2, v2, n2, x2, y2, _, _, _, z2, w2, _⟩ := h3 k t q hq
    rw [ha] at x1; rw [hb] at y1; rw [hb'] at x2; rw [ha'] at y2
    cases x1; cases y1; cases x2; cases y2
    refine ⟨n1, n2, z1, z2, ?_⟩
    rw [w1, w2, hface]
    change (triVec _ _ _).x = -(triVec _ _ _).x ∧ (triVec _ _ _).y = -(triVec _ _ _).y ∧ (triVec _ _ _).z = -(triVec _ _ _).z
    rw [triVec_eq, triVec_eq]
    refine ⟨?_, ?_, ?_⟩ <;> simp only <;> ring
  · obtain ⟨i', e', h3⟩ := side_geometry_2d m g h
    rw [e] at e'; cases e'
    obtain ⟨a1, b1, v1, n1, x1, y1, _, _, _, z1, w1, _⟩ := h3 k s r hr
    obtain ⟨a2, b2, v2, n2, x2, y2, _, _, _, z2, w2, _⟩ := h3 k t q hq
    rw [ha] at x1; rw [hb] at y1; rw [hb'] at x2; rw [ha'] at y2
    cases x1; cases y1; cases x2; cases y2
    refine ⟨n1, n2, z1, z2, ?_⟩
    rw [w1, w2]
    refine ⟨?_, ?_, ?_⟩ <;> simp only [mk2] <;> ring

example := side_normals_sum_to_face pyr pyrFaces pyrCoords pyr_solid
example := side_geometry_3d pyr pyrFaces pyrCoords pyr_solid
example := side_geometry_2d quads quadCoords quad_plane
example := opposite_side_normals quads pyrFaces quadCoords quads_ok.2.1 (.inr quad_plane)

theorem pyr_good : MeshGeom.GoodCell pyrG 0 where
  dim := rfl
  face fd hfd := by
    have hl : ∀ f, f < 5 → MeshGeom.Listed pyrG f := by
      intro f hf c hc
      simp only [pyrG, hf, if_true, List.mem_cons, List.not_mem_nil, or_false] at hc
      subst hc
      match f, hf with
      | 0, _ => right; rfl
      | 1, _ | 2, _ | 3, _ | 4, _ => left; rfl
    have hlt : fd.1 < 5 ∧ (fd.2 = 1 ∨ fd.2 = -1) := by
      have : ∀ p ∈ pyr.cellFaces 0, p.1 < 5 ∧ (p.2 = 1 ∨ p.2 = -1) := by decide
      exact this fd hfd
    exact ⟨.inl ⟨rfl, rfl, (pyr_face_points _).2, (pyr_face_points _).1⟩, hl _ hlt.1, by simp [pyrG, hlt.1], hlt.2⟩
  nodup := by simp [pyrG, pyr]

/-- the four sides on the base of the pyramid -/
example := side_normals_sum_to_face_normal pyr pyrFaces pyrCoords pyr_solid pyrG rfl rfl 0 0 (-1) ⟨by decide, by decide⟩ pyr_good

/-! ### C82: wedges -/

theorem wedge_parts {m : Src} {i : Info} (hi : InfoOk m i) {w : Nat} {r : Rec} (hw : i.wedge w = some r) :
    ∃ v, (visits m)[w / 2]? = some v ∧ r = mkRec m v := by
  obtain ⟨v, hv, rfl⟩ := hi.side_iff.1 hw
  exact ⟨v, hv, rfl⟩

/-- **C82, in space.** A wedge is the tetrahedron of its node, the middle of its edge, the centroid of its face and that of
its cell. The coordinates asked for with `posvol_order` are these four points in an order in which the signed volume is
`wedge_volume`, half the volume of the side. Facet 0, opposite to the cell's centroid, and facet 1, opposite to the node, have the area
vectors that `wedge_facet_normal` reports: the product with the vector from the opposite corner to any corner of the facet is
three times the volume. -/
theorem wedge_geometry_3d (m : Src) (faceNodes : Nat → List Nat) (g : Coords) (h : Solid m faceNodes g) :
    ∃ i, cacheSideInfo m = some i ∧ ∀ k w r, i.wedge w = some r → ∃ (n : Nat) (v : ℝ) (a b c d n0 n1 : Point),
      let M := ofCaches m i k g
      let N := g.nodeCoord n
      let E := midpoint 3 (g.nodeCoord (m.edgeNodes r.edge).1) (g.nodeCoord (m.edgeNodes r.edge).2)
      let F := g.faceCentroid r.face
      let C := g.cellCentroid r.cell
      wedgeGetNode m i w = some n ∧ wedgeGetCoordinates M w true = some [a, b, c, d] ∧ [a, b, c, d].Perm [N, E, F, C] ∧
      wedgeVolume M w = some v ∧ v = tetVol a b c d ∧ sideVolume M (wedgeGetSide w) = some (2 * v) ∧
      wedgeFacetNormal M w 0 = some n0 ∧ (∀ p ∈ [N, E, F], inner3 n0 (vec C p) = 3 * v) ∧
      wedgeFacetNormal M w 1 = some n1 ∧ ∀ p ∈ [E, F, C], inner3 n1 (vec N p) = 3 * v := by
  obtain ⟨i, e, hi⟩ := cache_ok h.valid
  refine ⟨i, e, fun k w r hw => ?_⟩
  obtain ⟨v, hv, rfl⟩ := wedge_parts hi hw
  have hs : i.side (w / 2) = some (mkRec m v) := hw
  obtain ⟨hf, he⟩ := visit_dirs h.oriented hv
  obtain ⟨n0, n1⟩ := nodes3 hi h.dim hv hf he
  have hst := solid_stored h hi k hv
  dsimp only at hst
  have hE : midpoint 3 (g.nodeCoord (outEdge m v).1) (g.nodeCoord (outEdge m v).2) =
      midpoint 3 (g.nodeCoord (m.edgeNodes v.edge).1) (g.nodeCoord (m.edgeNodes v.edge).2) := by
    simp only [outEdge, usedEdge]
    rcases hf with hf | hf <;> rcases he with he | he <;> simp [hf, he]
    all_goals exact midpoint_comm _ _ _
  have hE' : edgeCentroid (ofCaches m i k g) v.edge =
      midpoint 3 (g.nodeCoord (outEdge m v).1) (g.nodeCoord (outEdge m v).2) := by
    rw [hE, ← edge_mid3 (h.nodes _)]; rfl
  simp only [mkRec_edge, mkRec_face, mkRec_cell, ← hE]
  generalize hA : g.nodeCoord (outEdge m v).1 = A at *
  generalize hB : g.nodeCoord (outEdge m v).2 = B at *
  generalize hFe : g.faceCentroid v.face = F at *
  generalize hCe : g.cellCentroid v.cell = C at *
  have hvol : wedgeVolume (ofCaches m i k g) w = some (tetVol C A B F / 2) := by
    rw [wedgeVolume, sideVolume, hst]; rfl
  have hvol' : sideVolume (ofCaches m i k g) (wedgeGetSide w) = some (2 * (tetVol C A B F / 2)) := by
    rw [sideVolume, wedgeGetSide, hst, Option.map_some]; congr 1; ring
  have hn0 : wedgeFacetNormal (ofCaches m i k g) w 0 = some (sdiv (triVec A B F) 2) := by
    rw [wedgeFacetNormal, hst]; rfl
  rcases Nat.mod_two_eq_zero_or_one w with hw2 | hw2
  · have hn1 : wedgeFacetNormal (ofCaches m i k g) w 1 = some (triVec (midpoint 3 A B) F C) := by
      rw [wedgeFacetNormal, hst]; simp [hw2]
    refine ⟨(outEdge m v).2, _, B, midpoint 3 A B, F, C, _, _, ?_, ?_, ?_, hvol, ?_, hvol', hn0, ?_, hn1, ?_⟩
    · rw [wedgeGetNode, hw2]; exact n0
    · simp [wedgeGetCoordinates, wedgeNode, ofCaches, hw2, n0, hs, h.dim, mkRec_face, mkRec_cell, mkRec_edge, orderWedge, hB, hFe, hCe]
      exact hE'
    · rw [hB]
    · simp only [tetVol, det3, vec, midpoint]; ring
    · intro p hp
      rw [triVec_eq, sdiv, smul3]
      simp only [List.mem_cons, List.not_mem_nil, or_false, hB] at hp
      rcases hp with rfl | rfl | rfl <;> simp only [inner3, tetVol, det3, vec, midpoint] <;> ring
    · intro p hp
      rw [triVec_eq, hB]
      simp only [List.mem_cons, List.not_mem_nil, or_false] at hp
      rcases hp with rfl | rfl | rfl <;> simp only [inner3, tetVol, det3, vec, midpoint] <;> ring
  · have hn1 : wedgeFacetNormal (ofCaches m i k g) w 1 = some (neg (triVec (midpoint 3 A B) F C)) := by
      rw [wedgeFacetNormal, hst]; simp [hw2]
    refine ⟨(outEdge m v).1, _, A, F, midpoint 3 A B, C, _, _, ?_, ?_, ?_, hvol, ?_, hvol', hn0, ?_, hn1, ?_⟩
    · rw [wedgeGetNode, hw2]; exact n1
    · simp [wedgeGetCoordinates, wedgeNode, ofCaches, hw2, n1, hs, h.dim, mkRec_face, mkRec_cell, mkRec_edge, orderWedge, hA, hFe, hCe]
      exact hE'
    · rw [hA]; exact List.Perm.cons _ (List.Perm.swap _ _ _)
    · simp only [tetVol, det3, vec, midpoint]; ring
    · intro p hp
      rw [triVec_eq, sdiv, smul3]
      simp only [List.mem_cons, List.not_mem_nil, or_false, hA] at hp
      rcases hp with rfl | rfl | rfl <;> simp only [inner3, tetVol, det3, vec, midpoint] <;> ring
    · intro p hp
      rw [triVec_eq, MeshGeom.neg3, hA]
      simp only [List.mem_cons, List.not_mem_nil, or_false] at hp
      rcases hp with rfl | rfl | rfl <;> simp only [inner3, tetVol, det3, vec, midpoint] <;> ring

/-- **C82, in the plane; missing: facet 1, see below.** If the middle of each edge is reported as its face's centroid and the side
is counter-clockwise seen from the cell's centroid, a wedge is the triangle of its node, the middle of its edge and the cell's centroid;
with `posvol_order` its signed area is `wedge_volume`; the normal of facet 0 is half the turned edge, its product with the vector
from the cell's centroid to the facet twice the volume. -/
theorem wedge_geometry_2d_partial (m : Src) (g : Coords) (h : Plane m g)
    (hmid : ∀ c f e, Incident m c f e → g.faceCentroid f = sdiv (g.nodeCoord (m.edgeNodes e).1 + g.nodeCoord (m.edgeNodes e).2) 2) :
    ∃ i, cacheSideInfo m = some i ∧ ∀ k w r, i.wedge w = some r → ∃ (n0 n1 n : Nat) (v : ℝ) (a b c N0 : Point),
      let M := ofCaches m i k g
      let N := g.nodeCoord n
      let E := g.faceCentroid r.face
      let C := g.cellCentroid r.cell
      sideGetNode m i (wedgeGetSide w) 0 = some n0 ∧ sideGetNode m i (wedgeGetSide w) 1 = some n1 ∧
      (0 ≤ orient2 C (g.nodeCoord n0) (g.nodeCoord n1) →
        wedgeGetNode m i w = some n ∧ wedgeGetCoordinates M w true = some [a, b, c] ∧ [a, b, c].Perm [N, E, C] ∧
        wedgeVolume M w = some v ∧ v = orient2 a b c / 2 ∧ sideVolume M (wedgeGetSide w) = some (2 * v) ∧
        wedgeFacetNormal M w 0 = some N0 ∧ ∀ p ∈ [N, E], inner3 N0 (vec C p) = 2 * v) := by
  obtain ⟨i, e, hi⟩ := cache_ok h.valid
  refine ⟨i, e, fun k w r hw => ?_⟩
  obtain ⟨v, hv, rfl⟩ := wedge_parts hi hw
  have hs : i.side (w / 2) = some (mkRec m v) := hw
  obtain ⟨n0, n1⟩ := nodes2 hi h.dim hv
  have hst := plane_stored h hi k hv
  dsimp only at hst
  have hinc := visit_incident (List.mem_of_getElem? hv)
  have hE := hmid _ _ _ hinc
  rw [edge_mid2 (h.nodes _)] at hE
  simp only [mkRec_face, mkRec_cell]
  have hE' : g.faceCentroid v.face = mk2
      ((((g.nodeCoord (if v.fdir = 1 then m.edgeNodes v.edge else (m.edgeNodes v.edge).swap).1)).x +
        (g.nodeCoord (if v.fdir = 1 then m.edgeNodes v.edge else (m.edgeNodes v.edge).swap).2).x) / 2)
      ((((g.nodeCoord (if v.fdir = 1 then m.edgeNodes v.edge else (m.edgeNodes v.edge).swap).1)).y +
        (g.nodeCoord (if v.fdir = 1 then m.edgeNodes v.edge else (m.edgeNodes v.edge).swap).2).y) / 2) := by
    rw [hE]
    by_cases hf : v.fdir = 1
    · rw [if_pos hf]
    · rw [if_neg hf]; simp only [Prod.fst_swap, Prod.snd_swap]
      congr 2 <;> ring
  generalize (if v.fdir = 1 then m.edgeNodes v.edge else (m.edgeNodes v.edge).swap) = en at *
  generalize hA : g.nodeCoord en.1 = A at *
  generalize hB : g.nodeCoord en.2 = B at *
  generalize hFe : g.faceCentroid v.face = F at *
  generalize hCe : g.cellCentroid v.cell = C at *
  have hn0 : wedgeFacetNormal (ofCaches m i k g) w 0 = some (sdiv (MeshGeom.edgeNormal A B) 2) := by
    rw [wedgeFacetNormal, hst]; rfl
  have hd2 : sdiv (MeshGeom.edgeNormal A B) 2 = ⟨2, (B.y - A.y) / 2, (A.x - B.x) / 2, 0⟩ := by
    rw [MeshGeom.edgeNormal, mk2, sdiv, smul2]; ext <;> simp only <;> ring
  rcases Nat.mod_two_eq_zero_or_one w with hw2 | hw2
  · refine ⟨en.1, en.2, en.1, orient2 C A B / 4, A, F, C, sdiv (MeshGeom.edgeNormal A B) 2, n0, n1, fun hor => ?_⟩
    rw [hA, hB] at hor
    have habs : |orient2 A B C| = orient2 C A B := by
      rw [show orient2 A B C = orient2 C A B by simp only [orient2]; ring, abs_of_nonneg hor]
    refine ⟨?_, ?_, ?_, ?_, ?_, ?_, hn0, ?_⟩
    · rw [wedgeGetNode, hw2]; exact n0
    · simp [wedgeGetCoordinates, wedgeNode, ofCaches, hw2, n0, hs, h.dim, mkRec_face, mkRec_cell, mkRec_edge, orderWedge, hA, hFe, hCe]
    · rw [hA]
    · rw [wedgeVolume, sideVolume, hst]; simp only [Option.map_some, habs]; congr 1; ring
    · rw [hE']; simp only [orient2, mk2]; ring
    · rw [sideVolume, wedgeGetSide, hst]; simp only [Option.map_some, habs]; congr 1; ring
    · intro p hp
      rw [hd2]
      simp only [List.mem_cons, List.not_mem_nil, or_false, hA, hE'] at hp
      rcases hp with rfl | rfl <;> simp only [inner3, orient2, vec, mk2] <;> ring
  · refine ⟨en.1, en.2, en.2, orient2 C A B / 4, B, C, F, sdiv (MeshGeom.edgeNormal A B) 2, n0, n1, fun hor => ?_⟩
    rw [hA, hB] at hor
    have habs : |orient2 A B C| = orient2 C A B := by
      rw [show orient2 A B C = orient2 C A B by simp only [orient2]; ring, abs_of_nonneg hor]
    refine ⟨?_, ?_, ?_, ?_, ?_, ?_, hn0, ?_⟩
    · rw [wedgeGetNode, hw2]; exact n1
    · simp [wedgeGetCoordinates, wedgeNode, ofCaches, hw2, n1, hs, h.dim, mkRec_face, mkRec_cell, mkRec_edge, orderWedge, hB, hFe, hCe]
    · rw [hB]; exact List.Perm.cons _ (List.Perm.swap _ _ _)
    · rw [wedgeVolume, sideVolume, hst]; simp only [Option.map_some, habs]; congr 1; ring
    · rw [hE']; simp only [orient2, mk2]; ring
    · rw [sideVolume, wedgeGetSide, hst]; simp only [Option.map_some, habs]; congr 1; ring
    · intro p hp
      rw [hd2]
      simp only [List.mem_cons, List.not_mem_nil, or_false, hB, hE'] at hp
      rcases hp with rfl | rfl <;> simp only [inner3, orient2, vec, mk2] <;> ring

/-- **C82 is false of the code in the plane.** The normal reported for facet 1 of a wedge, the segment from the middle of the edge
to the cell's centroid, is not perpendicular to this segment: the size of their product is the volume of the side. It is the turned vector
from the side's first node to the cell's centroid. -/
theorem wedge_facet1_normal_2d_wrong (m : Src) (g : Coords) (h : Plane m g)
    (hmid : ∀ c f e, Incident m c f e → g.faceCentroid f = sdiv (g.nodeCoord (m.edgeNodes e).1 + g.nodeCoord (m.edgeNodes e).2) 2) :
    ∃ i, cacheSideInfo m = some i ∧ ∀ k w r, i.wedge w = some r → ∃ (v : ℝ) (n : Point),
      let M := ofCaches m i k g
      sideVolume M (wedgeGetSide w) = some v ∧ wedgeFacetNormal M w 1 = some n ∧
      |inner3 n (vec (g.faceCentroid r.face) (g.cellCentroid r.cell))| = v := by
  obtain ⟨i, e, hi⟩ := cache_ok h.valid
  refine ⟨i, e, fun k w r hw => ?_⟩
  obtain ⟨v, hv, rfl⟩ := wedge_parts hi hw
  have hst := plane_stored h hi k hv
  dsimp only at hst
  have hinc := visit_incident (List.mem_of_getElem? hv)
  have hE := hmid _ _ _ hinc
  rw [edge_mid2 (h.nodes _)] at hE
  simp only [mkRec_face, mkRec_cell]
  generalize hen : (if v.fdir = 1 then m.edgeNodes v.edge else (m.edgeNodes v.edge).swap) = en at hst
  refine ⟨|orient2 (g.nodeCoord en.1) (g.nodeCoord en.2) (g.cellCentroid v.cell)| / 2,
    if w % 2 ≠ 0 then neg (mk2 ((g.cellCentroid v.cell).y - (g.nodeCoord en.1).y) (-((g.cellCentroid v.cell).x - (g.nodeCoord en.1).x)))
    else mk2 ((g.cellCentroid v.cell).y - (g.nodeCoord en.1).y) (-((g.cellCentroid v.cell).x - (g.nodeCoord en.1).x)), ?_, ?_, ?_⟩
  · rw [sideVolume, wedgeGetSide, hst]; rfl
  · rw [wedgeFacetNormal, hst]; rfl
  subst hen
  · rw [hE, show ∀ a : ℝ, |a| / 2 = |a / 2| by intro a; rw [abs_div, abs_two]]
    by_cases hf : v.fdir = 1 <;> rcases Nat.mod_two_eq_zero_or_one w with hw2 | hw2 <;>
      simp only [hf, hw2, if_true, if_false, Prod.fst_swap, Prod.snd_swap, ne_eq, not_true_eq_false, one_ne_zero, not_false_eq_true,
        mk2, MeshGeom.neg2, inner3, vec, orient2] <;>
      rw [abs_eq_abs] <;> first | (left; ring1) | (right; ring1)

example := wedge_geometry_3d pyr pyrFaces pyrCoords pyr_solid
example := wedge_geometry_2d_partial quads quadCoords quad_plane quad_mid

/-- For the first wedge of the unit square the normal has the product 1/4 with the facet. -/
example : ∃ i, cacheSideInfo quads = some i ∧ ∀ k, ∃ n, wedgeFacetNormal (ofCaches quads i k quadCoords) 0 1 = some n ∧
    |inner3 n (vec (quadCoords.faceCentroid 0) (quadCoords.cellCentroid 0))| = 1 / 4 := by
  obtain ⟨i, e, h⟩ := wedge_facet1_normal_2d_wrong quads quadCoords quad_plane quad_mid
  obtain ⟨i', e', hi⟩ := cache_ok quads_ok.1
  rw [e] at e'; cases e'
  refine ⟨i, e, fun k => ?_⟩
  have hv : (visits quads)[0]? = some ⟨0, 0, 1, 0, 1⟩ := by decide +kernel
  have hs : i.wedge 0 = some (mkRec quads ⟨0, 0, 1, 0, 1⟩) := hi.side_iff.2 ⟨_, hv, rfl⟩
  obtain ⟨v, n, h1, h2, h3⟩ := h k 0 _ hs
  refine ⟨n, h2, ?_⟩
  have h4 : sideVolume (ofCaches quads i k quadCoords) (wedgeGetSide 0) = some (1 / 4) := by
    rw [sideVolume, wedgeGetSide, show 0 / 2 = 0 from rfl, plane_stored quad_plane hi k hv]
    simp [quads, quadCoords, orient2, mk2]
    norm_num
  rw [h4] at h1
  cases h1
  exact h3

end Jali.SideGeom
