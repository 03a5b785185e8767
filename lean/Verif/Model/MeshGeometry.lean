import Verif.Model.Geometry
/-
Cell, face and edge geometry of a mesh (src/mesh/Mesh.cc:1147-1425, 1563-1830, 3026-3078), over an arbitrary mesh given by
the answers of its topology and coordinate queries. A failed `assert` is `none`.
-/
namespace Jali.MeshGeom
noncomputable section
open Jali.Geom Jali.Geom.Point

/-- The queries used: `cell_get_faces_and_dirs`, `face_get_cells(f, ALL)`, `face_get_coordinates`, `cell_get_coordinates`,
`edge_get_nodes`, `node_get_coordinates`. -/
structure GMesh where
  manifoldDim : Nat
  spaceDim : Nat
  geomType : GeomType
  cellFaces : Nat → List (Nat × Int)
  faceCells : Nat → List Nat
  faceCoords : Nat → List Point
  cellCoords : Nat → List Point
  edgeNodes : Nat → Nat × Nat
  nodeCoord : Nat → Point

variable (m : GMesh)

/-- the coordinates of a face as pushed into `cfcoords`: in the face's order if its direction is 1, else backwards
(Mesh.cc:1171-1184, 3046-3059) -/
def orientedFace (fd : Nat × Int) : List Point :=
  if fd.2 = 1 then m.faceCoords fd.1 else (m.faceCoords fd.1).reverse

/-- `compute_cell_geometry` (Mesh.cc:1147-1212): volume and centroid -/
def computeCellGeometry (c : Nat) : Option (ℝ × Point) :=
  if m.manifoldDim = 3 then
    let fs := (m.cellFaces c).map (orientedFace m)
    some (polyhedVolCentroid (m.cellCoords c) (fs.map List.length) fs.flatten)
  else if m.manifoldDim = 2 then
    let r := polygonAreaCentroidNormal (m.cellCoords c)
    some (r.area, r.centroid)
  else if m.manifoldDim = 1 then segmentVolCentroid (m.cellCoords c) m.geomType
  else none

/-- `point_in_cell` (Mesh.cc:3026-3078) -/
def pointInCell (p : Point) (c : Nat) : Bool :=
  if m.manifoldDim = 3 then
    let fs := (m.cellFaces c).map (orientedFace m)
    pointInPolyhed p (m.cellCoords c) (fs.map List.length) fs.flatten
  else if m.manifoldDim = 2 then pointInPolygon p (m.cellCoords c)
  else if m.manifoldDim = 1 then
    decide (p.x - (pt (m.cellCoords c) 0).x ≥ 0 ∧ (pt (m.cellCoords c) 1).x - p.x ≥ 0)
  else false

/-- the loop finding the direction of face `f` in cell `c`, with `assert(found)` (Mesh.cc:1243-1257, 1288-1302, 1321-1335, 1379-1393, 1751-1764) -/
def faceDir (f c : Nat) : Option Int := ((m.cellFaces c).find? fun fd => fd.1 = f).map Prod.snd

/-- the two stored normals -/
structure Normals where
  n0 : Point
  n1 : Point

/-- the loop over the cells of a face storing the normal (Mesh.cc:1239-1264, 1284-1309, 1375-1398) -/
def storeNormals (f : Nat) (normal : Point) : List Nat → Normals → Option Normals
  | [], acc => some acc
  | c :: cs, acc =>
    (faceDir m f c).bind fun dir =>
      storeNormals f normal cs (if dir = 1 then { acc with n0 := normal } else { acc with n1 := neg normal })

/-- the normal of an edge in the surface-mesh branch for one of its cells (Mesh.cc:1338-1352): `cellcen` is a `Point()` of
dimension 0, to which the coordinates of the cell are added with `+=` -/
def surfaceNormal (f c : Nat) : Point :=
  let fc := m.faceCoords f
  let evec := pt fc 1 - pt fc 0
  let area := Real.sqrt (dot evec evec)
  let cellcen := divAssign ((m.cellCoords c).foldl addAssign (zero 0)) (m.cellCoords c).length
  let cvec := pt fc 0 - cellcen
  let trinormal := cross cvec evec
  let normal := cross evec trinormal
  mulAssign (divAssign normal (norm normal)) area

/-- the loop of the surface-mesh branch (Mesh.cc:1316-1359) -/
def storeSurfaceNormals (f : Nat) : List Nat → Normals → Option Normals
  | [], acc => some acc
  | c :: cs, acc =>
    (faceDir m f c).bind fun dir =>
      storeSurfaceNormals f cs (if dir = 1 then { acc with n0 := surfaceNormal m f c } else { acc with n1 := surfaceNormal m f c })

/-- `compute_face_geometry` (Mesh.cc:1215-1402): area, centroid and the two normals -/
def computeFaceGeometry (f : Nat) : Option (ℝ × Point × Normals) :=
  let fc := m.faceCoords f
  let start : Normals := ⟨zero m.spaceDim, zero m.spaceDim⟩
  if m.manifoldDim = 3 then
    let r := polygonAreaCentroidNormal fc
    (storeNormals m f r.normal (m.faceCells f) start).map fun n => (r.area, r.centroid, n)
  else if m.manifoldDim = 2 then
    let evec := pt fc 1 - pt fc 0
    let area := Real.sqrt (dot evec evec)
    let centroid := smul 0.5 (pt fc 0 + pt fc 1)
    if m.spaceDim = 2 then
      (storeNormals m f (mk2 evec.y (-evec.x)) (m.faceCells f) start).map fun n => (area, centroid, n)
    else (storeSurfaceNormals m f (m.faceCells f) start).map fun n => (area, centroid, n)
  else if m.manifoldDim = 1 then
    (face1dArea fc m.geomType).bind fun area => ((zero m.spaceDim).setAll area).bind fun normal =>
      (storeNormals m f normal (m.faceCells f) start).map fun n => (area, zero m.spaceDim, n)
  else none

/-- `face_normal(f, true, cellid)` (Mesh.cc:1713-1776); `cellid = none` is -1 -/
def faceNormal (f : Nat) (cellid : Option Nat) : Option Point :=
  (computeFaceGeometry m f).bind fun r =>
    match cellid with
    | none => if L22 r.2.2.n0 ≠ 0 then some r.2.2.n0 else if L22 r.2.2.n1 ≠ 0 then some (neg r.2.2.n1) else none
    | some c => (faceDir m f c).map fun dir => if dir = 1 then r.2.2.n0 else r.2.2.n1

/-- `compute_edge_geometry` (Mesh.cc:1405-1425): length, vector, centroid -/
def computeEdgeGeometry (e : Nat) : ℝ × Point × Point :=
  let p0 := m.nodeCoord (m.edgeNodes e).1
  let p1 := m.nodeCoord (m.edgeNodes e).2
  (norm (p1 - p0), p1 - p0, smul 0.5 (p0 + p1))

/-- `edge_vector(e, true, pointid, &orientation)` (Mesh.cc:1782-1814) -/
def edgeVector (e : Nat) (pointid : Option Nat) : Point × Int :=
  let v := (computeEdgeGeometry m e).2.1
  match pointid with
  | none => (v, 1)
  | some p => if p = (m.edgeNodes e).1 then (v, 1) else (neg v, -1)

/-- `edge_centroid` (Mesh.cc:1820-1831) -/
def edgeCentroid (e : Nat) : Point := sdiv (m.nodeCoord (m.edgeNodes e).1 + m.nodeCoord (m.edgeNodes e).2) 2

end
end Jali.MeshGeom
