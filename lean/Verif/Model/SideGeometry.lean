import Verif.Model.MeshGeometry
import Verif.Model.Sides
/-
Geometry of sides, wedges and corners (src/mesh/Mesh.cc:1101-1144, 1428-1560, 1608-1658, 1845-2305), over an arbitrary mesh
given by the answers of the queries the code makes. `none` is a failed `assert`, a read past the end of an array or a value never
set. Sides of boundary ghost cells, whose stored geometry is zero (Mesh.cc:1122-1125, 1139-1140), are left out, and so
is the asserted presence of the caches (see Model/MeshCache.lean).
-/
namespace Jali.SideGeom
noncomputable section
open Jali.Geom Jali.Geom.Point

/-- The queries used: `side_get_node(s, i)`, `side_get_edge`, `side_get_face`, `side_get_cell`, `edge_get_nodes`,
`cell_get_nodes`, `node_get_coordinates`, `face_centroid`, `cell_centroid`, `corner_get_wedges`. -/
structure SMesh where
  manifoldDim : Nat
  spaceDim : Nat
  geomType : GeomType
  sideNode : Nat → Nat → Option Nat
  sideEdge : Nat → Option Nat
  sideFace : Nat → Option Nat
  sideCell : Nat → Option Nat
  edgeNodes : Nat → Nat × Nat
  cellNodes : Nat → List Nat
  nodeCoord : Nat → Point
  faceCentroid : Nat → Point
  cellCentroid : Nat → Point
  cornerWedges : Nat → Option (List Nat)

/-- coordinates and centroids of a mesh -/
structure Coords where
  spaceDim : Nat
  geomType : GeomType
  nodeCoord : Nat → Point
  faceCentroid : Nat → Point
  cellCentroid : Nat → Point

/-- A mesh of dimension 2 or 3 after `cache_side_info`, `cache_corner_info` (Model/Sides.lean). -/
def ofCaches (m : Sides.Src) (i : Sides.Info) (k : Sides.CornerInfo) (g : Coords) : SMesh where
  manifoldDim := m.manifoldDim
  spaceDim := g.spaceDim
  geomType := g.geomType
  sideNode s j := Sides.sideGetNode m i s j
  sideEdge s := (i.side s).map (·.edge)
  sideFace s := (i.side s).map (·.face)
  sideCell s := (i.side s).map (·.cell)
  edgeNodes := m.edgeNodes
  cellNodes := m.cellNodes
  nodeCoord := g.nodeCoord
  faceCentroid := g.faceCentroid
  cellCentroid := g.cellCentroid
  cornerWedges cn := k.cornerWedges[cn]?

/-- A one-dimensional mesh with `ncells` cells from node `c` to node `c+1`, after `cache_side_info` (Mesh.cc:290-333),
`cache_wedge_info` and `cache_corner_info` (Mesh.cc:516-543): corner `2c+j` is at node `j` of cell `c` and has both wedges of
side `2c+j`. Edges and faces are nodes, `edge_get_nodes(e)` gives `e` twice (Mesh_simple.hh:231-236). -/
def of1D (ncells : Nat) (g : Coords) : SMesh where
  manifoldDim := 1
  spaceDim := g.spaceDim
  geomType := g.geomType
  sideNode s _ := if s < 2 * ncells then some ((Sides.cacheSideInfo1D ncells fun c => (c, c + 1)).sideNode s) else none
  sideEdge s := if s < 2 * ncells then some ((Sides.cacheSideInfo1D ncells fun c => (c, c + 1)).sideNode s) else none
  sideFace s := if s < 2 * ncells then some ((Sides.cacheSideInfo1D ncells fun c => (c, c + 1)).sideNode s) else none
  sideCell s := if s < 2 * ncells then some ((Sides.cacheSideInfo1D ncells fun c => (c, c + 1)).sideCell s) else none
  edgeNodes e := (e, e)
  cellNodes c := [c, c + 1]
  nodeCoord := g.nodeCoord
  faceCentroid := g.faceCentroid
  cellCentroid := g.cellCentroid
  cornerWedges cn := if cn < 2 * ncells then some [2 * cn, 2 * cn + 1] else none

variable (M : SMesh)

/-- `edge_centroid` (Mesh.cc:1820-1831) -/
def edgeCentroid (e : Nat) : Point := sdiv (M.nodeCoord (M.edgeNodes e).1 + M.nodeCoord (M.edgeNodes e).2) 2

/-- the last step of `side_get_coordinates` (Mesh.cc:1894-1900): in one dimension, exchange the two points for the side at the
second node of the cell -/
def orderSide (posvol : Bool) (n0 c : Nat) (l : List Point) : List Point :=
  if posvol = true ∧ M.manifoldDim = 1 ∧ some n0 = (M.cellNodes c)[1]? then l.reverse else l

/-- `side_get_coordinates` (Mesh.cc:1849-1901) -/
def sideGetCoordinates (s : Nat) (posvol : Bool) : Option (List Point) :=
  (M.sideNode s 0).bind fun n0 => (M.sideNode s 1).bind fun n1 => (M.sideFace s).bind fun f => (M.sideCell s).bind fun c =>
    if M.manifoldDim = 3 then some [M.nodeCoord n0, M.nodeCoord n1, M.faceCentroid f, M.cellCentroid c]
    else if M.manifoldDim = 2 then some [M.nodeCoord n0, M.nodeCoord n1, M.cellCentroid c]
    else if M.manifoldDim = 1 then some (orderSide M posvol n0 c [M.nodeCoord n0, M.cellCentroid c])
    else none

/-- volume, outward facet normal and mid facet normal of a side -/
structure SideGeo where
  vol : ℝ
  outward : Point
  mid : Point

/-- the branch for solid meshes (Mesh.cc:1445-1472); `e` is the edge centre -/
def side3 (p0 p1 f c e : Point) : SideGeo :=
  let cpvec := cross (p1 - p0) (f - p0)
  { vol := dot cpvec (c - p0) / 6
    outward := smul (-0.5) cpvec
    mid := smul 0.5 (cross (f - e) (c - e)) }

/-- the branch for surface and plane meshes (Mesh.cc:1484-1502); `vec3`, the vector from the edge centre, is not used -/
def side2 (p0 p1 c : Point) : SideGeo :=
  let vec0 := p1 - p0
  let vec1 := c - p0
  { vol := norm (cross vec0 vec1) / 2
    outward := mk2 vec0.y (-vec0.x)
    mid := mk2 vec1.y (-vec1.x) }

/-- volume and normal before the change of sign in one dimension (Mesh.cc:1514-1527); nothing is set for other geometries -/
def side1 (g : GeomType) (p0 c : Point) : Option (ℝ × Point) :=
  let vec0 := c - p0
  match g with
  | .SPHERICAL => some (4 / 3 * Real.pi * |c.x ^ 3 - p0.x ^ 3|,
      smul (p0.x ^ 2) (smul Real.pi (smul 4 (sdiv (neg vec0) (norm vec0)))))
  | .CARTESIAN => some (norm vec0, sdiv (neg vec0) (norm vec0))
  | .CYLINDRICAL => none

/-- the change of sign for the side at the second node of the cell (Mesh.cc:1529-1540) -/
def flip1 (second : Bool) (r : ℝ × Point) : ℝ × Point := if second then (-r.1, neg r.2) else r

/-- `compute_side_geometry` (Mesh.cc:1428-1545); `mid` is the point passed for the mid facet normal: in one dimension
`mid_facet_normal->set(0.0)` asserts that it has a dimension -/
def computeSideGeometry (mid : Point) (s : Nat) : Option SideGeo :=
  match sideGetCoordinates M s false, M.sideEdge s, M.sideNode s 0, M.sideCell s with
  | some l, some e, some n0, some cell =>
    if M.manifoldDim = 3 then some (side3 (pt l 0) (pt l 1) (pt l 2) (pt l 3) (edgeCentroid M e))
    else if M.manifoldDim = 2 then some (side2 (pt l 0) (pt l 1) (pt l 2))
    else
      (side1 M.geomType (pt l 0) (pt l 1)).bind fun r => (mid.setAll 0).map fun z =>
        let q := flip1 (decide (some n0 = (M.cellNodes cell)[1]?)) r
        ⟨q.1, q.2, z⟩
  | _, _, _, _ => none

/-- the geometry stored by `compute_side_geometric_quantities` (Mesh.cc:1117-1132) on its first call -/
def sideStored (s : Nat) : Option SideGeo := computeSideGeometry M (zero M.spaceDim) s

/-- `side_volume(s)` (Mesh.cc:1610-1623) -/
def sideVolume (s : Nat) : Option ℝ := (sideStored M s).map (·.vol)

/-- `side_volume(s, true)` (Mesh.cc:1610-1623): the normals are passed as `Point()` -/
def sideVolumeRecomputed (s : Nat) : Option ℝ := (computeSideGeometry M (zero 0) s).map (·.vol)

/-- `wedge_volume(w)` (Mesh.cc:1627-1642) -/
def wedgeVolume (w : Nat) : Option ℝ := (sideVolume M (w / 2)).map (· / 2)

/-- `side_facet_normal(s)` (Mesh.cc:1964-1982) -/
def sideFacetNormal (s : Nat) : Option Point := (sideStored M s).map (·.outward)

/-- `wedge_facet_normal(w, which)` (Mesh.cc:1995-2023) -/
def wedgeFacetNormal (w which : Nat) : Option Point :=
  (sideStored M (w / 2)).bind fun r =>
    if which = 0 then some (sdiv r.outward 2)
    else if which = 1 then some (if w % 2 ≠ 0 then neg r.mid else r.mid)
    else none

/-- the loop adding up volumes in `compute_corner_geometry` (Mesh.cc:1554-1559) -/
def sumWedges : List Nat → ℝ → Option ℝ
  | [], v => some v
  | w :: ws, v => (wedgeVolume M w).bind fun x => sumWedges ws (v + x)

/-- `corner_volume(cn)` (Mesh.cc:1548-1560, 1646-1658) -/
def cornerVolume (cn : Nat) : Option ℝ := (M.cornerWedges cn).bind fun ws => sumWedges M ws 0

/-- `wedge_get_node` (Mesh.hh:2094-2100) -/
def wedgeNode (w : Nat) : Option Nat := M.sideNode (w / 2) (w % 2)

/-- the last step of `wedge_get_coordinates` (Mesh.cc:1949-1954): for odd wedges exchange the last two points, in one
dimension the only two -/
def orderWedge (posvol : Bool) (w : Nat) (l : List Point) : List Point :=
  if posvol = true ∧ w % 2 ≠ 0 then
    match l with
    | [a, b] => [b, a]
    | a :: b :: c :: rest => a :: c :: b :: rest
    | l => l
  else l

/-- `wedge_get_coordinates` (Mesh.cc:1917-1955) -/
def wedgeGetCoordinates (w : Nat) (posvol : Bool) : Option (List Point) :=
  (wedgeNode M w).bind fun n => (M.sideEdge (w / 2)).bind fun e => (M.sideFace (w / 2)).bind fun f =>
    (M.sideCell (w / 2)).bind fun c =>
      if M.manifoldDim = 3 then
        some (orderWedge posvol w [M.nodeCoord n, edgeCentroid M e, M.faceCentroid f, M.cellCentroid c])
      else if M.manifoldDim = 2 then some (orderWedge posvol w [M.nodeCoord n, M.faceCentroid f, M.cellCentroid c])
      else if M.manifoldDim = 1 then some (orderWedge posvol w [M.nodeCoord n, M.cellCentroid c])
      else none

/-- an entry of `point_entity_list` with the point of the same position in `pointcoords` -/
structure Labelled where
  id : Nat
  kind : EntityKind
  point : Point

/-- the search for an entity in `point_entity_list` (Mesh.cc:2066-2078, 2081-2093), with the entry appended if it is not
there: its position and the new lists -/
def locate (l : List Labelled) (id : Nat) (kind : EntityKind) (p : Point) : Nat × List Labelled :=
  match l.findIdx? fun q => decide (q.id = id) && decide (q.kind = kind) with
  | some j => (j, l)
  | none => (l.length, l ++ [⟨id, kind, p⟩])

/-- point `j` of the list -/
def labPoint (l : List Labelled) (j : Nat) : Point :=
  match l[j]? with
  | some q => q.point
  | none => zero 0

/-- The two facets of a wedge (Mesh.cc:2095-2120): `jf` is the position of the face centre, `je` of the edge centre, `v0` the vector
to the cell centre. -/
def wedgeFacets (l : List Labelled) (v0 : Point) (jf je : Nat) : List (Nat × Nat × Nat) :=
  if 0 < dot (cross (labPoint l je - labPoint l 0) (labPoint l jf - labPoint l 0)) v0 then
    [(0, jf, je), (1, je, jf)]
  else [(0, je, jf), (1, jf, je)]

/-- the loop over the wedges (Mesh.cc:2061-2123) -/
def facetLoop (v0 : Point) : List Nat → List Labelled → List (Nat × Nat × Nat) →
    Option (List Labelled × List (Nat × Nat × Nat))
  | [], l, fs => some (l, fs)
  | w :: ws, l, fs =>
    (M.sideFace (w / 2)).bind fun f => (M.sideEdge (w / 2)).bind fun e =>
      let a := locate l f .FACE (M.faceCentroid f)
      let b := locate a.2 e .EDGE (edgeCentroid M e)
      facetLoop v0 ws b.2 (fs ++ wedgeFacets b.2 v0 a.1 b.1)

/-- `corner_get_facetization` in three dimensions (Mesh.cc:2029-2124) -/
def cornerFacets3 (cn : Nat) : Option (List Point × List (Nat × Nat × Nat)) :=
  (M.cornerWedges cn).bind fun ws => ws.head?.bind fun w0 => (wedgeNode M w0).bind fun n =>
    (M.sideCell (w0 / 2)).bind fun c =>
      (facetLoop M (M.cellCentroid c - M.nodeCoord n) ws
        [⟨n, .NODE, M.nodeCoord n⟩, ⟨c, .CELL, M.cellCentroid c⟩] []).map fun r => (r.1.map (·.point), r.2)

/-- `corner_get_facetization` in two dimensions (Mesh.cc:2130-2179): the points; the segments are always 01, 12, 23, 30 -/
def cornerFacets2 (cn : Nat) : Option (List Point) :=
  (M.cornerWedges cn).bind fun ws => ws[0]?.bind fun w0 => ws[1]?.bind fun w1 =>
    (wedgeNode M w0).bind fun n => (M.sideCell (w0 / 2)).bind fun c =>
    (M.sideFace (w0 / 2)).bind fun f0 => (M.sideFace (w1 / 2)).bind fun f1 =>
      let p := M.nodeCoord n
      let ccen := M.cellCentroid c
      if 0 < (cross (M.faceCentroid f0 - p) (ccen - p)).x then
        some [p, M.faceCentroid f0, ccen, M.faceCentroid f1]
      else some [p, M.faceCentroid f1, ccen, M.faceCentroid f0]

/-- the orientation test of `corner_get_coordinates` in two dimensions (Mesh.cc:2238-2250) on the points node, centre of the first
edge, cell centre, centre of the second edge; `v` is the volume of the first wedge -/
def orderCorner (v : ℝ) (n e0 c e1 : Point) : List Point :=
  if (cross (e0 - n) (e1 - n)).x * v < 0 then [n, e1, c, e0] else [n, e0, c, e1]

/-- the loop of `corner_get_coordinates` over the wedges in three dimensions (Mesh.cc:2267-2301) -/
def coordLoop : List Nat → List Labelled → Option (List Labelled)
  | [], l => some l
  | w :: ws, l =>
    (M.sideFace (w / 2)).bind fun f => (M.sideEdge (w / 2)).bind fun e =>
      coordLoop ws (locate (locate l f .FACE (M.faceCentroid f)).2 e .EDGE (edgeCentroid M e)).2

/-- `corner_get_coordinates` in one and two dimensions (Mesh.cc:2207-2250) -/
def cornerCoordinates12 (ws : List Nat) : Option (List Point) :=
  ws[0]?.bind fun w0 =>
    if M.manifoldDim = 1 then wedgeGetCoordinates M w0 true
    else
      ws[1]?.bind fun w1 => (wedgeGetCoordinates M w0 false).bind fun l => (wedgeGetCoordinates M w1 false).bind fun l' =>
        (wedgeVolume M w0).map fun v => orderCorner v (pt l 0) (pt l 1) (pt l 2) (pt l' 1)

/-- `corner_get_coordinates` in three dimensions (Mesh.cc:2251-2304): node, centres of faces and edges, cell centre -/
def cornerCoordinates3 (ws : List Nat) : Option (List Point) :=
  ws.head?.bind fun w0 => (wedgeNode M w0).bind fun n => (M.sideCell (w0 / 2)).bind fun c =>
    (coordLoop M ws [⟨n, .NODE, M.nodeCoord n⟩]).map fun l => l.map (·.point) ++ [M.cellCentroid c]

/-- `corner_get_coordinates` (Mesh.cc:2207-2305) -/
def cornerGetCoordinates (cn : Nat) : Option (List Point) :=
  (M.cornerWedges cn).bind fun ws =>
    if M.manifoldDim = 1 ∨ M.manifoldDim = 2 then cornerCoordinates12 M ws
    else if M.manifoldDim = 3 then cornerCoordinates3 M ws
    else none

end
end Jali.SideGeom
