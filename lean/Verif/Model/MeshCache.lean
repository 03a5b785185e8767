/-
Which connectivity and geometry a mesh computes for the requested kinds of entities, and which assertions its queries
make about that (src/mesh/Mesh.hh:165-193, 2014-2178; src/mesh/Mesh.cc:555-594, 640-1018, 1021-1145, 1575-2215).
A failed `assert` is the outcome `none`. Only flags are modelled here; the data are in the other models.
-/
namespace Jali.MeshCache

/-- `faces_requested`, ..., `corners_requested` (Mesh.hh:1464-1465) -/
structure Request where
  faces : Bool
  edges : Bool
  sides : Bool
  wedges : Bool
  corners : Bool
deriving DecidableEq, Repr

/-- The implications applied by the constructor (Mesh.hh:185-192). -/
def closure (r : Request) : Request :=
  let r := if r.corners then { r with wedges := true } else r
  let r := if r.wedges then { r with sides := true } else r
  if r.sides then { r with faces := true, edges := true } else r

/-- The flags `..._cached` and `..._precomputed` (Mesh.hh:1466-1473) with the requests and the manifold dimension. -/
structure State where
  req : Request
  dim : Nat
  cell2face : Bool
  face2cell : Bool
  cell2edge : Bool
  face2edge : Bool
  edge2node : Bool
  side : Bool
  wedge : Bool
  corner : Bool
  cellGeom : Bool
  faceGeom : Bool
  edgeGeom : Bool
  sideGeom : Bool
  cornerGeom : Bool
deriving DecidableEq, Repr

/-- The constructor (Mesh.hh:165-193). `edge2node_info_cached` is not initialised: its value is `junk`. -/
def construct (r : Request) (dim : Nat) (junk : Bool) : State :=
  ⟨closure r, dim, false, false, false, false, junk, false, false, false, false, false, false, false, false⟩

/-- `assert(b)` -/
def need (b : Bool) (s : State) : Option State := if b then some s else none

/-- Queries of the mesh and the assertions each makes, including those of the queries it calls. -/
inductive Query
  | cellGetFaces | faceGetCells | faceGetEdges | faceToCellEdgeMap | cellGetEdges | edgeGetNodes
  | sideGetFace | sideGetNode | sideOpposite | cellGetSides | sideCoordinates | sideVolume | sideFacetNormal
  | sideGetWedge | wedgeGetCell | wedgeGetNode | wedgeGetCorner | wedgeAdjacent | wedgeOpposite | cellGetWedges
  | nodeGetWedges | wedgeCoordinates | wedgeVolume | wedgeFacetNormal
  | cornerGetWedges | cornerGetNode | cornerGetCell | cellGetCorners | cellCornerAtNode | nodeGetCorners | cornerVolume
  | cornerCoordinates | cornerFacetization
  | cellCentroid | faceArea | faceCentroid | faceNormal | edgeLength | edgeVector | edgeCentroid
deriving DecidableEq, Repr

/-- The conjunction of the assertions. -/
def Query.asserts (s : State) : Query → Bool
  | .cellGetFaces => s.cell2face  -- Mesh.cc:652, 681
  | .faceGetCells => s.face2cell  -- Mesh.cc:720
  | .faceGetEdges => s.face2edge  -- Mesh.cc:799
  | .faceToCellEdgeMap => s.face2edge && s.cell2edge  -- Mesh.cc:832
  | .cellGetEdges => s.cell2edge  -- Mesh.cc:878, 903
  | .edgeGetNodes => true  -- Mesh.hh:2005-2013
  | .sideGetFace => s.req.sides && s.side  -- Mesh.hh:2022-2047
  | .sideGetNode => s.req.sides && (s.side && s.edge2node)  -- Mesh.hh:2050-2060
  | .sideOpposite => s.req.sides && s.side  -- Mesh.hh:2063-2067
  | .cellGetSides => s.req.sides && s.side  -- Mesh.cc:922-923
  | .sideCoordinates =>  -- Mesh.cc:1849-1900
    s.req.sides && (s.req.sides && (s.side && s.edge2node)) && (s.req.sides && s.side) && s.cellGeom &&
      (s.dim != 3 || (s.req.faces && s.faceGeom))
  | .sideVolume => s.req.sides && s.sideGeom  -- Mesh.cc:1611-1612
  | .sideFacetNormal => s.req.sides && s.sideGeom  -- Mesh.cc:1966-1967
  | .sideGetWedge => s.req.wedges  -- Mesh.hh:2016
  | .wedgeGetCell => s.req.sides && s.req.wedges && s.side && (s.req.sides && s.side)  -- Mesh.hh:2070-2091
  | .wedgeGetNode => s.req.sides && s.req.wedges && s.side && (s.req.sides && (s.side && s.edge2node))  -- Mesh.hh:2094-2100
  | .wedgeGetCorner => s.req.sides && s.req.wedges && (s.side && s.wedge)  -- Mesh.hh:2103-2107
  | .wedgeAdjacent => s.req.wedges  -- Mesh.hh:2111
  | .wedgeOpposite => s.req.wedges && s.side  -- Mesh.hh:2123-2124
  | .cellGetWedges => s.req.wedges && s.side  -- Mesh.cc:934-935
  | .nodeGetWedges => s.req.wedges && (s.wedge && s.corner)  -- Mesh.cc:979-980
  | .wedgeCoordinates =>  -- Mesh.cc:1917-1955
    s.req.wedges && (s.req.sides && s.req.wedges && s.side && (s.req.sides && (s.side && s.edge2node))) && s.cellGeom &&
      (s.dim != 3 || (s.req.edges && s.edgeGeom && s.req.faces && s.faceGeom)) &&
      (s.dim != 2 || (s.req.faces && s.faceGeom))
  | .wedgeVolume => s.req.wedges && s.sideGeom  -- Mesh.cc:1628-1629
  | .wedgeFacetNormal => s.req.wedges && s.sideGeom  -- Mesh.cc:1998-1999
  | .cornerGetWedges => s.req.corners && s.corner  -- Mesh.hh:2143-2144
  | .cornerGetNode =>  -- Mesh.hh:2155-2164
    s.req.corners && (s.corner && s.side) && (s.req.sides && s.req.wedges && s.side && (s.req.sides && (s.side && s.edge2node)))
  | .cornerGetCell =>  -- Mesh.hh:2168-2177
    s.req.corners && (s.corner && s.side) && (s.req.sides && s.req.wedges && s.side && (s.req.sides && s.side))
  | .cellGetCorners => s.req.corners && s.corner  -- Mesh.cc:950-951
  | .cellCornerAtNode =>  -- Mesh.cc:962-963, 968
    s.req.corners && s.corner &&
      (s.req.corners && (s.corner && s.side) && (s.req.sides && s.req.wedges && s.side && (s.req.sides && (s.side && s.edge2node))))
  | .nodeGetCorners => s.req.corners && s.corner  -- Mesh.cc:997-998
  | .cornerVolume => s.req.corners && s.cornerGeom  -- Mesh.cc:1648-1649
  | .cornerCoordinates =>  -- Mesh.cc:2210-2300
    s.req.corners && s.corner && s.cellGeom && (s.req.sides && (s.side && s.edge2node)) &&
      (s.dim != 3 || (s.req.edges && s.edgeGeom)) && (s.dim == 1 || (s.req.faces && s.faceGeom)) &&
      (s.dim != 2 || (s.req.wedges && s.sideGeom))
  | .cornerFacetization =>  -- Mesh.cc:2033-2205
    s.req.corners && s.corner && s.cellGeom && (s.req.sides && (s.side && s.edge2node)) &&
      (s.dim != 3 || (s.cornerGeom && s.req.edges && s.edgeGeom)) && (s.dim == 1 || (s.req.faces && s.faceGeom))
  | .cellCentroid => s.cellGeom  -- Mesh.cc:1664
  | .faceArea => s.req.faces && s.faceGeom  -- Mesh.cc:1578-1579
  | .faceCentroid => s.req.faces && s.faceGeom  -- Mesh.cc:1680-1681
  | .faceNormal => s.req.faces && s.faceGeom && s.cell2face  -- Mesh.cc:1717-1718
  | .edgeLength => s.req.edges && s.edgeGeom  -- Mesh.cc:1595-1596
  | .edgeVector => s.req.edges && s.edgeGeom  -- Mesh.cc:1786-1787
  | .edgeCentroid => s.req.edges && s.edgeGeom  -- Mesh.cc:1824-1825

/-- a query made while computing something else -/
def ask (q : Query) (s : State) : Option State := need (q.asserts s) s

/-- `cache_side_info` (Mesh.cc:229-426): in 1D only the nodes of cells are asked for. -/
def cacheSideInfo (s : State) : Option State :=
  if s.dim = 1 then some { s with side := true }
  else (ask .cellGetFaces s).bind fun s => (ask .faceGetEdges s).map fun s => { s with side := true }

/-- `cache_wedge_info` (Mesh.cc:431-474) -/
def cacheWedgeInfo (s : State) : State := { s with wedge := true }

/-- `cache_corner_info` (Mesh.cc:477-554) -/
def cacheCornerInfo (s : State) : Option State :=
  (ask .cellGetWedges s).bind fun s => (ask .wedgeGetNode s).map fun s => { s with corner := true }

/-- `compute_face_geometric_quantities` (Mesh.cc:1047-1076, 1204-1394) -/
def computeFaces (s : State) : Option State :=
  (ask .faceGetCells s).bind fun s => (ask .cellGetFaces s).map fun s => { s with faceGeom := true }

/-- `compute_cell_geometric_quantities` (Mesh.cc:1021-1045, 1147-1201): in 3D the faces of the cell are asked for. -/
def computeCells (s : State) : Option State :=
  (if s.dim = 3 then ask .cellGetFaces s else some s).map fun s => { s with cellGeom := true }

/-- `compute_side_geometric_quantities` (Mesh.cc:1101-1134, 1421-1537) -/
def computeSides (s : State) : Option State :=
  (ask .sideCoordinates s).bind fun s => (if s.dim = 1 then some s else ask .edgeCentroid s).map fun s =>
    { s with sideGeom := true }

/-- `compute_corner_geometric_quantities` (Mesh.cc:1136-1145, 1540-1553) -/
def computeCorners (s : State) : Option State :=
  (ask .cornerGetWedges s).bind fun s => (ask .wedgeVolume s).map fun s => { s with cornerGeom := true }

/-- run `f` if `b` -/
def when (b : Bool) (f : State → Option State) (s : State) : Option State := if b then f s else some s

/-- `update_geometric_quantities` (Mesh.cc:556-562) -/
def update (s : State) : Option State :=
  (when s.req.faces computeFaces s).bind fun s =>
  (when s.req.edges (fun s => some { s with edgeGeom := true }) s).bind fun s =>
  (computeCells s).bind fun s =>
  (when (s.req.sides || s.req.wedges) computeSides s).bind fun s =>
  when s.req.corners computeCorners s

/-- `cache_extra_variables` (Mesh.cc:565-594) -/
def cacheExtra (s : State) : Option State :=
  (when s.req.faces (fun s => some { s with cell2face := true, face2cell := true }) s).bind fun s =>
  (when s.req.edges (fun s => some { s with face2edge := true, cell2edge := true, edge2node := true }) s).bind fun s =>
  (when s.req.sides cacheSideInfo s).bind fun s =>
  (when s.req.wedges (fun s => (when (!s.side) cacheSideInfo s).map cacheWedgeInfo) s).bind fun s =>
  (when s.req.corners (fun s => (when (!s.side) cacheSideInfo s).bind fun s =>
    (when (!s.wedge) (fun s => some (cacheWedgeInfo s)) s).bind cacheCornerInfo) s).bind update

/-- A mesh made with the requests `r`: constructor, then the framework's constructor calls `cache_extra_variables`
(e.g. Mesh_simple.cc:80-103). -/
def make (r : Request) (dim : Nat) (junk : Bool) : Option State := cacheExtra (construct r dim junk)

/-- any number of later updates -/
def updates : Nat → State → Option State
  | 0, s => some s
  | n + 1, s => (update s).bind (updates n)

/-! ### side geometry over time -/

/-- Stored side data (Mesh.hh:1370-1380): volumes, outward and mid facet normals, indexed by side. -/
structure SideData (V N : Type) where
  vol : List V
  outward : List N
  mid : List N

/-- One pass of `compute_side_geometric_quantities` (Mesh.cc:1101-1134) on a mesh of `n` sides, numbered in list order:
volumes are stored by index after `resize`, the normals are appended. `g s` is the geometry of side `s` for the current
coordinates (for boundary ghosts the zeros of lines 1121-1123). -/
def updateSides {V N : Type} (n : Nat) (d : SideData V N) (g : Nat → V × N × N) : SideData V N where
  vol := (List.range n).map fun s => (g s).1
  outward := d.outward ++ (List.range n).map fun s => (g s).2.1
  mid := d.mid ++ (List.range n).map fun s => (g s).2.2

/-- `side_volume(s)`, `side_facet_normal(s)` and the mid normal of `wedge_facet_normal(2s, 1)` without recomputation
(Mesh.cc:1610-1624, 1964-1982, 2013-2018). -/
def SideData.query {V N : Type} (d : SideData V N) (s : Nat) : Option V × Option N × Option N :=
  (d.vol[s]?, d.outward[s]?, d.mid[s]?)

end Jali.MeshCache
