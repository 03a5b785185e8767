import Verif.Model.MstkMesh
import Verif.Model.EntityTypes
import Verif.Model.FaceCells
import Verif.Model.Tile
/-
The base class `Mesh` on top of `Mesh_MSTK`: the caches of connectivity (src/mesh/Mesh.cc:112-226), the public queries that read
them (646-916), and what the rest of the base class (types, sides, wedges, corners, tiles) gets to see of an MSTK mesh.
`none` is a failed `assert` or an access out of range. The versions compiled with `JALI_CACHE_VARS` 0 are not modelled here.
-/
namespace Jali.Mstk

/-- `resize(n)` and the loop that fills the cache (Mesh.cc:119-130, 164-174, 182-201) -/
def fillCache {α : Type} (n : Nat) (q : Nat → Option α) : Option (List α) := (List.range n).mapM q

/-- a query answered from the cache -/
def cached {α : Type} (n : Nat) (q : Nat → Option α) (i : Nat) : Option α := (fillCache n q).bind (·[i]?)

/-- `cell_get_faces_and_dirs` with `ordered` false (Mesh.cc:672-706) -/
def JMesh.cellGetFaces3 (j : JMesh) (c : Nat) : Option (List (Nat × Int)) :=
  if j.faces then cached (j.m.cellIds3 j.bg).all.length j.cellFaces3 c else none
def JMesh.cellGetFaces2 (j : JMesh) (c : Nat) : Option (List (Nat × Int)) :=
  if j.faces then cached (j.m.cellIds2 j.bg).all.length j.cellFaces2 c else none

/-- `face_get_edges_and_dirs` (Mesh.cc:789-816); the cache is filled if edges are requested (575-577), with `ordered` true -/
def JMesh.faceGetEdges3 (j : JMesh) (f : Nat) : Option (List (Nat × Int)) :=
  if j.edges && j.faces then cached j.m.faceIds3.all.length j.faceEdges3 f else none
def JMesh.faceGetEdges2 (j : JMesh) (f : Nat) : Option (List (Nat × Int)) :=
  if j.edges && j.faces then cached j.m.edgeIds.all.length j.faceEdges2 f else none

/-- `edge_get_nodes` (Mesh.cc:207-226, Mesh.hh:2005-2013) -/
def JMesh.edgeGetNodes (j : JMesh) (e : Nat) : Option (Nat × Nat) :=
  if j.edges then cached j.m.edgeIds.all.length j.edgeNodes e else none

/-- `cell_get_edges` (Mesh.cc:870-890): `cache_cell2edge_info` (182-201) asks the mesh according to the dimension of space -/
def JMesh.cellGetEdges3 (j : JMesh) (c : Nat) : Option (List Nat) :=
  if j.edges then cached (j.m.cellIds3 j.bg).all.length j.cellEdges3 c else none
def JMesh.cellGetEdges2 (j : JMesh) (sdim c : Nat) : Option (List Nat) :=
  if j.edges then
    if sdim = 2 then (cached (j.m.cellIds2 j.bg).all.length j.cell2DEdges c).map fun l => l.map Prod.fst
    else cached (j.m.cellIds2 j.bg).all.length j.cellEdges2 c
  else none

/-- `cell_2D_get_edges_and_dirs` (Mesh.cc:893-916); `cell_2D_edge_dirs` has no entries unless space has dimension 2 (189) -/
def JMesh.cell2DGetEdges (j : JMesh) (sdim c : Nat) : Option (List (Nat × Int)) :=
  if j.edges then if sdim = 2 then cached (j.m.cellIds2 j.bg).all.length j.cell2DEdges c else none else none

/-- `cell_type` (Mesh.cc:80-86) of an MSTK mesh; `none` is a list entry out of range -/
def IdLists.cellTypes (l : IdLists) : Option (List EntityType) := Types.typesOfThree ⟨l.owned, l.ghost, l.bndry⟩

/-- what `face_get_cells` uses (Mesh.cc:138-155, 712-757) -/
def JMesh.faceSrc3 (j : JMesh) : FaceCells.Src where
  nfaces := j.m.faceIds3.all.length
  faceCellsInternal f := ((j.faceCells3 f .ALL).getD []).map Int.ofNat
  cellType c := (((j.m.cellIds3 j.bg).cellTypes.getD [])[c]?).getD .DELETED
def JMesh.faceSrc2 (j : JMesh) : FaceCells.Src where
  nfaces := j.m.edgeIds.all.length
  faceCellsInternal f := ((j.faceCells2 f .ALL).getD []).map Int.ofNat
  cellType c := (((j.m.cellIds2 j.bg).cellTypes.getD [])[c]?).getD .DELETED

/-- `face_get_cells` -/
def JMesh.faceGetCells3 (j : JMesh) (f : Nat) (ty : EntityType) : Option (List Int) :=
  if j.faces then FaceCells.faceGetCells j.faceSrc3 f ty else none
def JMesh.faceGetCells2 (j : JMesh) (f : Nat) (ty : EntityType) : Option (List Int) :=
  if j.faces then FaceCells.faceGetCells j.faceSrc2 f ty else none

/-- `std::vector<int>::resize(n)` -/
def resizeZero (old : List Int) (n : Nat) : List Int := old.take n ++ List.replicate (n - old.length) 0

/-- `face_to_cell_edge_map` (Mesh.cc:823-867) for the edges `fe` of the face and `ce` of the cell; `old` is what the caller's
vector contained -/
def edgeMap (fe ce : List Nat) (old : List Int) : List Int :=
  List.zipWith (fun e o => match ce.findIdx? (· == e) with
    | some k => (k : Int)
    | none => o) fe (resizeZero old fe.length)

def JMesh.faceToCellEdgeMap3 (j : JMesh) (f c : Nat) (old : List Int) : Option (List Int) :=
  (j.faceGetEdges3 f).bind fun fe => (j.cellGetEdges3 c).map fun ce => edgeMap (fe.map Prod.fst) ce old
def JMesh.faceToCellEdgeMap2 (j : JMesh) (sdim f c : Nat) (old : List Int) : Option (List Int) :=
  (j.faceGetEdges2 f).bind fun fe => (j.cellGetEdges2 sdim c).map fun ce => edgeMap (fe.map Prod.fst) ce old

/-- what the code for sides, wedges and corners asks a 3D mesh (Mesh.cc:229-554); counts and types are supplied by
`Types.source` -/
def JMesh.topo3 (j : JMesh) : Sides.Src where
  manifoldDim := 3
  cells := []
  ncells := 0
  nedges := 0
  nnodes := 0
  cellType := fun _ => .DELETED
  cellFaces c := (j.cellGetFaces3 c).getD []
  faceEdges f := (j.faceGetEdges3 f).getD []
  edgeNodes e := (j.edgeGetNodes e).getD (0, 0)
  cellNodes c := (j.cellNodes3 c).getD []

/-- the same for a 2D mesh -/
def JMesh.topo2 (j : JMesh) : Sides.Src where
  manifoldDim := 2
  cells := []
  ncells := 0
  nedges := 0
  nnodes := 0
  cellType := fun _ => .DELETED
  cellFaces c := (j.cellGetFaces2 c).getD []
  faceEdges f := (j.faceGetEdges2 f).getD []
  edgeNodes e := (j.edgeGetNodes e).getD (0, 0)
  cellNodes c := (j.cellNodes2 c).getD []

/-- what `Mesh` knows of a mesh made by `Mesh_MSTK`: the lists filled in `init_nodes`, ... (Mesh_MSTK.cc:3409-3597), the
connectivity and the requests; the lists of faces and edges stay empty if they are not requested (3380-3382) -/
def JMesh.base3 (j : JMesh) (r : MeshCache.Request) : Types.Base where
  nodes := ⟨j.m.nodeIds.owned, j.m.nodeIds.ghost⟩
  edges := if r.edges then ⟨j.m.edgeIds.owned, j.m.edgeIds.ghost⟩ else ⟨[], []⟩
  faces := if r.faces then ⟨j.m.faceIds3.owned, j.m.faceIds3.ghost⟩ else ⟨[], []⟩
  cells := ⟨(j.m.cellIds3 j.bg).owned, (j.m.cellIds3 j.bg).ghost, (j.m.cellIds3 j.bg).bndry⟩
  topo := j.topo3
  req := r
def JMesh.base2 (j : JMesh) (r : MeshCache.Request) : Types.Base where
  nodes := ⟨j.m.nodeIds.owned, j.m.nodeIds.ghost⟩
  edges := if r.edges then ⟨j.m.edgeIds.owned, j.m.edgeIds.ghost⟩ else ⟨[], []⟩
  faces := if r.faces then ⟨j.m.edgeIds.owned, j.m.edgeIds.ghost⟩ else ⟨[], []⟩
  cells := ⟨(j.m.cellIds2 j.bg).owned, (j.m.cellIds2 j.bg).ghost, (j.m.cellIds2 j.bg).bndry⟩
  topo := j.topo2
  req := r

end Jali.Mstk
