import Verif.Model.Loops
/-
Model of the 1D structured mesh, class `Mesh_simple` (src/mesh/mesh_simple/Mesh_simple.cc:126-160, 251-363,
Mesh_simple.hh:506-524). `nx = x.size() - 1`, `nodes_per_face_ = 1`, `faces_per_cell_ = nodes_per_cell_ = 2`,
`faces_per_node_aug_ = 2`, `cells_per_node_aug_ = 3` (line 143-144). All index functions are the identity.
-/
namespace Jali.Simple1D

/-- `num_cells_` (Mesh_simple.cc:252) -/
def numCells (nx : Nat) : Nat := nx
/-- `num_nodes_` (Mesh_simple.cc:253) -/
def numNodes (nx : Nat) : Nat := nx + 1
/-- `num_faces_` (Mesh_simple.cc:254) -/
def numFaces (nx : Nat) : Nat := numNodes nx

/-- Assignments to `cell_to_node_` (Mesh_simple.cc:268-274). -/
def cellToNodeWrites (nx : Nat) : List (Nat × Nat) :=
  (List.range nx).flatMap fun ix =>
    let istart := 2 * ix
    [(istart, ix), (istart + 1, ix + 1)]

/-- Appends (node, cell) to `node_to_cell_` (Mesh_simple.cc:276-285). -/
def nodeToCellOps (nx : Nat) : List (Nat × Nat) :=
  (List.range nx).flatMap fun ix => [(ix, ix), (ix + 1, ix)]

/-- Assignments to `cell_to_face_` (Mesh_simple.cc:289-294). -/
def cellToFaceWrites (nx : Nat) : List (Nat × Nat) :=
  (List.range nx).flatMap fun ix =>
    let istart := 2 * ix
    [(istart, ix), (istart + 1, ix + 1)]

/-- Assignments to `cell_to_face_dirs_` (Mesh_simple.cc:296-297). -/
def cellToFaceDirsWrites (nx : Nat) : List (Nat × Int) :=
  (List.range nx).flatMap fun ix =>
    let istart := 2 * ix
    [(istart, -1), (istart + 1, 1)]

/-- Assignments to `face_to_cell_` (Mesh_simple.cc:299-303). -/
def faceToCellWrites (nx : Nat) : List (Nat × Int) :=
  (List.range nx).flatMap fun ix =>
    [(2 * (ix + 1) + 1, (ix : Int)), (2 * ix, (ix : Int))]

/-- Assignments to `face_to_node_` (Mesh_simple.cc:308-313). -/
def faceToNodeWrites (nx : Nat) : List (Nat × Nat) :=
  (List.range (nx + 1)).map fun ix => (1 * ix, ix)

/-- Appends (node, face) to `node_to_face_` (Mesh_simple.cc:315-319); in 1D all face index functions agree. -/
def nodeToFaceOps (nx : Nat) : List (Nat × Nat) :=
  (List.range (nx + 1)).map fun ix => (ix, ix)

/-- `cell_get_nodes` (Mesh_simple.cc:673-683) -/
def cellGetNodes (nx c : Nat) : List Nat :=
  (List.range 2).map fun r => runWrites (fun _ => 0) (cellToNodeWrites nx) (2 * c + r)
/-- `cell_get_faces_and_dirs_internal`, faces (Mesh_simple.cc:653-669) -/
def cellGetFaces (nx c : Nat) : List Nat :=
  (List.range 2).map fun r => runWrites (fun _ => 0) (cellToFaceWrites nx) (2 * c + r)
/-- `cell_get_faces_and_dirs_internal`, directions (Mesh_simple.cc:653-669) -/
def cellGetFaceDirs (nx c : Nat) : List Int :=
  (List.range 2).map fun r => runWrites (fun _ => 0) (cellToFaceDirsWrites nx) (2 * c + r)
/-- `face_get_nodes` (Mesh_simple.cc:686-696) -/
def faceGetNodes (nx f : Nat) : List Nat :=
  (List.range 1).map fun r => runWrites (fun _ => 0) (faceToNodeWrites nx) (1 * f + r)
/-- `face_to_cell_` after construction (Mesh_simple.cc:264-265) -/
def faceToCell (nx : Nat) : Nat → Int := runWrites (fun _ => -1) (faceToCellWrites nx)
/-- `face_get_cells_internal` (Mesh_simple.cc:845-855) -/
def faceGetCells (nx f : Nat) : List Int :=
  (if faceToCell nx (2 * f) ≠ -1 then [faceToCell nx (2 * f)] else []) ++
  (if faceToCell nx (2 * f + 1) ≠ -1 then [faceToCell nx (2 * f + 1)] else [])
/-- `node_get_cells` (Mesh_simple.cc:789-799) -/
def nodeGetCells (nx n : Nat) : List Nat := slotRead 3 (runAppends 3 (fun _ => 0) (nodeToCellOps nx)) n
/-- `node_get_faces` (Mesh_simple.cc:803-813) -/
def nodeGetFaces (nx n : Nat) : List Nat := slotRead 2 (runAppends 2 (fun _ => 0) (nodeToFaceOps nx)) n

end Jali.Simple1D
