import Verif.Model.Loops
/-
Model of the 3D structured mesh, class `Mesh_simple`
(src/mesh/mesh_simple/Mesh_simple.hh:484-502, Mesh_simple.cc:366-640, 653-933).

`int`/`unsigned int`/`Entity_ID` are `Nat`, or `Int` where the value -1 occurs; no overflow.
`double` is `Rat` (exact). One loop nest of the code writes several arrays; the model lists the writes per
array (the arrays are distinct objects, so only the order of writes to the same array matters).
-/
namespace Jali.Simple

/-- `nx_, ny_, nz_` (Mesh_simple.hh:373). -/
structure Dims where
  nx : Nat
  ny : Nat
  nz : Nat

variable (d : Dims)

/-- Mesh_simple.hh:484-486 -/
def nodeIndex (i j k : Nat) : Nat := i + j * (d.nx + 1) + k * (d.nx + 1) * (d.ny + 1)
/-- Mesh_simple.hh:488-490 -/
def cellIndex (i j k : Nat) : Nat := i + j * d.nx + k * d.nx * d.ny
/-- Mesh_simple.hh:492-494 -/
def xyFaceIndex (i j k : Nat) : Nat := i + j * d.nx + k * d.nx * d.ny
/-- Mesh_simple.hh:496-498 -/
def xzFaceIndex (i j k : Nat) : Nat :=
  i + j * d.nx + k * d.nx * (d.ny + 1) + xyFaceIndex d 0 0 (d.nz + 1)
/-- Mesh_simple.hh:500-502 -/
def yzFaceIndex (i j k : Nat) : Nat :=
  i + j * (d.nx + 1) + k * (d.nx + 1) * d.ny + xzFaceIndex d 0 0 d.nz

/-- Mesh_simple.cc:367 -/
def numCells : Nat := d.nx * d.ny * d.nz
/-- Mesh_simple.cc:368 -/
def numNodes : Nat := (d.nx + 1) * (d.ny + 1) * (d.nz + 1)
/-- Mesh_simple.cc:369 -/
def numFaces : Nat :=
  (d.nx + 1) * d.ny * d.nz + d.nx * (d.ny + 1) * d.nz + d.nx * d.ny * (d.nz + 1)

/-- Assignments to `cell_to_node_` (Mesh_simple.cc:399-413), `nodes_per_cell_ = 8`. -/
def cellToNodeWrites : List (Nat × Nat) :=
  loop3 d.nx d.ny d.nz fun ix iy iz =>
    let istart := 8 * cellIndex d ix iy iz
    [(istart, nodeIndex d ix iy iz),
     (istart + 1, nodeIndex d (ix + 1) iy iz),
     (istart + 2, nodeIndex d (ix + 1) (iy + 1) iz),
     (istart + 3, nodeIndex d ix (iy + 1) iz),
     (istart + 4, nodeIndex d ix iy (iz + 1)),
     (istart + 5, nodeIndex d (ix + 1) iy (iz + 1)),
     (istart + 6, nodeIndex d (ix + 1) (iy + 1) (iz + 1)),
     (istart + 7, nodeIndex d ix (iy + 1) (iz + 1))]

/-- Appends (node, cell) to `node_to_cell_` (Mesh_simple.cc:415-456). -/
def nodeToCellOps : List (Nat × Nat) :=
  loop3 d.nx d.ny d.nz fun ix iy iz =>
    [(nodeIndex d ix iy iz, cellIndex d ix iy iz),
     (nodeIndex d (ix + 1) iy iz, cellIndex d ix iy iz),
     (nodeIndex d (ix + 1) (iy + 1) iz, cellIndex d ix iy iz),
     (nodeIndex d ix (iy + 1) iz, cellIndex d ix iy iz),
     (nodeIndex d ix iy (iz + 1), cellIndex d ix iy iz),
     (nodeIndex d (ix + 1) iy (iz + 1), cellIndex d ix iy iz),
     (nodeIndex d (ix + 1) (iy + 1) (iz + 1), cellIndex d ix iy iz),
     (nodeIndex d ix (iy + 1) (iz + 1), cellIndex d ix iy iz)]

/-- Assignments to `cell_to_face_` (Mesh_simple.cc:461-472), `faces_per_cell_ = 6`. -/
def cellToFaceWrites : List (Nat × Nat) :=
  loop3 d.nx d.ny d.nz fun ix iy iz =>
    let istart := 6 * cellIndex d ix iy iz
    [(istart, xzFaceIndex d ix iy iz),
     (istart + 1, yzFaceIndex d (ix + 1) iy iz),
     (istart + 2, xzFaceIndex d ix (iy + 1) iz),
     (istart + 3, yzFaceIndex d ix iy iz),
     (istart + 4, xyFaceIndex d ix iy iz),
     (istart + 5, xyFaceIndex d ix iy (iz + 1))]

/-- Assignments to `cell_to_face_dirs_` (Mesh_simple.cc:474-479). -/
def cellToFaceDirsWrites : List (Nat × Int) :=
  loop3 d.nx d.ny d.nz fun ix iy iz =>
    let istart := 6 * cellIndex d ix iy iz
    [(istart, 1), (istart + 1, 1), (istart + 2, -1), (istart + 3, -1), (istart + 4, -1),
     (istart + 5, 1)]

/-- Assignments to `face_to_cell_` (Mesh_simple.cc:481-497), after it was filled with -1 (line 396). -/
def faceToCellWrites : List (Nat × Int) :=
  loop3 d.nx d.ny d.nz fun ix iy iz =>
    [(2 * xzFaceIndex d ix iy iz + 1, (cellIndex d ix iy iz : Int)),
     (2 * yzFaceIndex d (ix + 1) iy iz + 1, (cellIndex d ix iy iz : Int)),
     (2 * xzFaceIndex d ix (iy + 1) iz, (cellIndex d ix iy iz : Int)),
     (2 * yzFaceIndex d ix iy iz, (cellIndex d ix iy iz : Int)),
     (2 * xyFaceIndex d ix iy iz, (cellIndex d ix iy iz : Int)),
     (2 * xyFaceIndex d ix iy (iz + 1) + 1, (cellIndex d ix iy iz : Int))]

/-- Assignments to `face_to_node_`, `nodes_per_face_ = 4`: the xy faces (Mesh_simple.cc:504-514), the
xz faces (537-547), the yz faces (570-580). -/
def faceToNodeWrites : List (Nat × Nat) :=
  (loop3 d.nx d.ny (d.nz + 1) fun ix iy iz =>
    let istart := 4 * xyFaceIndex d ix iy iz
    [(istart, nodeIndex d ix iy iz),
     (istart + 1, nodeIndex d (ix + 1) iy iz),
     (istart + 2, nodeIndex d (ix + 1) (iy + 1) iz),
     (istart + 3, nodeIndex d ix (iy + 1) iz)]) ++
  (loop3 d.nx (d.ny + 1) d.nz fun ix iy iz =>
    let istart := 4 * xzFaceIndex d ix iy iz
    [(istart, nodeIndex d ix iy iz),
     (istart + 1, nodeIndex d (ix + 1) iy iz),
     (istart + 2, nodeIndex d (ix + 1) iy (iz + 1)),
     (istart + 3, nodeIndex d ix iy (iz + 1))]) ++
  (loop3 (d.nx + 1) d.ny d.nz fun ix iy iz =>
    let istart := 4 * yzFaceIndex d ix iy iz
    [(istart, nodeIndex d ix iy iz),
     (istart + 1, nodeIndex d ix (iy + 1) iz),
     (istart + 2, nodeIndex d ix (iy + 1) (iz + 1)),
     (istart + 3, nodeIndex d ix iy (iz + 1))])

/-- Appends (node, face) to `node_to_face_`: Mesh_simple.cc:516-534, 549-567, 582-600. The code
stores `xyface_index_` in all three loops; this is modelled as it is. -/
def nodeToFaceOps : List (Nat × Nat) :=
  (loop3 d.nx d.ny (d.nz + 1) fun ix iy iz =>
    [(nodeIndex d ix iy iz, xyFaceIndex d ix iy iz),
     (nodeIndex d (ix + 1) iy iz, xyFaceIndex d ix iy iz),
     (nodeIndex d (ix + 1) (iy + 1) iz, xyFaceIndex d ix iy iz),
     (nodeIndex d ix (iy + 1) iz, xyFaceIndex d ix iy iz)]) ++
  (loop3 d.nx (d.ny + 1) d.nz fun ix iy iz =>
    [(nodeIndex d ix iy iz, xyFaceIndex d ix iy iz),
     (nodeIndex d (ix + 1) iy iz, xyFaceIndex d ix iy iz),
     (nodeIndex d (ix + 1) iy (iz + 1), xyFaceIndex d ix iy iz),
     (nodeIndex d ix iy (iz + 1), xyFaceIndex d ix iy iz)]) ++
  (loop3 (d.nx + 1) d.ny d.nz fun ix iy iz =>
    [(nodeIndex d ix iy iz, xyFaceIndex d ix iy iz),
     (nodeIndex d ix (iy + 1) iz, xyFaceIndex d ix iy iz),
     (nodeIndex d ix (iy + 1) (iz + 1), xyFaceIndex d ix iy iz),
     (nodeIndex d ix iy (iz + 1), xyFaceIndex d ix iy iz)])

/-- `cell_to_node_` after construction (`resize` value-initialises with 0, Mesh_simple.cc:389). -/
def cellToNode : Nat → Nat := runWrites (fun _ => 0) (cellToNodeWrites d)
/-- `cell_to_face_` after construction (Mesh_simple.cc:387). -/
def cellToFace : Nat → Nat := runWrites (fun _ => 0) (cellToFaceWrites d)
/-- `cell_to_face_dirs_` after construction (Mesh_simple.cc:388). -/
def cellToFaceDirs : Nat → Int := runWrites (fun _ => 0) (cellToFaceDirsWrites d)
/-- `face_to_cell_` after construction (Mesh_simple.cc:395-396). -/
def faceToCell : Nat → Int := runWrites (fun _ => -1) (faceToCellWrites d)
/-- `face_to_node_` after construction (Mesh_simple.cc:390). -/
def faceToNode : Nat → Nat := runWrites (fun _ => 0) (faceToNodeWrites d)
/-- `node_to_cell_` after construction, `cells_per_node_aug_ = 9` (Mesh_simple.cc:79, 394). -/
def nodeToCell : Nat → Nat := runAppends 9 (fun _ => 0) (nodeToCellOps d)
/-- `node_to_face_` after construction, `faces_per_node_aug_ = 13` (Mesh_simple.cc:79, 392). -/
def nodeToFace : Nat → Nat := runAppends 13 (fun _ => 0) (nodeToFaceOps d)

/-- `cell_get_nodes` (Mesh_simple.cc:673-683) -/
def cellGetNodes (c : Nat) : List Nat := (List.range 8).map fun r => cellToNode d (8 * c + r)
/-- `cell_get_faces_and_dirs_internal`, the faces (Mesh_simple.cc:653-669) -/
def cellGetFaces (c : Nat) : List Nat := (List.range 6).map fun r => cellToFace d (6 * c + r)
/-- `cell_get_faces_and_dirs_internal`, the directions (Mesh_simple.cc:653-669) -/
def cellGetFaceDirs (c : Nat) : List Int := (List.range 6).map fun r => cellToFaceDirs d (6 * c + r)
/-- `face_get_nodes` (Mesh_simple.cc:686-696) -/
def faceGetNodes (f : Nat) : List Nat := (List.range 4).map fun r => faceToNode d (4 * f + r)
/-- `node_get_cells` (Mesh_simple.cc:789-799); the argument `ptype` is ignored by the code -/
def nodeGetCells (n : Nat) : List Nat := slotRead 9 (nodeToCell d) n
/-- `node_get_faces` (Mesh_simple.cc:803-813) -/
def nodeGetFaces (n : Nat) : List Nat := slotRead 13 (nodeToFace d) n
/-- `face_get_cells_internal` (Mesh_simple.cc:845-855) -/
def faceGetCells (f : Nat) : List Int :=
  (if faceToCell d (2 * f) ≠ -1 then [faceToCell d (2 * f)] else []) ++
  (if faceToCell d (2 * f + 1) ≠ -1 then [faceToCell d (2 * f + 1)] else [])
/-- `node_get_cell_faces` (Mesh_simple.cc:819-842) -/
def nodeGetCellFaces (n c : Nat) : List Nat :=
  ((List.range 6).map fun i => cellToFace d (6 * c + i)).filter fun f =>
    (List.range 4).any fun j => faceToNode d (4 * f + j) = n
/-- `cell_get_face_adj_cells` (Mesh_simple.cc:870-893) -/
def cellGetFaceAdjCells (c : Nat) : List Int :=
  (List.range 6).flatMap fun i =>
    let f := cellToFace d (6 * c + i)
    if faceToCell d (2 * f) ≠ -1 ∧ faceToCell d (2 * f) ≠ (c : Int) then [faceToCell d (2 * f)]
    else if faceToCell d (2 * f + 1) ≠ -1 ∧ faceToCell d (2 * f + 1) ≠ (c : Int) then
      [faceToCell d (2 * f + 1)]
    else []
/-- Inner body of `cell_get_node_adj_cells` (Mesh_simple.cc:917-930). -/
def addAdj (c : Nat) (acc : List Nat) (nodecell : Nat) : List Nat :=
  if nodecell = c then acc else if nodecell ∈ acc then acc else acc ++ [nodecell]
/-- `cell_get_node_adj_cells` (Mesh_simple.cc:900-933) -/
def cellGetNodeAdjCells (c : Nat) : List Nat :=
  (List.range 8).foldl (fun acc i =>
    let n := cellToNode d (8 * c + i)
    (slotRead 9 (nodeToCell d) n).foldl (addAdj c) acc) []

/-- `nodeids_owned_`, `nodeids_all_` (Mesh_simple.cc:607-611). -/
def nodeIds : List Nat := List.range (numNodes d)
/-- `faceids_owned_`, `faceids_all_` when faces were requested (Mesh_simple.cc:619-624). -/
def faceIds : List Nat := List.range (numFaces d)
/-- `cellids_owned_`, `cellids_all_` (Mesh_simple.cc:631-635). -/
def cellIds : List Nat := List.range (numCells d)

/-- Corner coordinates of the domain `x0_ .. z1_` (Mesh_simple.cc:77-79). -/
structure Box where
  x0 : Rat
  y0 : Rat
  z0 : Rat
  x1 : Rat
  y1 : Rat
  z1 : Rat

/-- Assignments to `coordinates_` (Mesh_simple.cc:373-385). -/
def coordWrites (b : Box) : List (Nat × Rat) :=
  let hx := (b.x1 - b.x0) / d.nx
  let hy := (b.y1 - b.y0) / d.ny
  let hz := (b.z1 - b.z0) / d.nz
  loop3 (d.nx + 1) (d.ny + 1) (d.nz + 1) fun ix iy iz =>
    let istart := 3 * nodeIndex d ix iy iz
    [(istart, b.x0 + ix * hx), (istart + 1, b.y0 + iy * hy), (istart + 2, b.z0 + iz * hz)]

/-- `coordinates_` after construction (Mesh_simple.cc:371). -/
def coordinates (b : Box) : Nat → Rat := runWrites (fun _ => 0) (coordWrites d b)

/-- `node_get_coordinates` with `space_dimension() = sd` (Mesh_simple.cc:702-721). -/
def nodeGetCoordinates (sd : Nat) (coords : Nat → Rat) (n : Nat) : List Rat :=
  (List.range sd).map fun i => coords (sd * n + i)

/-- `node_set_coordinates` (Mesh_simple.cc:759-786): the loop copies `sd` values. -/
def nodeSetCoordinates (sd : Nat) (coords : Nat → Rat) (n : Nat) (p : Nat → Rat) : Nat → Rat :=
  runWrites coords ((List.range sd).map fun i => (sd * n + i, p i))

/-- `cell_get_coordinates` (Mesh_simple.cc:741-756). -/
def cellGetCoordinates (coords : Nat → Rat) (c : Nat) : List (List Rat) :=
  (cellGetNodes d c).map (nodeGetCoordinates 3 coords)

/-- `face_get_coordinates` (Mesh_simple.cc:724-738). -/
def faceGetCoordinates (coords : Nat → Rat) (f : Nat) : List (List Rat) :=
  (faceGetNodes d f).map (nodeGetCoordinates 3 coords)

end Jali.Simple
