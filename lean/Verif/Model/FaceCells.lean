import Verif.Model.MeshDefs
import Verif.Model.MeshSimple
/-
Model of the cached face→cell query of the base class (src/mesh/Mesh.cc:138-155 and 712-786), over an arbitrary
mesh given by the answers of the virtual `face_get_cells_internal` and the table of cell types.
-/
namespace Jali.FaceCells

/-- What the concrete mesh class supplies: `face_get_cells_internal(f, ALL, …)` and `cell_type`. -/
structure Src where
  nfaces : Nat
  faceCellsInternal : Nat → List Int
  cellType : Nat → EntityType

/-- the row `face_cell_ids[f]` after `resize(2)`, the copy loop and the padding loop (Mesh.cc:145-151); `none` is
a write past the two slots -/
def cacheRow (fcells : List Int) : Option (Int × Int) :=
  match fcells with
  | [] => some (-1, -1)
  | [a] => some (a, -1)
  | [a, b] => some (a, b)
  | _ => none

/-- `face_get_cells`, cached version (Mesh.cc:712-757); `none` is undefined behaviour (row overrun while caching,
face id out of range) -/
def faceGetCells (m : Src) (f : Nat) (ptype : EntityType) : Option (List Int) :=
  if f < m.nfaces then
    (cacheRow (m.faceCellsInternal f)).map fun r =>
      let keep (p : Int → Bool) := [r.1, r.2].filter fun c => c != -1 && p c
      match ptype with
      | .ALL => keep fun _ => true
      | .PARALLEL_OWNED => keep fun c => m.cellType c.toNat == .PARALLEL_OWNED
      | .PARALLEL_GHOST => keep fun c => m.cellType c.toNat == .PARALLEL_GHOST
      | _ => []
  else none

/-- `face_get_cells`, the version compiled when `JALI_CACHE_VARS` is 0 (Mesh.cc:758-786) -/
def faceGetCellsUncached (m : Src) (f : Nat) (ptype : EntityType) : List Int :=
  let fcells := m.faceCellsInternal f
  match ptype with
  | .ALL => fcells
  | .PARALLEL_OWNED => fcells.filter fun c => m.cellType c.toNat == .PARALLEL_OWNED
  | .PARALLEL_GHOST => fcells.filter fun c => m.cellType c.toNat == .PARALLEL_GHOST
  | _ => []

/-- The structured mesh as seen by the base class: serial, every cell owned (`cell_type`, Mesh.cc:78-110, from
`cellids_owned_`, Mesh_simple.cc:631-635). -/
def structured (d : Simple.Dims) : Src where
  nfaces := Simple.numFaces d
  faceCellsInternal := Simple.faceGetCells d
  cellType _ := .PARALLEL_OWNED

/-- `Mesh_simple::node_get_cells` with its `ptype` argument, which the body never looks at
(Mesh_simple.cc:789-799) -/
def nodeGetCellsT (d : Simple.Dims) (n : Nat) (_ptype : EntityType) : List Nat := Simple.nodeGetCells d n

/-- `Mesh_simple::cell_get_node_adj_cells` with its `ptype` argument, never looked at
(Mesh_simple.cc:900-933) -/
def cellGetNodeAdjCellsT (d : Simple.Dims) (c : Nat) (_ptype : EntityType) : List Nat :=
  Simple.cellGetNodeAdjCells d c

end Jali.FaceCells
