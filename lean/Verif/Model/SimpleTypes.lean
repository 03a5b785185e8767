import Verif.Model.MeshDefs
/-! What `Mesh_simple` answers without looking at the mesh. -/
namespace Jali.Simple

/-- `Mesh_simple::cell_get_type` (Mesh_simple.cc:641-643), in one and in three dimensions -/
def cellGetType (_cell : Nat) : CellType := .HEX

/-- `Mesh_simple::GID` (Mesh_simple.cc:645-648) -/
def gid (lid : Nat) (_kind : EntityKind) : Nat := lid

/-- `Mesh_simple::get_labeled_set_entities` (Mesh_simple.cc:934-943): the owned and the ghost entities of a labeled set -/
def labeledSetEntities (_kind : EntityKind) (_label : String) : List Nat × List Nat := ([], [])

end Jali.Simple
