import Verif.Model.MeshDefs
/-! The source-code names of the enumerators, used to state C58. -/
namespace Jali

/-- "Entity_kind::X" for the enumerator X; the catch-all kinds have no name -/
def EntityKind.ownName : EntityKind → String
  | .ALL_KIND | .ANY_KIND | .UNKNOWN_KIND => ""
  | .NODE => "Entity_kind::NODE" | .EDGE => "Entity_kind::EDGE" | .FACE => "Entity_kind::FACE"
  | .CELL => "Entity_kind::CELL" | .SIDE => "Entity_kind::SIDE" | .WEDGE => "Entity_kind::WEDGE"
  | .CORNER => "Entity_kind::CORNER" | .FACET => "Entity_kind::FACET"
  | .BOUNDARY_FACE => "Entity_kind::BOUNDARY_FACE"

def EntityType.ownName : EntityType → String
  | .TYPE_UNKNOWN => "Entity_type::TYPE_UNKNOWN" | .DELETED => "Entity_type::DELETED"
  | .PARALLEL_OWNED => "Entity_type::PARALLEL_OWNED" | .PARALLEL_GHOST => "Entity_type::PARALLEL_GHOST"
  | .BOUNDARY_GHOST => "Entity_type::BOUNDARY_GHOST" | .ALL => "Entity_type::ALL"

def CellType.ownName : CellType → String
  | .CELLTYPE_UNKNOWN => "Cell_type::CELLTYPE_UNKNOWN" | .TRI => "Cell_type::TRI"
  | .QUAD => "Cell_type::QUAD" | .POLYGON => "Cell_type::POLYGON" | .TET => "Cell_type::TET"
  | .PRISM => "Cell_type::PRISM" | .PYRAMID => "Cell_type::PYRAMID" | .HEX => "Cell_type::HEX"
  | .POLYHED => "Cell_type::POLYHED"

def PartitionerType.ownName : PartitionerType → String
  | .INDEX => "Partitioner_type::INDEX" | .BLOCK => "Partitioner_type::BLOCK"
  | .METIS => "Partitioner_type::METIS" | .ZOLTAN_GRAPH => "Partitioner_type::ZOLTAN_GRAPH"
  | .ZOLTAN_RCB => "Partitioner_type::ZOLTAN_RCB"

end Jali
