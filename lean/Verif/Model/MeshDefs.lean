/-
Model of the enumerations of src/mesh/MeshDefs.hh and their printable names.
Enumerators are constructors, the numeric value is a separate function; the string tables are indexed by the
numeric value as in the code.
-/
namespace Jali

/-- `enum class Entity_kind : int8_t` (MeshDefs.hh:109-123) -/
inductive EntityKind where
  | ALL_KIND | ANY_KIND | UNKNOWN_KIND | NODE | EDGE | FACE | CELL | SIDE | WEDGE | CORNER | FACET
  | BOUNDARY_FACE
deriving DecidableEq, Repr

/-- `enum class Entity_type : int8_t` (MeshDefs.hh:160-167) -/
inductive EntityType where
  | TYPE_UNKNOWN | DELETED | PARALLEL_OWNED | PARALLEL_GHOST | BOUNDARY_GHOST | ALL
deriving DecidableEq, Repr

/-- `enum class Cell_type : uint8_t` (MeshDefs.hh:206-216) -/
inductive CellType where
  | CELLTYPE_UNKNOWN | TRI | QUAD | POLYGON | TET | PRISM | PYRAMID | HEX | POLYHED
deriving DecidableEq, Repr

/-- `enum class Partitioner_type : uint8_t` (MeshDefs.hh:250-256) -/
inductive PartitionerType where
  | INDEX | BLOCK | METIS | ZOLTAN_GRAPH | ZOLTAN_RCB
deriving DecidableEq, Repr

/-- numeric values, MeshDefs.hh:110-122 -/
def EntityKind.code : EntityKind → Int
  | .ALL_KIND => -3 | .ANY_KIND => -2 | .UNKNOWN_KIND => -1 | .NODE => 0 | .EDGE => 1 | .FACE => 2
  | .CELL => 3 | .SIDE => 4 | .WEDGE => 5 | .CORNER => 6 | .FACET => 7 | .BOUNDARY_FACE => 8

/-- numeric values, MeshDefs.hh:161-166 -/
def EntityType.code : EntityType → Int
  | .TYPE_UNKNOWN => -1 | .DELETED => 0 | .PARALLEL_OWNED => 1 | .PARALLEL_GHOST => 2
  | .BOUNDARY_GHOST => 3 | .ALL => 4

/-- numeric values, MeshDefs.hh:207-215 -/
def CellType.code : CellType → Int
  | .CELLTYPE_UNKNOWN => 0 | .TRI => 1 | .QUAD => 2 | .POLYGON => 3 | .TET => 4 | .PRISM => 5
  | .PYRAMID => 6 | .HEX => 7 | .POLYHED => 8

/-- numeric values, MeshDefs.hh:251-255 -/
def PartitionerType.code : PartitionerType → Int
  | .INDEX => 0 | .BLOCK => 1 | .METIS => 2 | .ZOLTAN_GRAPH => 3 | .ZOLTAN_RCB => 4

/-- Look-up in a C array of strings; `none` would be a read past the array. -/
def tableRead (t : List String) (i : Int) : Option String :=
  if i < 0 then none else t[i.toNat]?

/-- `Entity_kind_string` (MeshDefs.hh:129-140) -/
def entityKindString (k : EntityKind) : Option String :=
  if k.code ≥ 0 ∧ k.code < 9 then
    tableRead ["Entity_kind::NODE", "Entity_kind::EDGE", "Entity_kind::FACE", "Entity_kind::CELL",
      "Entity_kind::SIDE", "Entity_kind::WEDGE", "Entity_kind::CORNER", "Entity_kind::FACET",
      "Entity_kind::BOUNDARY_FACE"] k.code
  else some ""

/-- `valid_entity_type` (MeshDefs.hh:173-177), `NUM_ENTITY_TYPES = 6` -/
def validEntityType (t : EntityType) : Bool := t.code ≥ 0 ∧ t.code < 6

/-- `Entity_type_string` (MeshDefs.hh:180-190): the table starts with the name of the value -1 but is indexed
by the value itself -/
def entityTypeString (t : EntityType) : Option String :=
  if validEntityType t then
    tableRead ["Entity_type::TYPE_UNKNOWN", "Entity_type::DELETED", "Entity_type::PARALLEL_OWNED",
      "Entity_type::PARALLEL_GHOST", "Entity_type::BOUNDARY_GHOST", "Entity_type::ALL"] t.code
  else some ""

/-- `Cell_type_string` (MeshDefs.hh:222-232) -/
def cellTypeString (t : CellType) : Option String :=
  if t.code ≥ 0 ∧ t.code < 9 then
    tableRead ["Cell_type::CELLTYPE_UNKNOWN", "Cell_type::TRI", "Cell_type::QUAD", "Cell_type::POLYGON",
      "Cell_type::TET", "Cell_type::PRISM", "Cell_type::PYRAMID", "Cell_type::HEX", "Cell_type::POLYHED"]
      t.code
  else some ""

/-- `Partitioner_type_string` (MeshDefs.hh:262-272) -/
def partitionerTypeString (t : PartitionerType) : Option String :=
  if t.code ≥ 0 ∧ t.code < 5 then
    tableRead ["Partitioner_type::INDEX", "Partitioner_type::BLOCK", "Partitioner_type::METIS",
      "Partitioner_type::ZOLTAN_GRAPH", "Partitioner_type::ZOLTAN_RCB"] t.code
  else some ""

/-- `entity_valid_kind` (MeshDefs.hh:151-153) -/
def entityValidKind (k : EntityKind) : Bool := k.code ≥ EntityKind.NODE.code ∧ k.code ≤ EntityKind.CELL.code

/-- `cell_valid_type` (MeshDefs.hh:243-245) -/
def cellValidType (t : CellType) : Bool := t.code ≥ CellType.TRI.code ∧ t.code ≤ CellType.POLYHED.code

end Jali
