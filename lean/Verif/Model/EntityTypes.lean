import Verif.Model.Sides
import Verif.Model.MeshCache
/-
Types of entities and lists of entities: `cache_type_info` (src/mesh/Mesh.cc:79-110), `cache_extra_variables` (565-594) as far
as it concerns lists, `entity_get_type` (2308-2350), `num_entities` and the lists (src/mesh/Mesh.hh:1550-1995).
Manifold dimension 2 or 3. Out-of-range accesses are the outcome `none`.
-/
namespace Jali.Types
open Jali.Sides

/-- `nodeids_owned_`, `nodeids_ghost_` (Mesh.hh:1382), likewise for edges and faces (1383-1384); the list of all of them is
filled with the owned ones, then the ghosts (Mesh_MSTK.cc:3427-3444, Mesh_simple.cc:326-330) -/
structure Two where
  owned : List Nat
  ghost : List Nat

def Two.all (l : Two) : List Nat := l.owned ++ l.ghost

/-- `cellids_owned_`, `cellids_ghost_`, `cellids_boundary_ghost_` (Mesh.hh:1391-1392); all: Mesh_MSTK.cc:3563-3591 -/
structure Three where
  owned : List Nat
  ghost : List Nat
  bndry : List Nat

def Three.all (l : Three) : List Nat := l.owned ++ l.ghost ++ l.bndry

/-- What the framework provides: the lists and the connectivity; `topo.cells`, `topo.ncells`, ... and `topo.cellType` are not
used, see `source`. `req` are the requests after the constructor's implications. -/
structure Base where
  nodes : Two
  edges : Two
  faces : Two
  cells : Three
  topo : Src
  req : MeshCache.Request

/-- `for (auto const& e : list) type[e] = ty` (Mesh.cc:81-107) -/
def mark (ty : EntityType) : List Nat → List EntityType → Option (List EntityType)
  | [], a => some a
  | e :: es, a => if e < a.length then mark ty es (a.set e ty) else none

/-- `node_type`, and `face_type`, `edge_type` (Mesh.cc:88-107); `resize` fills with 0, which is `DELETED` (MeshDefs.hh:163) -/
def typesOfTwo (l : Two) : Option (List EntityType) :=
  (mark .PARALLEL_OWNED l.owned (List.replicate (l.owned.length + l.ghost.length) .DELETED)).bind (mark .PARALLEL_GHOST l.ghost)

/-- `cell_type` (Mesh.cc:80-86) -/
def typesOfThree (l : Three) : Option (List EntityType) :=
  ((mark .PARALLEL_OWNED l.owned (List.replicate (l.owned.length + l.ghost.length + l.bndry.length) .DELETED)).bind
    (mark .PARALLEL_GHOST l.ghost)).bind (mark .BOUNDARY_GHOST l.bndry)

/-- `cell_type`, `face_type`, `edge_type`, `node_type` -/
structure TypeInfo where
  cell : List EntityType
  face : List EntityType
  edge : List EntityType
  node : List EntityType

/-- `cache_type_info` (Mesh.cc:79-110) -/
def cacheTypeInfo (b : Base) : Option TypeInfo :=
  (typesOfThree b.cells).bind fun cell =>
  (if b.req.faces then typesOfTwo b.faces else some []).bind fun face =>
  (if b.req.edges then typesOfTwo b.edges else some []).bind fun edge =>
  (typesOfTwo b.nodes).map fun node => ⟨cell, face, edge, node⟩

/-- What the side, wedge and corner code asks the mesh: `cells()`, the counts of all cells, edges and nodes
(Mesh.hh:1573-1722) and `cell_type` are those above. -/
def source (b : Base) (t : TypeInfo) : Src :=
  { b.topo with
    cells := b.cells.all
    ncells := b.cells.owned.length + b.cells.ghost.length + b.cells.bndry.length
    nedges := b.edges.owned.length + b.edges.ghost.length
    nnodes := b.nodes.owned.length + b.nodes.ghost.length
    cellType := fun c => (t.cell[c]?).getD .DELETED }

/-- The caches; what was not computed is `none`. -/
structure Caches where
  types : TypeInfo
  side : Option Info
  wedge : Option WedgeLists
  corner : Option CornerInfo

/-- `some` of the result of a computation, if it is to be done; the outer `none` is its undefined behaviour -/
def whenOpt {α : Type} (c : Bool) (x : Option α) : Option (Option α) := if c then x.map some else some none

/-- `cache_extra_variables` (Mesh.cc:565-594) after `cache_type_info`: sides if any of the three is requested, wedges if wedges or
corners are, then corners -/
def cacheExtra (b : Base) : Option Caches :=
  (cacheTypeInfo b).bind fun t =>
  let m := source b t
  (whenOpt (b.req.sides || b.req.wedges || b.req.corners) (cacheSideInfo m)).bind fun side =>
  (whenOpt (b.req.wedges || b.req.corners) (side.bind (cacheWedgeInfo m))).bind fun wedge =>
  (whenOpt b.req.corners (side.bind (cacheCornerInfo m))).map fun corner => ⟨t, side, wedge, corner⟩

/-- `side_cell_id[s]` -/
def sideCell (c : Caches) (s : Nat) : Option Nat := (c.side.bind (·.side s)).map (·.cell)

/-- `entity_get_type` (Mesh.cc:2308-2350) -/
def entityGetType (b : Base) (c : Caches) (kind : EntityKind) (e : Nat) : Option EntityType :=
  match kind with
  | .CELL => c.types.cell[e]?
  | .FACE => if b.req.faces then c.types.face[e]? else some .TYPE_UNKNOWN
  | .EDGE => if b.req.edges then c.types.edge[e]? else some .TYPE_UNKNOWN
  | .NODE => c.types.node[e]?
  | .SIDE => if b.req.sides then (sideCell c e).bind fun k => c.types.cell[k]? else some .TYPE_UNKNOWN
  | .WEDGE => if b.req.wedges then (sideCell c (e / 2)).bind fun k => c.types.cell[k]? else some .TYPE_UNKNOWN
  | .CORNER =>
    if b.req.corners then
      (c.corner.bind fun k => (k.cornerWedges[e]?).bind (·.head?)).bind fun w =>
        (sideCell c (w / 2)).bind fun k => c.types.cell[k]?
    else some .TYPE_UNKNOWN
  | _ => some .TYPE_UNKNOWN

/-- the lists of nodes, edges and faces (Mesh.hh:1818-1881); `dummy_list_` for other types -/
def Two.ofType (l : Two) : EntityType → List Nat
  | .PARALLEL_OWNED => l.owned
  | .PARALLEL_GHOST => l.ghost
  | .ALL => l.all
  | _ => []

/-- `nodes<type>()`, `edges<type>()`, `faces<type>()`, `sides<type>()`, `wedges<type>()`, `corners<type>()`, `cells<type>()`
(Mesh.hh:1818-1992). Sides: `sideids_all_` is filled in the loop (Mesh.cc:389), wedges and corners: concatenation. Lists that were
never filled are empty. -/
def entities (b : Base) (c : Caches) (kind : EntityKind) (type : EntityType) : List Nat :=
  match kind with
  | .NODE => b.nodes.ofType type
  | .EDGE => b.edges.ofType type
  | .FACE => b.faces.ofType type
  | .SIDE =>
    match c.side, type with
    | some i, .PARALLEL_OWNED => i.owned.arr
    | some i, .PARALLEL_GHOST => i.ghost.arr
    | some i, .BOUNDARY_GHOST => i.bndry.arr
    | some i, .ALL => i.all.arr
    | _, _ => []
  | .WEDGE =>
    match c.wedge, type with
    | some l, .PARALLEL_OWNED => l.owned
    | some l, .PARALLEL_GHOST => l.ghost
    | some l, .BOUNDARY_GHOST => l.bndry
    | some l, .ALL => l.all
    | _, _ => []
  | .CORNER =>
    match c.corner, type with
    | some k, .PARALLEL_OWNED => k.owned.arr
    | some k, .PARALLEL_GHOST => k.ghost.arr
    | some k, .BOUNDARY_GHOST => k.bndry.arr
    | some k, .ALL => k.all
    | _, _ => []
  | .CELL =>
    match type with
    | .PARALLEL_OWNED => b.cells.owned
    | .PARALLEL_GHOST => b.cells.ghost
    | .BOUNDARY_GHOST => b.cells.bndry
    | .ALL => b.cells.all
    | _ => []
  | _ => []

/-- `num_nodes<type>()`, `num_edges<type>()`, `num_faces<type>()` as `num_entities` calls them (Mesh.hh:1559-1618, 1727-1757) -/
def Two.num (l : Two) : EntityType → Nat
  | .PARALLEL_OWNED => l.owned.length
  | .PARALLEL_GHOST => l.ghost.length
  | .ALL => l.owned.length + l.ghost.length
  | _ => 0

/-- the same for kinds with boundary ghosts (Mesh.hh:1620-1722, 1758-1804): the lengths of three lists -/
def num3 (owned ghost bndry : Nat) : EntityType → Nat
  | .PARALLEL_OWNED => owned
  | .PARALLEL_GHOST => ghost
  | .BOUNDARY_GHOST => bndry
  | .ALL => owned + ghost + bndry
  | _ => 0

/-- `num_entities` (Mesh.hh:1725-1808) -/
def numEntities (b : Base) (c : Caches) (kind : EntityKind) (type : EntityType) : Nat :=
  match kind with
  | .NODE => b.nodes.num type
  | .EDGE => b.edges.num type
  | .FACE => b.faces.num type
  | .SIDE =>
    match c.side with
    | some i => num3 i.owned.arr.length i.ghost.arr.length i.bndry.arr.length type
    | none => 0
  | .WEDGE =>
    match c.wedge with
    | some l => num3 l.owned.length l.ghost.length l.bndry.length type
    | none => 0
  | .CORNER =>
    match c.corner with
    | some k => num3 k.owned.arr.length k.ghost.arr.length k.bndry.arr.length type
    | none => 0
  | .CELL => num3 b.cells.owned.length b.cells.ghost.length b.cells.bndry.length type
  | _ => 0

end Jali.Types
