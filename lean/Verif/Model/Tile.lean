import Verif.Model.MeshDefs
import Verif.Model.Partition
/-
Model of mesh tiles: class `MeshTile` (src/mesh/MeshTile.cc, MeshTile.hh), `Mesh::build_tiles`, `init_tiles`,
`add_tile` (src/mesh/Mesh.cc:598-636) and the master-tile tables (src/mesh/Mesh.hh:386-411, 1316-1340).

The mesh is arbitrary: it is given by its counts and by the answers of its downward and adjacency queries. Ids are `Nat`.
An access past the end of a master-tile table is undefined behaviour, the outcome `none`.
-/
namespace Jali.Tile

/-- What the tile code asks the mesh: `num_cells()`, `num_nodes()`, ... (all types) and the queries
`cell_get_node_adj_cells(c, ALL)`, `cell_get_nodes`, `cell_get_faces`, `cell_get_edges`, `cell_get_sides`,
`cell_get_wedges`, `cell_get_corners`. -/
structure Topo where
  ncells : Nat
  nnodes : Nat
  nfaces : Nat
  nedges : Nat
  cellAdj : Nat → List Nat
  cellNodes : Nat → List Nat
  cellFaces : Nat → List Nat
  cellEdges : Nat → List Nat
  cellSides : Nat → List Nat
  cellWedges : Nat → List Nat
  cellCorners : Nat → List Nat

/-- The `request_*` arguments of the tile constructor; in `build_tiles` they are the flags `*_requested` of the mesh
(Mesh.cc:613-615). -/
structure Flags where
  faces : Bool
  edges : Bool
  sides : Bool
  wedges : Bool
  corners : Bool
deriving DecidableEq

/-- Assumption on the mesh, not code: its queries stay inside the mesh; only the queries that are made are constrained. -/
structure Topo.Valid (T : Topo) (fl : Flags) : Prop where
  adj : ∀ c < T.ncells, ∀ x ∈ T.cellAdj c, x < T.ncells
  nodes : ∀ c < T.ncells, ∀ x ∈ T.cellNodes c, x < T.nnodes
  faces : fl.faces = true → ∀ c < T.ncells, ∀ x ∈ T.cellFaces c, x < T.nfaces
  edges : fl.edges = true → ∀ c < T.ncells, ∀ x ∈ T.cellEdges c, x < T.nedges

/-- The three lists a tile stores per kind (`xxxids_owned_`, `xxxids_ghost_`, `xxxids_all_`, MeshTile.hh:318-324). -/
structure Lists where
  owned : List Nat := []
  ghost : List Nat := []
  all : List Nat := []
deriving DecidableEq, Repr

/-- Data members (MeshTile.hh:312-325). -/
structure Tile where
  id : Nat
  nodes : Lists
  edges : Lists
  faces : Lists
  sides : Lists
  wedges : Lists
  corners : Lists
  cells : Lists
deriving DecidableEq, Repr

/-- `tiles_initialized_`, the master-tile tables and `meshtiles` (Mesh.hh:1357-1360). -/
structure Mesh where
  init : Bool := false
  node : List Int := []
  edge : List Int := []
  face : List Int := []
  cell : List Int := []
  tiles : List Tile := []

/-- One halo layer (MeshTile.cc:103-121): the neighbours `nbrs` of one cell, tested against the layer under
construction and against `cellids_all_`. -/
def layerOfCell (all : List Nat) : (nbrs layer : List Nat) → List Nat
  | [], layer => layer
  | n :: ns, layer =>
    if n ∈ layer then layerOfCell all ns layer
    else if n ∈ all then layerOfCell all ns layer
    else layerOfCell all ns (layer ++ [n])

/-- `for (c : cellids_all_) ...` (MeshTile.cc:105-121), starting from an empty `next_halo_layer`. -/
def haloLayer (adj : Nat → List Nat) (all : List Nat) : List Nat :=
  all.foldl (fun layer c => layerOfCell all (adj c) layer) []

/-- `for (i = 0; i < num_halo_layers; ++i)` (MeshTile.cc:98-128): returns (`cellids_all_`, `cellids_ghost_`). A
number of layers ≤ 0 does nothing. -/
def halo (adj : Nat → List Nat) : Nat → List Nat × List Nat → List Nat × List Nat
  | 0, s => s
  | n + 1, (all, ghost) =>
    let layer := haloLayer adj all
    halo adj n (all ++ layer, ghost ++ layer)

/-- `set_master_tile_ID_of_xxx(e, t)` (Mesh.hh:1318-1333) -/
def setMaster (m : List Int) (e t : Nat) : Option (List Int) :=
  if e < m.length then some (m.set e (t : Int)) else none

/-- `master_tile_ID_of_xxx(e)` (Mesh.hh:388-399) -/
def getMaster (init : Bool) (m : List Int) (e : Nat) : Option Int :=
  if init then m[e]? else some (-1)

/-- `for (c : cellids_owned_) set_master_tile_ID_of_cell(c, mytileid_)` (MeshTile.cc:133-134) -/
def setMasters (t : Nat) : List Nat → List Int → Option (List Int)
  | [], m => some m
  | e :: es, m => (setMaster m e t).bind (setMasters t es)

/-- Progress of the loops that collect the nodes (faces, edges): master table, owned list, ghost list. -/
structure Coll where
  master : List Int
  owned : List Nat
  ghost : List Nat

/-- Body of the loop over the entities of owned cells (MeshTile.cc:141-154, 181-194, 219-232). -/
def ownStep (init : Bool) (t : Nat) (s : Coll) (e : Nat) : Option Coll :=
  (getMaster init s.master e).bind fun tileid =>
    if tileid = -1 then
      (setMaster s.master e t).map fun m => { s with master := m, owned := s.owned ++ [e] }
    else if tileid ≠ (t : Int) ∧ e ∉ s.ghost then some { s with ghost := s.ghost ++ [e] }
    else some s

/-- Body of the loop over the entities of ghost cells (MeshTile.cc:160-166, 200-206, 238-244). -/
def ghostStep (init : Bool) (t : Nat) (s : Coll) (e : Nat) : Option Coll :=
  (getMaster init s.master e).bind fun tileid =>
    if tileid ≠ (t : Int) ∧ e ∉ s.ghost then some { s with ghost := s.ghost ++ [e] } else some s

/-- `for (e : ents) body(e)` -/
def each (step : Coll → Nat → Option Coll) : List Nat → Coll → Option Coll
  | [], s => some s
  | e :: es, s => (step s e).bind (each step es)

/-- `for (c : cells) { ents = query(c); for (e : ents) body(e) }` -/
def eachOfCells (step : Coll → Nat → Option Coll) (query : Nat → List Nat) : List Nat → Coll → Option Coll
  | [], s => some s
  | c :: cs, s => (each step (query c) s).bind (eachOfCells step query cs)

/-- The lists of nodes (MeshTile.cc:138-172), faces (176-212), edges (216-251): the new master table and the three
lists. -/
def collect (init : Bool) (t : Nat) (query : Nat → List Nat) (ownedCells ghostCells : List Nat)
    (master : List Int) : Option (List Int × Lists) :=
  (eachOfCells (ownStep init t) query ownedCells ⟨master, [], []⟩).bind fun s1 =>
    (eachOfCells (ghostStep init t) query ghostCells s1).map fun s2 =>
      (s2.master, { owned := s2.owned, ghost := s2.ghost, all := s2.owned ++ s2.ghost })

/-- The lists of sides (MeshTile.cc:254-269), wedges (273-288), corners (292-308). -/
def gather (query : Nat → List Nat) (ownedCells ghostCells : List Nat) : Lists :=
  let owned := ownedCells.flatMap query
  let ghost := ghostCells.flatMap query
  { owned, ghost, all := owned ++ ghost }

/-- `MeshTile` constructor (MeshTile.cc:86-310), with the master tables it changes in the mesh. Sides are under
`if (request_wedges)` (line 253), as in the source. -/
def construct (T : Topo) (M : Mesh) (cells : List Nat) (layers : Nat) (fl : Flags) : Option (Mesh × Tile) :=
  let t := M.tiles.length
  let h := halo T.cellAdj layers (cells, [])
  let all := h.1
  let ghost := h.2
  (setMasters t cells M.cell).bind fun mcell =>
  (collect M.init t T.cellNodes cells ghost M.node).bind fun cn =>
  (if fl.faces then collect M.init t T.cellFaces cells ghost M.face else some (M.face, {})).bind fun cf =>
  (if fl.edges then collect M.init t T.cellEdges cells ghost M.edge else some (M.edge, {})).bind fun ce =>
  some ({ M with cell := mcell, node := cn.1, face := cf.1, edge := ce.1 },
    { id := t, nodes := cn.2, faces := cf.2, edges := ce.2
      sides := if fl.wedges then gather T.cellSides cells ghost else {}
      wedges := if fl.wedges then gather T.cellWedges cells ghost else {}
      corners := if fl.corners then gather T.cellCorners cells ghost else {}
      cells := { owned := cells, ghost := ghost, all := all } })

/-- `v.resize(n, -1)` -/
def resizeMinusOne (v : List Int) (n : Nat) : List Int := (v ++ List.replicate (n - v.length) (-1)).take n

/-- `Mesh::init_tiles` (Mesh.cc:621-627); `mfl` are the flags of the mesh. -/
def initTiles (T : Topo) (mfl : Flags) (M : Mesh) : Mesh :=
  { M with
    init := true
    node := resizeMinusOne M.node T.nnodes
    edge := if mfl.edges then resizeMinusOne M.edge T.nedges else M.edge
    face := if mfl.faces then resizeMinusOne M.face T.nfaces else M.face
    cell := resizeMinusOne M.cell T.ncells }

/-- `make_meshtile` (MeshTile.cc:317-346) with `Mesh::add_tile` (Mesh.cc:632-634). -/
def makeMeshtile (T : Topo) (mfl : Flags) (M : Mesh) (cells : List Nat) (layers : Nat) (fl : Flags) : Option Mesh :=
  let M1 := if M.tiles.length = 0 then initTiles T mfl M else M
  (construct T M1 cells layers fl).map fun r => { r.1 with tiles := r.1.tiles ++ [r.2] }

/-- the loop of `Mesh::build_tiles` over the parts (Mesh.cc:610-615) -/
def makeTiles (T : Topo) (mfl : Flags) (layers : Nat) : List (List Nat) → Mesh → Option Mesh
  | [], M => some M
  | p :: ps, M => (makeMeshtile T mfl M p layers mfl).bind (makeTiles T mfl layers ps)

/-- `Mesh::build_tiles` (Mesh.cc:598-616) after `get_partitioning` filled `partitions`. -/
def buildTiles (T : Topo) (mfl : Flags) (layers : Nat) (partitions : List (List Nat)) : Option Mesh :=
  makeTiles T mfl layers partitions {}

/-- `master_tile_ID_of_node`, `_edge`, `_face`, `_cell` (Mesh.hh:388-399). -/
def Mesh.masterOfNode (M : Mesh) (e : Nat) : Option Int := getMaster M.init M.node e
@[inherit_doc Mesh.masterOfNode]
def Mesh.masterOfEdge (M : Mesh) (e : Nat) : Option Int := getMaster M.init M.edge e
@[inherit_doc Mesh.masterOfNode]
def Mesh.masterOfFace (M : Mesh) (e : Nat) : Option Int := getMaster M.init M.face e
@[inherit_doc Mesh.masterOfNode]
def Mesh.masterOfCell (M : Mesh) (e : Nat) : Option Int := getMaster M.init M.cell e

/-- `master_tile_ID_of_side`, `_wedge`, `_corner` (Mesh.hh:400-411); `cellOf` is `side_get_cell` etc. -/
def Mesh.masterOfSub (M : Mesh) (cellOf : Nat → Nat) (s : Nat) : Option Int := getMaster M.init M.cell (cellOf s)

/-- `MeshTile::nodes<ptype>()` and the other list queries (MeshTile.hh:570-760): the list for the three types that
have one, an empty list otherwise. -/
def Lists.get (l : Lists) : EntityType → List Nat
  | .PARALLEL_OWNED => l.owned
  | .PARALLEL_GHOST => l.ghost
  | .ALL => l.all
  | _ => []

/-- `MeshTile::num_nodes<ptype>()` etc. (MeshTile.hh:343-484): `ALL` is the sum of the other two. -/
def Lists.num (l : Lists) : EntityType → Nat
  | .PARALLEL_OWNED => l.owned.length
  | .PARALLEL_GHOST => l.ghost.length
  | .ALL => l.owned.length + l.ghost.length
  | _ => 0

/-- the lists of one kind; kinds without lists have none -/
def Tile.lists (t : Tile) : EntityKind → Option Lists
  | .NODE => some t.nodes
  | .EDGE => some t.edges
  | .FACE => some t.faces
  | .SIDE => some t.sides
  | .WEDGE => some t.wedges
  | .CORNER => some t.corners
  | .CELL => some t.cells
  | _ => none

/-- `MeshTile::num_entities` (MeshTile.hh:488-566). -/
def Tile.numEntities (t : Tile) (k : EntityKind) (ptype : EntityType) : Nat :=
  ((t.lists k).map (·.num ptype)).getD 0

/-- `MeshTile::get_set_entities` and `get_xxx_of_set` (MeshTile.cc:351-570): `meshSet ptype` is the answer of
`Mesh::get_set_entities(setname, kind, ptype)`. -/
def Tile.getSetEntities (t : Tile) (k : EntityKind) (ptype : EntityType) (meshSet : EntityType → List Nat) : List Nat :=
  match t.lists k with
  | none => []
  | some l =>
    match ptype with
    | .PARALLEL_OWNED => (meshSet ptype).filter (· ∈ l.owned)
    | .PARALLEL_GHOST => (meshSet ptype).filter (· ∈ l.ghost)
    | .ALL => (meshSet ptype).filter (· ∈ l.all)
    | _ => []

end Jali.Tile
