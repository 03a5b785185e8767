import Verif.Model.MeshDefs
/-
Model of sides, wedges and corners: `cache_side_info`, `cache_wedge_info`, `cache_corner_info` (src/mesh/Mesh.cc:229-554)
and the queries that read the caches (src/mesh/Mesh.hh:2014-2178, Mesh.cc:920-1021).

The mesh is arbitrary, given by the answers of its downward queries. Vectors sized with `resize` are lists of that
length; a read or write past the end is undefined behaviour, the outcome `none`. The arrays indexed by side that are written at
the same index at the same time (`side_node_ids`, `side_edge_id`, `side_edge_use`, `side_face_id`, `side_cell_id`) are one
array of records. `reserve` is dropped.
-/
namespace Jali.Sides

/-- What the cache code asks the mesh: `cells()`, counts of all cells, edges and nodes, `cell_type`,
`cell_get_faces_and_dirs`, `face_get_edges_and_dirs` (each with its direction ±1), `edge_get_nodes`, `cell_get_nodes`. -/
structure Src where
  manifoldDim : Nat
  cells : List Nat
  ncells : Nat
  nedges : Nat
  nnodes : Nat
  cellType : Nat → EntityType
  cellFaces : Nat → List (Nat × Int)
  faceEdges : Nat → List (Nat × Int)
  edgeNodes : Nat → Nat × Nat
  cellNodes : Nat → List Nat

/-- One entry of the side arrays. -/
structure Rec where
  node0 : Nat
  node1 : Nat
  edge : Nat
  use : Bool
  face : Nat
  cell : Nat
deriving DecidableEq, Repr

/-- A vector filled through a running index, `v[i++] = x`. -/
structure Fill where
  arr : List Nat
  i : Nat
deriving DecidableEq, Repr

def Fill.new (n : Nat) : Fill := ⟨List.replicate n 0, 0⟩

/-- `v[i++] = x` -/
def Fill.push (v : Fill) (x : Nat) : Option Fill :=
  if v.i < v.arr.length then some ⟨v.arr.set v.i x, v.i + 1⟩ else none

/-- `v[i].push_back(x)` -/
def pushBackAt (v : List (List Nat)) (i x : Nat) : Option (List (List Nat)) :=
  if i < v.length then some (v.modify i (· ++ [x])) else none

/-- `v[i] = x` -/
def assign {α : Type} (v : List α) (i : Nat) (x : α) : Option (List α) :=
  if i < v.length then some (v.set i x) else none

/-- One iteration of the three nested loops over cells, faces of the cell and edges of the face. -/
structure Visit where
  cell : Nat
  face : Nat
  fdir : Int
  edge : Nat
  edir : Int
deriving DecidableEq, Repr

/-- The iterations in order (Mesh.cc:340-358). -/
def visits (m : Src) : List Visit :=
  m.cells.flatMap fun c => (m.cellFaces c).flatMap fun f => (m.faceEdges f.1).map fun e => ⟨c, f.1, f.2, e.1, e.2⟩

/-- The counting loop (Mesh.cc:252-275), restricted to the cells whose type satisfies `p`. -/
def countSides (m : Src) (p : EntityType → Bool) : Nat :=
  (m.cells.map fun c => ((m.cellFaces c).map fun f => if p (m.cellType c) then (m.faceEdges f.1).length else 0).sum).sum

/-- Side arrays after caching (Mesh.hh: `side_*`, `cell_side_ids`, `sideids_*`). -/
structure Info where
  recs : List (Option Rec)
  opp : List Int
  cellSides : List (List Nat)
  all : Fill
  owned : Fill
  ghost : Fill
  bndry : Fill

/-- State of the loop: the arrays, `sides_of_edge` and `sideid`. -/
structure St extends Info where
  sidesOfEdge : List (List Nat)
  sideid : Nat

/-- Node order and edge use of the new side (Mesh.cc:360-384). -/
def mkRec (m : Src) (v : Visit) : Rec :=
  let en := m.edgeNodes v.edge
  if m.manifoldDim = 2 then
    { node0 := if v.fdir = 1 then en.1 else en.2
      node1 := if v.fdir = 1 then en.2 else en.1
      use := v.fdir = 1
      edge := v.edge, face := v.face, cell := v.cell }
  else
    let fdir01 := (v.fdir + 1) / 2
    let edir01 := (v.edir + 1) / 2
    let dir := fdir01 != edir01  -- exclusive or of two bits
    { node0 := if dir then en.1 else en.2
      node1 := if dir then en.2 else en.1
      use := dir
      edge := v.edge, face := v.face, cell := v.cell }

/-- The search for the opposite side among the sides of the edge (Mesh.cc:403-410); outer `none` is an access out of
range, an unset entry matches nothing. -/
def findOpp (recs : List (Option Rec)) (v : Visit) : List Nat → Option (Option Nat)
  | [] => some none
  | s2 :: ss =>
    match recs[s2]? with
    | none => none
    | some none => findOpp recs v ss
    | some (some r) =>
      if r.edge = v.edge ∧ r.face = v.face ∧ r.cell ≠ v.cell then some (some s2) else findOpp recs v ss

/-- The new side goes into the list for the type of its cell (Mesh.cc:391-397); anything that is neither owned nor
boundary ghost counts as ghost. -/
def listSide (ty : EntityType) (owned ghost bndry : Fill) (s : Nat) : Option (Fill × Fill × Fill) :=
  match ty with
  | .PARALLEL_OWNED => (owned.push s).map fun o => (o, ghost, bndry)
  | .BOUNDARY_GHOST => (bndry.push s).map fun b => (owned, ghost, b)
  | _ => (ghost.push s).map fun g => (owned, g, bndry)

/-- `side_opp_side_id[sideid] = s2; side_opp_side_id[s2] = sideid` if an opposite side was found (Mesh.cc:406-407). -/
def linkOpp (opp : List Int) (s : Nat) (found : Option Nat) : Option (List Int) :=
  match found with
  | none => some opp
  | some s2 => (assign opp s (s2 : Int)).bind fun o => assign o s2 (s : Int)

/-- Loop body (Mesh.cc:359-413). -/
def body (m : Src) (st : St) (v : Visit) : Option St :=
  (assign st.recs st.sideid (some (mkRec m v))).bind fun recs =>
  (pushBackAt st.cellSides v.cell st.sideid).bind fun cellSides =>
  (st.all.push st.sideid).bind fun all =>
  (listSide (m.cellType v.cell) st.owned st.ghost st.bndry st.sideid).bind fun ogb =>
  (st.sidesOfEdge[v.edge]?).bind fun ss =>
  (findOpp recs v ss).bind fun found =>
  (linkOpp st.opp st.sideid found).bind fun opp =>
  (pushBackAt st.sidesOfEdge v.edge st.sideid).map fun soe =>
    { recs, opp, cellSides, all, owned := ogb.1, ghost := ogb.2.1, bndry := ogb.2.2
      sidesOfEdge := soe, sideid := st.sideid + 1 }

/-- the loop -/
def run (m : Src) : List Visit → St → Option St
  | [], st => some st
  | v :: vs, st => (body m st v).bind (run m vs)

/-- The arrays after the `resize` calls (Mesh.cc:278-288, 335-339). -/
def start (m : Src) : St :=
  let n := countSides m fun _ => true
  { recs := List.replicate n none
    opp := List.replicate n (-1)
    cellSides := List.replicate m.ncells []
    all := Fill.new n
    owned := Fill.new (countSides m (· == .PARALLEL_OWNED))
    ghost := Fill.new (countSides m (· == .PARALLEL_GHOST))
    bndry := Fill.new (countSides m (· == .BOUNDARY_GHOST))
    sidesOfEdge := List.replicate m.nedges []
    sideid := 0 }

/-- `cache_side_info` for manifold dimension 2 or 3 (Mesh.cc:229-426). -/
def cacheSideInfo (m : Src) : Option Info := (run m (visits m) (start m)).map (·.toInfo)

/-- `side_get_face`, `side_get_edge`, `side_get_edge_use`, `side_get_cell` (Mesh.hh:2022-2047) read one entry. -/
def Info.side (i : Info) (s : Nat) : Option Rec := (i.recs[s]?).bind id

/-- `side_get_node` (Mesh.hh:2050-2060). -/
def sideGetNode (m : Src) (i : Info) (s inode : Nat) : Option Nat :=
  (i.side s).map fun r =>
    let en := m.edgeNodes r.edge
    if (inode = 0) = (r.use = true) then en.1 else en.2

/-- `side_get_opposite_side` (Mesh.hh:2063-2067) -/
def Info.opposite (i : Info) (s : Nat) : Option Int := i.opp[s]?

/-- `cell_get_sides` (Mesh.cc:920-929) -/
def Info.cellGetSides (i : Info) (c : Nat) : Option (List Nat) := i.cellSides[c]?

/-- `side_get_wedge` (Mesh.hh:2016-2019) -/
def sideGetWedge (s iwedge : Nat) : Nat := if iwedge ≠ 0 then 2 * s + 1 else 2 * s

/-- `cell_get_wedges` (Mesh.cc:932-945) -/
def Info.cellGetWedges (i : Info) (c : Nat) : Option (List Nat) :=
  (i.cellSides[c]?).map fun cs => cs.flatMap fun s => [2 * s, 2 * s + 1]

/-- `wedge_get_side`, i.e. `wedgeid/2` (Mesh.hh:2073, 2081, 2089, 2097) -/
def wedgeGetSide (w : Nat) : Nat := w / 2

/-- `wedge_get_cell`, `wedge_get_face`, `wedge_get_edge` (Mesh.hh:2070-2091) -/
def Info.wedge (i : Info) (w : Nat) : Option Rec := i.side (wedgeGetSide w)

/-- `wedge_get_node` (Mesh.hh:2094-2100) -/
def wedgeGetNode (m : Src) (i : Info) (w : Nat) : Option Nat := sideGetNode m i (wedgeGetSide w) (w % 2)

/-- `wedge_get_adjacent_wedge` (Mesh.hh:2110-2119) -/
def wedgeAdjacent (w : Nat) : Nat := if w % 2 ≠ 0 then w - 1 else w + 1

/-- `wedge_get_opposite_wedge` (Mesh.hh:2122-2138) -/
def Info.wedgeOpposite (i : Info) (w : Nat) : Option Int :=
  (i.opposite (wedgeGetSide w)).map fun o =>
    if o = -1 then -1 else if w % 2 ≠ 0 then 2 * o else 2 * o + 1

/-- The lists built by `cache_wedge_info` (Mesh.cc:431-474): wedges of the sides in `sides()` order, by the type of the
cell. Cell types other than the three named are skipped. -/
structure WedgeLists where
  owned : List Nat
  ghost : List Nat
  bndry : List Nat
  all : List Nat
deriving DecidableEq, Repr

/-- the two wedges of side `s` go into the list for the type of the cell (Mesh.cc:454-463) -/
def listWedges (ty : EntityType) (l : Fill × Fill × Fill) (s : Nat) : Option (Fill × Fill × Fill) :=
  match ty with
  | .PARALLEL_OWNED => (l.1.push (2 * s)).bind fun o => (o.push (2 * s + 1)).map fun o => (o, l.2.1, l.2.2)
  | .PARALLEL_GHOST => (l.2.1.push (2 * s)).bind fun g => (g.push (2 * s + 1)).map fun g => (l.1, g, l.2.2)
  | .BOUNDARY_GHOST => (l.2.2.push (2 * s)).bind fun b => (b.push (2 * s + 1)).map fun b => (l.1, l.2.1, b)
  | _ => some l

/-- the loop of `cache_wedge_info` over `sides()` (Mesh.cc:449-464) -/
def wedgeLoop (m : Src) (i : Info) : List Nat → Fill × Fill × Fill → Option (Fill × Fill × Fill)
  | [], st => some st
  | s :: ss, (o, g, b) =>
    (i.side s).bind fun r =>
      (listWedges (m.cellType r.cell) (o, g, b) s).bind (wedgeLoop m i ss)

/-- `cache_wedge_info` (Mesh.cc:431-474) -/
def cacheWedgeInfo (m : Src) (i : Info) : Option WedgeLists :=
  (wedgeLoop m i i.all.arr (Fill.new (2 * i.owned.arr.length), Fill.new (2 * i.ghost.arr.length),
    Fill.new (2 * i.bndry.arr.length))).map fun r =>
      ⟨r.1.arr, r.2.1.arr, r.2.2.arr, r.1.arr ++ r.2.1.arr ++ r.2.2.arr⟩

/-- Corner arrays: `corner_wedge_ids`, `wedge_corner_id`, `cell_corner_ids`, `node_corner_ids`, `cornerids_*`. -/
structure CornerInfo where
  cornerWedges : List (List Nat)
  wedgeCorner : List Int
  cellCorners : List (List Nat)
  nodeCorners : List (List Nat)
  owned : Fill
  ghost : Fill
  bndry : Fill
  next : Nat

/-- The counting loop (Mesh.cc:495-507) restricted to the cells whose type satisfies `p`. -/
def countCorners (m : Src) (p : EntityType → Bool) : Nat :=
  (m.cells.map fun c => if p (m.cellType c) then (m.cellNodes c).length else 0).sum

/-- The inner loop over the wedges of the cell (Mesh.cc:534-540). -/
def cornerWedgeLoop (m : Src) (i : Info) (n : Nat) : List Nat → CornerInfo → Option CornerInfo
  | [], k => some k
  | w :: ws, k =>
    (wedgeGetNode m i w).bind fun n2 =>
      (if n = n2 then
        (pushBackAt k.cornerWedges k.next w).bind fun cw =>
          (assign k.wedgeCorner w (k.next : Int)).map fun wc => { k with cornerWedges := cw, wedgeCorner := wc }
      else some k).bind (cornerWedgeLoop m i n ws)

/-- the new corner goes into the list for the type of its cell (Mesh.cc:527-532) -/
def listCorner (ty : EntityType) (owned ghost bndry : Fill) (s : Nat) : Option (Fill × Fill × Fill) :=
  match ty with
  | .PARALLEL_OWNED => (owned.push s).map fun o => (o, ghost, bndry)
  | .PARALLEL_GHOST => (ghost.push s).map fun g => (owned, g, bndry)
  | .BOUNDARY_GHOST => (bndry.push s).map fun b => (owned, ghost, b)
  | _ => some (owned, ghost, bndry)

/-- The loop body for one node of one cell (Mesh.cc:523-543). -/
def cornerBody (m : Src) (i : Info) (cwedges : List Nat) (c n : Nat) (k : CornerInfo) : Option CornerInfo :=
  (pushBackAt k.cellCorners c k.next).bind fun cellCorners =>
  (pushBackAt k.nodeCorners n k.next).bind fun nodeCorners =>
  (listCorner (m.cellType c) k.owned k.ghost k.bndry k.next).bind fun ogb =>
  (cornerWedgeLoop m i n cwedges { k with cellCorners, nodeCorners, owned := ogb.1, ghost := ogb.2.1, bndry := ogb.2.2 }).map
    fun (k' : CornerInfo) => ({ k' with next := k'.next + 1 } : CornerInfo)

/-- the iterations (cell, node of the cell) of the corner loops, in order (Mesh.cc:516-523) -/
def cornerVisits (m : Src) : List (Nat × Nat) := m.cells.flatMap fun c => (m.cellNodes c).map fun n => (c, n)

/-- the corner loops; `cell_get_wedges` is called once per cell in the code and gives the same answer at each node -/
def cornerRun (m : Src) (i : Info) : List (Nat × Nat) → CornerInfo → Option CornerInfo
  | [], k => some k
  | (c, n) :: vs, k =>
    (i.cellGetWedges c).bind fun cwedges => (cornerBody m i cwedges c n k).bind (cornerRun m i vs)

/-- `cache_corner_info` (Mesh.cc:477-554), after `cache_wedge_info` sized `wedge_corner_id` (line 446). -/
def cacheCornerInfo (m : Src) (i : Info) : Option CornerInfo :=
  let nw := 2 * (i.owned.arr.length + i.ghost.arr.length + i.bndry.arr.length)
  cornerRun m i (cornerVisits m)
    { cornerWedges := List.replicate (countCorners m fun _ => true) []
      wedgeCorner := List.replicate nw (-1)
      cellCorners := List.replicate m.ncells []
      nodeCorners := List.replicate m.nnodes []
      owned := Fill.new (countCorners m (· == .PARALLEL_OWNED))
      ghost := Fill.new (countCorners m (· == .PARALLEL_GHOST))
      bndry := Fill.new (countCorners m (· == .BOUNDARY_GHOST))
      next := 0 }

/-- `corner_get_node` (Mesh.hh:2154-2164): the node of the first wedge; a corner without wedges fails the `assert`. -/
def cornerGetNode (m : Src) (i : Info) (k : CornerInfo) (cn : Nat) : Option Nat :=
  ((k.cornerWedges[cn]?).bind (·.head?)).bind (wedgeGetNode m i)

/-- `corner_get_cell` (Mesh.hh:2167-2178) -/
def cornerGetCell (i : Info) (k : CornerInfo) (cn : Nat) : Option Nat :=
  ((k.cornerWedges[cn]?).bind (·.head?)).bind fun w => (i.wedge w).map (·.cell)

/-- the loop of `cell_get_corner_at_node` -/
def cornerAtNodeLoop (m : Src) (i : Info) (k : CornerInfo) (n : Nat) : List Nat → Option Int
  | [] => some (-1)
  | cn :: cs => (cornerGetNode m i k cn).bind fun n' => if n' = n then some (cn : Int) else cornerAtNodeLoop m i k n cs

/-- `cell_get_corner_at_node` (Mesh.cc:960-974) -/
def cellGetCornerAtNode (m : Src) (i : Info) (k : CornerInfo) (c n : Nat) : Option Int :=
  (k.cellCorners[c]?).bind (cornerAtNodeLoop m i k n)

/-- `node_get_corners` for type ALL (Mesh.cc:1001-1005) -/
def nodeGetCorners (k : CornerInfo) (n : Nat) : Option (List Nat) := k.nodeCorners[n]?

/-- the loop of `node_get_corners` for a given type: the type of the cell of the first wedge of each corner -/
def nodeCornersLoop (m : Src) (i : Info) (k : CornerInfo) (ty : EntityType) : List Nat → Option (List Nat)
  | [] => some []
  | cn :: cs =>
    ((k.cornerWedges[cn]?).bind (·.head?)).bind fun w0 => (i.side (w0 / 2)).bind fun r =>
      (nodeCornersLoop m i k ty cs).map fun l => if m.cellType r.cell = ty then cn :: l else l

/-- `node_get_corners` for any other type (Mesh.cc:1006-1015). -/
def nodeGetCornersOfType (m : Src) (i : Info) (k : CornerInfo) (ty : EntityType) (n : Nat) : Option (List Nat) :=
  (k.nodeCorners[n]?).bind (nodeCornersLoop m i k ty)

/-- inner loop of `node_get_wedges` (Mesh.cc:985-990) -/
def nodeWedgesInner (m : Src) (i : Info) (ty : EntityType) : List Nat → Option (List Nat)
  | [] => some []
  | w :: ws =>
    (i.side (w / 2)).bind fun r =>
      (nodeWedgesInner m i ty ws).map fun l => if ty = .ALL ∨ m.cellType r.cell = ty then w :: l else l

/-- outer loop of `node_get_wedges` (Mesh.cc:983-991) -/
def nodeWedgesOuter (m : Src) (i : Info) (k : CornerInfo) (ty : EntityType) : List Nat → Option (List Nat)
  | [] => some []
  | cn :: cs =>
    (k.cornerWedges[cn]?).bind fun ws => (nodeWedgesInner m i ty ws).bind fun a =>
      (nodeWedgesOuter m i k ty cs).map fun b => a ++ b

/-- `node_get_wedges` (Mesh.cc:977-992) on a mesh whose wedges and corners are cached; the `assert` of line 980 makes it
abort when corners were not requested. -/
def nodeGetWedges (m : Src) (i : Info) (k : CornerInfo) (ty : EntityType) (n : Nat) : Option (List Nat) :=
  (k.nodeCorners[n]?).bind (nodeWedgesOuter m i k ty)

/-- `cornerids_all_` (Mesh.cc:546-551) -/
def CornerInfo.all (k : CornerInfo) : List Nat := k.owned.arr ++ k.ghost.arr ++ k.bndry.arr

/-- Side arrays in one dimension (Mesh.cc:290-333, the branch `manifold_dim_ == 1`): cells in `cells()` order, two
sides `2c`, `2c+1` each, whose face, edge and both nodes are the first resp. second node of the cell. The table is given as
functions of the side id; `nsides` is `2*ncells`. -/
structure Info1D where
  cellSides : Nat → List Nat
  sideNode : Nat → Nat
  sideCell : Nat → Nat
  opp : Nat → Int

/-- `cache_side_info`, 1D (Mesh.cc:290-333). -/
def cacheSideInfo1D (ncells : Nat) (cellNodes : Nat → Nat × Nat) : Info1D where
  cellSides c := [2 * c, 2 * c + 1]
  sideNode s := if s % 2 = 0 then (cellNodes (s / 2)).1 else (cellNodes (s / 2)).2
  sideCell s := s / 2
  opp s := if s % 2 = 0 then (if s = 0 then -1 else (s : Int) - 1)
    else (if s = 2 * ncells - 1 then -1 else (s : Int) + 1)

end Jali.Sides
