import Verif.Model.MeshSet
import Mathlib.Data.Rat.Defs
import Mathlib.Algebra.Order.Ring.Rat
import Mathlib.Algebra.Field.Rat
/-
Model of the mesh set registry of `Mesh` and of the construction of mesh sets from geometric regions
(src/mesh/Mesh.cc:2356-3022, src/mesh/MeshSet.cc:277-298).

A `shared_ptr<MeshSet>` is an index into the store `heap`; `none` is a null pointer. Points are an arbitrary type
`P`; what the region and the mesh say about them (membership, centroids, coordinates, distances) are parameters. Distances
are elements of an ordered field `K` (rational or real numbers) instead of doubles. The region's `inside` may throw on a dimension mismatch; points of
the right dimension are assumed.
-/
namespace Jali.Reg
open Jali.MSet

inductive Err
  | set (e : MSet.Err)       -- from a MeshSet operation
  | thrown                   -- Exceptions::Jali_throw / std::map::at
  | assertFailed
  | undefinedBehaviour       -- null pointer, index -1
  | tooDeep                  -- recursion deeper than the given depth (stack overflow if it never ends)
deriving DecidableEq, Repr

/-- the mesh as the registry sees it: for each kind the types and the counts (see `MeshView`), all sets ever made
(`heap`) and `meshsets_` (Mesh.hh:1365) -/
structure World where
  view : EntityKind → MeshView
  heap : List Obj
  reg : List Nat

/-- `set->name()`, `set->kind()` of a registered set -/
def nameKind (w : World) (a : Nat) (name : String) (kind : EntityKind) : Bool :=
  match w.heap[a]? with
  | some s => s.name = name && s.kind = kind
  | none => false

/-- does the set at address `a` have the kind? -/
def hasKind (w : World) (kind : EntityKind) (a : Nat) : Bool :=
  match w.heap[a]? with
  | some s => s.kind = kind
  | none => false

/-- `Mesh::add_set` (Mesh.cc:2459-2461) -/
def addSet (w : World) (a : Nat) : World := { w with reg := w.reg ++ [a] }

/-- `Mesh::num_sets` (Mesh.cc:2465-2475): the counting loop -/
def numSets (w : World) (kind : EntityKind) : Nat :=
  if kind = .ANY_KIND then w.reg.length
  else w.reg.foldl (fun n a => if hasKind w kind a then n + 1 else n) 0

/-- `Mesh::sets(kind)` (Mesh.cc:2480-2490) -/
def sets (w : World) (kind : EntityKind) : List Nat :=
  if kind = .ANY_KIND then w.reg
  else w.reg.foldl (fun l a => if hasKind w kind a then l ++ [a] else l) []

/-- `Mesh::find_meshset` (Mesh.cc:2594-2601) -/
def findMeshset (w : World) (name : String) (kind : EntityKind) : Option Nat :=
  w.reg.find? fun a => nameKind w a name kind

/-- `Mesh::get_set_size` (Mesh.cc:2606-2628), both versions -/
def getSetSize (w : World) (name : String) (kind : EntityKind) (t : EntityType) : Nat :=
  match findMeshset w name kind with
  | some a =>
    match w.heap[a]? with
    | some s => numEntities s t
    | none => 0
  | none => 0

/-- `Mesh::get_set_entities` (Mesh.cc:2632-2649) -/
def getSetEntities (w : World) (name : String) (kind : EntityKind) (t : EntityType) : List Nat :=
  match findMeshset w name kind with
  | some a =>
    match w.heap[a]? with
    | some s =>
      if t = .PARALLEL_OWNED then entities s .PARALLEL_OWNED
      else if t = .PARALLEL_GHOST then entities s .PARALLEL_GHOST
      else if t = .ALL then entities s .ALL
      else []
    | none => []
  | none => []

/-- a new object in the store, not yet registered (`std::make_shared<MeshSet>`) -/
def alloc (w : World) (s : Obj) : Nat × World := (w.heap.length, { w with heap := w.heap ++ [s] })

/-- `make_meshset` (MeshSet.cc:277-298): construct, then `add_set` -/
def makeMeshset (w : World) (name : String) (kind : EntityKind) (owned ghost : List Nat) (b : Bool) :
    Except Err (Nat × World) :=
  match construct (w.view kind) name 0 kind owned ghost b with
  | .error e => .error (.set e)
  | .ok s => .ok ((alloc w s).1, addSet (alloc w s).2 (alloc w s).1)

/-- `set_name` (MeshSet.hh:159-161) on the object at address `a` -/
def setName (w : World) (a : Nat) (name : String) : World :=
  { w with heap := w.heap.modify a fun s => { s with name := name } }

/-- `clear` of the object at address `a` (MeshSet.hh:245-252) -/
def clearAt (w : World) (a : Nat) : World := { w with heap := w.heap.modify a clear }

/-- what the set operations do with their result (MeshSet.cc:359-370, 412-420, 482-490, 529-537): an argument is
returned as it is, a new set is registered unless it is temporary -/
def finish (w : World) (temporary : Bool) : Out → Nat × World
  | .same p => (p.addr, w)
  | .fresh s => ((alloc w s).1, if temporary then (alloc w s).2 else addSet (alloc w s).2 (alloc w s).1)

/-- `Bool_type` (Region.hh:79-85) -/
inductive BoolOp
  | NOBOOLEAN | COMPLEMENT | UNION | INTERSECT | SUBTRACT
deriving DecidableEq, Repr

/-- `Region_type` (Region.hh:65-75) -/
inductive RegionType
  | BOX | PLANE | LABELEDSET | LAYER | SURFACE | POINT | COLORFUNCTION | LOGICAL | POLYGON
deriving DecidableEq, Repr

/-- What set construction asks of a region. `point` of a point region, `op`/`comps`/`temporary` of a logical region,
`entityStr`/`labeled` of a labeled set region (`labeled` stands for `get_labeled_set_entities` of the mesh
framework: the owned and ghost entities with the label). -/
structure Region (P : Type) where
  name : String
  type : RegionType
  dim : Nat
  temporary : Bool
  inside : P → Bool
  point : Option P
  op : BoolOp
  comps : List String
  entityStr : String
  labeled : List Nat × List Nat

/-- What set construction asks of the mesh. -/
structure Geo (P : Type) (K : Type := Rat) where
  celldim : Nat
  facesRequested : Bool
  cellCentroid : Nat → P
  faceCentroid : Nat → P
  nodeCoord : Nat → P
  cellCoords : Nat → List P
  faceCoords : Nat → List P
  nodeCells : Nat → List Nat
  pointInCell : P → Nat → Bool
  dist2 : P → P → K

/-- `FindRegion(name)` (GeometricModel.cc): the first region of that name -/
def findRegion {P : Type} (gm : List (Region P)) (name : String) : Option (Region P) :=
  gm.find? fun r => r.name = name

/-- `if (type == OWNED) owned.push_back(e) else if (type == GHOST) ghost.push_back(e)`, for the entities `es` that
passed the test, in order -/
def splitByType (v : MeshView) (es : List Nat) : List Nat × List Nat :=
  (es.filter fun e => v.typeOf e = .PARALLEL_OWNED, es.filter fun e => v.typeOf e = .PARALLEL_GHOST)

/-- nearest node loop of a point region (Mesh.cc:2705-2718): `mindist2` starts at 1e16, `minnode` at -1 (`none`),
stop as soon as the distance is ≤ 1e-32 -/
def nearestNode {P K : Type} [Field K] [LinearOrder K] (g : Geo P K) (p : P) : List Nat → K → Option Nat → Option Nat
  | [], _, best => best
  | n :: ns, mindist2, best =>
    if g.dist2 (g.nodeCoord n) p < mindist2 then
      if g.dist2 (g.nodeCoord n) p ≤ 1 / 10 ^ 32 then some n
      else nearestNode g p ns (g.dist2 (g.nodeCoord n) p) (some n)
    else nearestNode g p ns mindist2 best

/-- cells of a point region (Mesh.cc:2697-2735): the cells around the nearest node that contain the point -/
def pointCells {P K : Type} [Field K] [LinearOrder K] (g : Geo P K) (nodes cells : MeshView) (p : P) :
    Except Err (Option (List Nat × List Nat)) :=
  match nearestNode g p (List.range nodes.nAll) (10 ^ 16) none with
  | none => .error .undefinedBehaviour
  | some n => .ok (some (splitByType cells ((g.nodeCells n).filter fun c => g.pointInCell p c)))

/-- owned and ghost cells of a region (Mesh.cc:2674-2798); `none` for LOGICAL (nothing done yet) -/
def cellLists {P K : Type} [Field K] [LinearOrder K] (g : Geo P K) (nodes v : MeshView) (r : Region P) :
    Except Err (Option (List Nat × List Nat)) :=
  match r.type with
  | .BOX | .COLORFUNCTION =>
    .ok (some ((List.range v.nOwned).filter fun c => r.inside (g.cellCentroid c),
      ((List.range v.nGhost).map (v.nOwned + ·)).filter fun c => r.inside (g.cellCentroid c)))
  | .POINT =>
    match r.point with
    | some p => pointCells g nodes v p
    | none => .error .undefinedBehaviour   -- not a `PointRegion`: cannot happen
  | .PLANE =>
    if g.celldim = 2 then
      .ok (some (splitByType v ((List.range v.nAll).filter fun c => (g.cellCoords c).all r.inside)))
    else .ok (some ([], []))
  | .LOGICAL => .ok none
  | .LABELEDSET =>
    if r.entityStr ≠ "CELL" ∧ r.entityStr ≠ "Entity_kind::CELL" then .error .thrown else .ok (some r.labeled)
  | _ => .error .thrown

/-- faces of a region (Mesh.cc:2799-2890) -/
def faceLists {P K : Type} [Field K] [LinearOrder K] (g : Geo P K) (v : MeshView) (r : Region P) : Except Err (Option (List Nat × List Nat)) :=
  match r.type with
  | .BOX => .ok (some (splitByType v ((List.range v.nAll).filter fun f => r.inside (g.faceCentroid f))))
  | .PLANE | .POLYGON =>
    .ok (some (splitByType v ((List.range v.nAll).filter fun f => (g.faceCoords f).all r.inside)))
  | .LABELEDSET =>
    if r.entityStr ≠ "FACE" ∧ r.entityStr ≠ "Entity_kind::FACE" then .error .thrown else .ok (some r.labeled)
  | .LOGICAL => .ok none
  | _ => .error .thrown

/-- nodes of a region (Mesh.cc:2891-2950); a point region takes the first node only -/
def nodeLists {P K : Type} [Field K] [LinearOrder K] (g : Geo P K) (v : MeshView) (r : Region P) : Except Err (Option (List Nat × List Nat)) :=
  match r.type with
  | .BOX | .PLANE | .POLYGON =>
    .ok (some (splitByType v ((List.range v.nAll).filter fun n => r.inside (g.nodeCoord n))))
  | .POINT =>
    .ok (some (splitByType v (((List.range v.nAll).filter fun n => r.inside (g.nodeCoord n)).take 1)))
  | .LABELEDSET =>
    if r.entityStr ≠ "NODE" ∧ r.entityStr ≠ "Entity_kind::NODE" then .error .thrown else .ok (some r.labeled)
  | .LOGICAL => .ok none
  | _ => .error .thrown

/-- the `switch (kind)` (Mesh.cc:2673-2952): the entity lists of the region, `none` if no set is made here -/
def regionLists {P K : Type} [Field K] [LinearOrder K] (g : Geo P K) (w : World) (kind : EntityKind) (r : Region P) :
    Except Err (Option (List Nat × List Nat)) :=
  match kind with
  | .CELL => cellLists g (w.view .NODE) (w.view .CELL) r
  | .FACE => faceLists g (w.view .FACE) r
  | .NODE => nodeLists g (w.view .NODE) r
  | _ => .ok none

/-- pointers for the set operations -/
def ptrs (w : World) : List Nat → Except Err (List Ptr)
  | [] => .ok []
  | a :: as =>
    match w.heap[a]? with
    | none => .error .undefinedBehaviour
    | some s =>
      match ptrs w as with
      | .error e => .error e
      | .ok ps => .ok (⟨a, s⟩ :: ps)

/-- wrap the errors of the set operations -/
def liftSet : Except MSet.Err Out → Except Err Out
  | .error e => .error (.set e)
  | .ok o => .ok o

/-- the operation of a logical region on the component sets (Mesh.cc:3001-3012) -/
def applyOp (v : MeshView) (op : BoolOp) (ps : List Ptr) : Except Err Out :=
  match op with
  | .COMPLEMENT => liftSet (complement v ps)
  | .UNION => liftSet (merge v ps)
  | .INTERSECT => liftSet (intersect v ps)
  | .SUBTRACT =>
    match ps with
    | [] => .error .undefinedBehaviour
    | p0 :: rest => liftSet (subtract v p0 (others p0 (p0 :: rest)))
  | .NOBOOLEAN => .error .undefinedBehaviour

/-- combination of the component sets, then the name (Mesh.cc:2985-3018). The operations are given the view of
the requested kind. -/
def combine {P : Type} (w : World) (r : Region P) (setname : String) (kind : EntityKind) (as : List Nat) :
    Except Err (Nat × World) :=
  match ptrs w as with
  | .error e => .error e
  | .ok ps =>
    if ps.all fun p => p.obj.kind = kind then
      match applyOp (w.view kind) r.op ps with
      | .error e => .error e
      | .ok o => .ok ((finish w r.temporary o).1, setName (finish w r.temporary o).2 (finish w r.temporary o).1 setname)
    else .error .thrown

/-- the component loop (Mesh.cc:2964-2983): a registered set of the name and kind, or a new one; `rec` is the
recursive call -/
def componentsWith {P : Type} (rec : World → String → Except Err (Option Nat × World)) (gm : List (Region P))
    (kind : EntityKind) : List String → World → Except Err (List Nat × World)
  | [], w => .ok ([], w)
  | n :: ns, w =>
    match findRegion gm n with
    | none => .error .thrown
    | some _ =>
      match findMeshset w n kind with
      | some a =>
        match componentsWith rec gm kind ns w with
        | .error e => .error e
        | .ok (as, w2) => .ok (a :: as, w2)
      | none =>
        match rec w n with
        | .error e => .error e
        | .ok (none, _) => .error .assertFailed
        | .ok (some a, w1) =>
          match componentsWith rec gm kind ns w1 with
          | .error e => .error e
          | .ok (as, w2) => .ok (a :: as, w2)

/-- a logical region, the component sets being at hand (Mesh.cc:2985-3018) -/
def combineAll {P : Type} (r : Region P) (setname : String) (kind : EntityKind) :
    Except Err (List Nat × World) → Except Err (Option Nat × World)
  | .error e => .error e
  | .ok (as, w1) =>
    match combine w1 r setname kind as with
    | .error e => .error e
    | .ok (a, w2) => .ok (some a, w2)

/-- `build_set_from_region` (Mesh.cc:2650-3022) with the geometric model `gm`; `none`: null pointer. `depth` bounds
the recursion through logical regions. -/
def build {P K : Type} [Field K] [LinearOrder K] (g : Geo P K) (gm : List (Region P)) (depth : Nat) (w : World) (setname : String)
    (kind : EntityKind) (b : Bool) : Except Err (Option Nat × World) :=
  match findRegion gm setname with
  | none => .error .thrown
  | some r =>
    match regionLists g w kind r with
    | .error e => .error e
    | .ok (some (owned, ghost)) =>
      match makeMeshset w setname kind owned ghost b with
      | .error e => .error e
      | .ok (a, w') => .ok (some a, w')
    | .ok none =>
      if r.type = .LOGICAL then
        match depth with
        | 0 => .error .tooDeep
        | depth + 1 =>
          combineAll r setname kind (componentsWith (fun w n => build g gm depth w n kind b) gm kind r.comps w)
      else .ok (none, w)

end Jali.Reg
