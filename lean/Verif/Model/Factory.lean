import Verif.Model.MeshDefs
import Verif.Model.MeshCache
/-
The mesh factory (src/mesh/mesh_factory/MeshFactory.hh, MeshFactory.cc): options, and the `create` functions as run
by all ranks of a communicator.

Simplifications: coordinates are exact rationals (no NaN, no rounding); texts of messages are dropped, a raised
`Errors::Message` or `std::exception` is the outcome `error`; what a mesh constructor does inside the framework is an
arbitrary function `Env` of the arguments (its own communication is taken to complete); `assert` is enabled. Integers do
not overflow.
-/
namespace Jali.Factory

/-- `enum MeshFramework_t` (MeshFactory.hh:77-82) -/
inductive Framework | Simple | MSTK | MOAB | STKMESH
deriving DecidableEq, Repr

/-- `enum MeshFormat_t` (MeshFactory.hh:85-89) -/
inductive Format | ExodusII | MOABHDF5 | FLAGX3D
deriving DecidableEq, Repr

/-- `enum class Geom_type` (geometry/Geometry.hh:62-66) -/
inductive GeomType | CARTESIAN | CYLINDRICAL | SPHERICAL
deriving DecidableEq, Repr

/-- A geometric model as the factory sees it: identity and `dimension()`. -/
structure GeoModel where
  address : Nat
  dim : Nat
deriving DecidableEq, Repr

/-- The option members of `MeshFactory` (MeshFactory.hh:393-444). -/
structure Options where
  framework : Framework
  edges : Bool
  faces : Bool
  cells : Bool
  sides : Bool
  wedges : Bool
  corners : Bool
  boundaryGhosts : Bool
  numTiles : Int
  ghostLayersTile : Int
  ghostLayersDistmesh : Int
  partitioner : PartitionerType
  geomType : GeomType
  geometricModel : Option GeoModel
  contiguousGids : Bool
deriving DecidableEq, Repr

/-- The constructor: the member initialisers (MeshFactory.hh:114, 393-444). -/
def new : Options where
  framework := .MSTK
  edges := false
  faces := true
  cells := true
  sides := false
  wedges := false
  corners := false
  boundaryGhosts := false
  numTiles := 0
  ghostLayersTile := 0
  ghostLayersDistmesh := 1
  partitioner := .INDEX
  geomType := .CARTESIAN
  geometricModel := none
  contiguousGids := false

/-- `reset_options` (MeshFactory.cc:145-180); `request_sides_` is not assigned. -/
def resetOptions (o : Options) : Options :=
  { o with
    framework := .MSTK
    edges := false
    faces := true
    cells := true
    wedges := false
    corners := false
    numTiles := 0
    ghostLayersTile := 0
    ghostLayersDistmesh := 1
    boundaryGhosts := false
    partitioner := .INDEX
    geomType := .CARTESIAN
    geometricModel := none
    contiguousGids := false }

/-- `framework(f)` (MeshFactory.hh:133-143): `none` is the exception. -/
def setFramework (o : Options) (f : Framework) : Option Options :=
  if f = .Simple ∨ f = .MSTK then some { o with framework := f } else none

/-- `included_entities(e)` (MeshFactory.hh:249-270) -/
def includeOne (o : Options) (e : EntityKind) : Options :=
  if e = .ALL_KIND then
    { o with edges := true, faces := true, sides := true, wedges := true, corners := true, cells := true }
  else match e with
    | .NODE => o
    | .EDGE => { o with edges := true }
    | .FACE => { o with faces := true }
    | .SIDE => { o with sides := true }
    | .WEDGE => { o with wedges := true }
    | .CORNER => { o with corners := true }
    | .CELL => { o with cells := true }
    | _ => o

/-- `included_entities(list)` (MeshFactory.hh:242-245) -/
def includeList (o : Options) (l : List EntityKind) : Options := l.foldl includeOne o

/-- Body of the loop of `excluded_entities(list)` (MeshFactory.hh:275-296) -/
def excludeOne (o : Options) (e : EntityKind) : Options :=
  match e with
  | .NODE => o
  | .EDGE => { o with edges := false }
  | .SIDE => { o with sides := false }
  | .WEDGE => { o with wedges := false }
  | .CORNER => { o with corners := false }
  | .FACE => o
  | .CELL => o
  | _ => o

/-- `excluded_entities(list)` (MeshFactory.hh:274-297) -/
def excludeList (o : Options) (l : List EntityKind) : Options := l.foldl excludeOne o

/-- `included_entities()` (MeshFactory.hh:227-237) -/
def includedEntities (o : Options) : List EntityKind :=
  [EntityKind.NODE] ++ (if o.edges then [.EDGE] else []) ++ (if o.faces then [.FACE] else []) ++
    (if o.sides then [.SIDE] else []) ++ (if o.wedges then [.WEDGE] else []) ++
    (if o.corners then [.CORNER] else []) ++ (if o.cells then [.CELL] else [])

/-- A call of a user that may change options. `create` calls change none and are `other`. -/
inductive Op
  | framework (f : Framework)
  | partitioner (p : PartitionerType)
  | meshGeometry (g : GeomType)
  | ghostLayersDistmesh (n : Int)
  | boundaryGhosts (b : Bool)
  | numTiles (n : Int)
  | ghostLayersTile (n : Int)
  | contiguousGids (b : Bool)
  | includeKind (e : EntityKind)
  | includeList (l : List EntityKind)
  | excludeList (l : List EntityKind)
  | geometricModel (g : Option GeoModel)
  | reset
  | other
deriving DecidableEq, Repr

/-- Effect of one call (MeshFactory.hh:133-307); an exception of `framework` leaves the options unchanged. -/
def step (o : Options) : Op → Options
  | .framework f => (setFramework o f).getD o
  | .partitioner p => { o with partitioner := p }
  | .meshGeometry g => { o with geomType := g }
  | .ghostLayersDistmesh n => { o with ghostLayersDistmesh := n }
  | .boundaryGhosts b => { o with boundaryGhosts := b }
  | .numTiles n => { o with numTiles := n }
  | .ghostLayersTile n => { o with ghostLayersTile := n }
  | .contiguousGids b => { o with contiguousGids := b }
  | .includeKind e => includeOne o e
  | .includeList l => Factory.includeList o l
  | .excludeList l => Factory.excludeList o l
  | .geometricModel g => { o with geometricModel := g }
  | .reset => resetOptions o
  | .other => o

/-- The options after a history of calls on a new factory. -/
def after (h : List Op) : Options := h.foldl step new

/-- `framework_available` (MeshFactory.cc:92-97) -/
def frameworkAvailable (f : Framework) : Bool := f = .Simple ∨ f = .MSTK

/-- `framework_generates` (MeshFactory.cc:100-112) -/
def frameworkGenerates (f : Framework) (parallel : Bool) (dim : Int) : Bool :=
  match f with
  | .Simple => !parallel && (dim = 1 ∨ dim = 3)
  | .MSTK => dim = 2 ∨ dim = 3
  | .STKMESH => dim = 3 && !parallel
  | .MOAB => false

/-- `framework_reads` (MeshFactory.cc:114-126) -/
def frameworkReads (f : Framework) (parallel : Bool) (format : Format) : Bool :=
  match f with
  | .MSTK => format = .ExodusII
  | .STKMESH => format = .ExodusII && !parallel
  | .MOAB => format = .MOABHDF5
  | .Simple => false

/-- `framework_extracts` (MeshFactory.cc:128-136) -/
def frameworkExtracts (f : Framework) (_parallel : Bool) (dim : Int) : Bool :=
  match f with
  | .MSTK => dim = 2 ∨ dim = 3
  | _ => false

/-- What a mesh is made from, without the options: one constructor per C++ constructor (Mesh_simple.hh:80-128,
Mesh_MSTK.hh:94-198). `sub` extracts from mesh number `inmesh`. -/
inductive Source
  | simple3 (x0 y0 z0 x1 y1 z1 : Rat) (nx ny nz : Int)
  | simple2 (x0 y0 x1 y1 : Rat) (nx ny : Int)
  | simple1 (x : List Rat)
  | mstk3 (x0 y0 z0 x1 y1 z1 : Rat) (nx ny nz : Int)
  | mstk2 (x0 y0 x1 y1 : Rat) (nx ny : Int)
  | mstkFile (name : String)
  | mstkSub (inmesh : Nat) (sets : List String) (kind : EntityKind) (flatten extrude : Bool)
deriving DecidableEq, Repr

/-- The option arguments of a mesh constructor, in the order of its declaration. -/
structure Args where
  gm : Option GeoModel
  faces : Bool
  edges : Bool
  sides : Bool
  wedges : Bool
  corners : Bool
  numTiles : Int
  ghostLayersTile : Int
  ghostLayersDistmesh : Int
  boundaryGhosts : Bool
  partitioner : PartitionerType
  contiguousGids : Bool
  geomType : GeomType
deriving DecidableEq, Repr

/-- A constructed mesh: its source and what its option queries report (`geometric_model()`, the request flags,
`geom_type()`, ...). -/
structure Made where
  source : Source
  spaceDim : Nat
  gm : Option GeoModel
  req : MeshCache.Request
  numTiles : Int
  ghostLayersTile : Int
  ghostLayersDistmesh : Int
  partitioner : PartitionerType
  contiguousGids : Bool
  geomType : GeomType
deriving DecidableEq, Repr

/-- Result of a constructor: a mesh, an exception, or a failed `assert`. -/
inductive Built
  | ok (m : Made)
  | throws
  | aborts
deriving DecidableEq, Repr

/-- What the unmodelled part of a constructor does on a rank: succeeds with a mesh of some space dimension, or throws. -/
abbrev Env := Source → Args → Option Nat

/-- The requests passed to the base class, with its implications (Mesh.hh:165-193). -/
def Args.request (a : Args) : MeshCache.Request :=
  MeshCache.closure ⟨a.faces, a.edges, a.sides, a.wedges, a.corners⟩

/-- The mesh a constructor makes of its arguments. -/
def made (s : Source) (a : Args) (dim : Nat) : Made :=
  ⟨s, dim, a.gm, a.request, a.numTiles, a.ghostLayersTile, a.ghostLayersDistmesh, a.partitioner, a.contiguousGids,
    a.geomType⟩

/-- A mesh constructor (Mesh_simple.cc:59-160, Mesh_MSTK.cc:149-640). The 2D constructor of `Mesh_simple` always throws
(lines 103-121), the others assert that no boundary ghosts are requested (lines 85, 152). The 1D constructor does not use
the geometric model (lines 126-160), the 3D constructors have no geometry type and pass CARTESIAN (line 83,
Mesh_MSTK.cc:259). A mesh extracted from another takes the geometric model of that mesh (Mesh_MSTK.cc:744-746), which is
left to the environment's mesh number here: `gm` is `none`. -/
def construct (env : Env) (s : Source) (a : Args) : Built :=
  match s with
  | .simple2 .. => .throws
  | .simple3 .. =>
    if a.boundaryGhosts then .aborts
    else match env s a with
      | some _ => .ok (made s { a with geomType := .CARTESIAN } 3)
      | none => .throws
  | .simple1 _ =>
    if a.boundaryGhosts then .aborts
    else match env s a with
      | some _ => .ok (made s { a with gm := none } 1)
      | none => .throws
  | .mstk3 .. => match env s a with
      | some _ => .ok (made s { a with geomType := .CARTESIAN } 3)
      | none => .throws
  | .mstk2 .. => match env s a with
      | some _ => .ok (made s a 2)
      | none => .throws
  | .mstkFile _ => match env s a with
      | some d => .ok (made s a d)
      | none => .throws
  | .mstkSub .. => match env s a with
      | some d => .ok (made s { a with gm := none } d)
      | none => .throws

/-- How a `create` call ends on a rank. -/
inductive Outcome
  | mesh (m : Made)
  | null
  | error
  | abort
deriving DecidableEq, Repr

/-- The part of a `create` call that is visible to other ranks: it either ends or contributes a number to an
`MPI_Allreduce` with `MPI_SUM` and goes on with the sum. -/
inductive Prog
  | ret (o : Outcome)
  | allreduce (v : Int) (k : Int → Prog)

/-- The final statements of every `create`: reduce `ierr`, throw if positive, else return a null pointer (e.g.
MeshFactory.cc:231-233). -/
def finish (ierr : Int) : Prog :=
  .allreduce ierr fun aerr => if aerr > 0 then .ret .error else .ret .null

/-- A collective check: reduce `ierr` and throw if positive (e.g. MeshFactory.cc:271-272). -/
def check (ierr : Int) (k : Prog) : Prog :=
  .allreduce ierr fun aerr => if aerr > 0 then .ret .error else k

/-- `return result` of a constructor call inside the `try` block; the two `catch` blocks set `ierr = 1`
(MeshFactory.cc:223-230, 329-336, 434-441, 515-522, 580-587). -/
def returnBuilt : Built → Prog
  | .ok m => .ret (.mesh m)
  | .throws => finish 1
  | .aborts => .ret .abort

/-- The option arguments as passed by the MSTK cases (MeshFactory.cc:200-208, 313-321, 417-426, 560-571). -/
def mstkArgs (o : Options) : Args :=
  ⟨o.geometricModel, o.faces, o.edges, o.sides, o.wedges, o.corners, o.numTiles, o.ghostLayersTile,
    o.ghostLayersDistmesh, o.boundaryGhosts, o.partitioner, o.contiguousGids, o.geomType⟩

/-- The option arguments as passed by the Simple cases (MeshFactory.cc:291-301, 398-406, 495-502): no
`contiguous_gids_`. -/
def simpleArgs (o : Options) : Args :=
  ⟨o.geometricModel, o.faces, o.edges, o.sides, o.wedges, o.corners, o.numTiles, o.ghostLayersTile,
    o.ghostLayersDistmesh, o.boundaryGhosts, o.partitioner, false, o.geomType⟩

/-- The mesh read from a file must have the dimension of the geometric model, else an exception is raised inside the
`try` block (MeshFactory.cc:209-213). -/
def checkFileMesh (o : Options) : Built → Built
  | .ok m => match o.geometricModel with
    | some g => if g.dim ≠ m.spaceDim then .throws else .ok m
    | none => .ok m
  | b => b

/-- `create(filename)` (MeshFactory.cc:189-234). `mstk` tells whether HAVE_MSTK_MESH is defined. -/
def createFile (mstk : Bool) (env : Env) (o : Options) (name : String) : Prog :=
  match o.framework, mstk with
  | .MSTK, true => returnBuilt (checkFileMesh o (construct env (.mstkFile name) (mstkArgs o)))
  | _, _ => finish 1

/-- The arguments of the 3D `create` -/
structure Box3 where
  (x0 y0 z0 x1 y1 z1 : Rat) (nx ny nz : Int)
deriving DecidableEq, Repr

/-- The `switch` of the 3D `create` (MeshFactory.cc:287-328), `procs` is the size of the communicator. -/
def switch3 (mstk : Bool) (procs : Nat) (env : Env) (o : Options) (b : Box3) : Prog :=
  match o.framework, mstk with
  | .Simple, _ =>
    if procs = 1 then
      returnBuilt (construct env (.simple3 b.x0 b.y0 b.z0 b.x1 b.y1 b.z1 b.nx b.ny b.nz) (simpleArgs o))
    else finish 1
  | .MSTK, true =>
    returnBuilt (construct env (.mstk3 b.x0 b.y0 b.z0 b.x1 b.y1 b.z1 b.nx b.ny b.nz) (mstkArgs o))
  | _, _ => finish 1

/-- The geometric model, if any, has dimension `d` (MeshFactory.cc:260, 364, 461) -/
def gmFits (o : Options) (d : Nat) : Bool :=
  match o.geometricModel with
  | some g => g.dim = d
  | none => true

/-- 3D `create` (MeshFactory.cc:251-340) -/
def create3 (mstk : Bool) (procs : Nat) (env : Env) (o : Options) (b : Box3) : Prog :=
  if gmFits o 3 = false then .ret .error
  else
    let ierr : Int := if b.nx ≤ 0 ∨ b.ny ≤ 0 ∨ b.nz ≤ 0 then 1 else 0
    check ierr <|
      let ierr := if b.x1 - b.x0 ≤ 0 ∨ b.y1 - b.y0 ≤ 0 ∨ b.z1 - b.z0 ≤ 0 then ierr + 1 else ierr
      check ierr (switch3 mstk procs env o b)

/-- The arguments of the 2D `create` -/
structure Box2 where
  (x0 y0 x1 y1 : Rat) (nx ny : Int)
deriving DecidableEq, Repr

/-- The `switch` of the 2D `create` (MeshFactory.cc:394-433); its default case does not set `ierr`. -/
def switch2 (mstk : Bool) (procs : Nat) (env : Env) (o : Options) (b : Box2) : Prog :=
  match o.framework, mstk with
  | .Simple, _ =>
    if procs = 1 then
      returnBuilt (construct env (.simple2 b.x0 b.y0 b.x1 b.y1 b.nx b.ny) (simpleArgs o))
    else finish 1
  | .MSTK, true =>
    returnBuilt (construct env (.mstk2 b.x0 b.y0 b.x1 b.y1 b.nx b.ny) (mstkArgs o))
  | _, _ => finish 0

/-- 2D `create` (MeshFactory.cc:356-445) -/
def create2 (mstk : Bool) (procs : Nat) (env : Env) (o : Options) (b : Box2) : Prog :=
  if gmFits o 2 = false then .ret .error
  else
    let ierr : Int := if b.nx ≤ 0 ∨ b.ny ≤ 0 then 1 else 0
    check ierr <|
      let ierr := if b.x1 - b.x0 ≤ 0 ∨ b.y1 - b.y0 ≤ 0 then 1 else ierr
      check ierr (switch2 mstk procs env o b)

/-- The `switch` of the 1D `create` (MeshFactory.cc:491-514) -/
def switch1 (procs : Nat) (env : Env) (o : Options) (x : List Rat) : Prog :=
  match o.framework with
  | .Simple =>
    if procs = 1 then returnBuilt (construct env (.simple1 x) (simpleArgs o)) else finish 1
  | _ => finish 1

/-- `x.back() - x.front()` (MeshFactory.cc:477); the default 0 stands for the undefined value on an empty vector, which
the check of the size before excludes. -/
def delta (x : List Rat) : Rat := x.getLast?.getD 0 - x.head?.getD 0

/-- 1D `create` (MeshFactory.cc:455-526) -/
def create1 (procs : Nat) (env : Env) (o : Options) (x : List Rat) : Prog :=
  let ierr : Int := if gmFits o 1 = false then 1 else 0
  check ierr <|
    let ierr := if x.length < 2 then 1 else ierr
    check ierr <|
      let ierr := if delta x ≤ 0 then 1 else ierr
      check ierr (switch1 procs env o x)

/-- The extraction `create` (MeshFactory.cc:543-591) -/
def createSub (mstk : Bool) (env : Env) (o : Options) (inmesh : Nat) (sets : List String) (kind : EntityKind)
    (flatten extrude : Bool) : Prog :=
  match o.framework, mstk with
  | .MSTK, true => returnBuilt (construct env (.mstkSub inmesh sets kind flatten extrude) (mstkArgs o))
  | _, _ => finish 1

/-- The loop of `operator()(x0, x1, nx)`: `n` further points from `myX` on (MeshFactory.hh:341-345). -/
def linePoints (dX : Rat) : Nat → Rat → List Rat
  | 0, _ => []
  | n + 1, myX => myX :: linePoints dX n (myX + dX)

/-- `operator()(x0, x1, nx)` (MeshFactory.hh:336-348). A negative `nx` makes the vector constructor throw
`std::length_error`. For `nx = 0` the spacing is not a number but is not used. -/
def createLine (procs : Nat) (env : Env) (o : Options) (x0 x1 : Rat) (nx : Int) : Prog :=
  if nx < 0 then .ret .error
  else create1 procs env o (linePoints ((x1 - x0) / nx) nx.toNat x0)

/-- A creating call of a user: one constructor per `operator()` (MeshFactory.hh:310-358). -/
inductive Call
  | file (name : String)
  | box3 (b : Box3)
  | box2 (b : Box2)
  | points (x : List Rat)
  | line (x0 x1 : Rat) (nx : Int)
  | sub (inmesh : Nat) (sets : List String) (kind : EntityKind) (flatten extrude : Bool)
deriving DecidableEq, Repr

/-- The overload set `operator()` (MeshFactory.hh:310-358). -/
def create (mstk : Bool) (procs : Nat) (env : Env) (o : Options) : Call → Prog
  | .file name => createFile mstk env o name
  | .box3 b => create3 mstk procs env o b
  | .box2 b => create2 mstk procs env o b
  | .points x => create1 procs env o x
  | .line x0 x1 nx => createLine procs env o x0 x1 nx
  | .sub i s k f e => createSub mstk env o i s k f e

/-- How the call ends for a rank as part of the whole run; `waits`: it waits for ever in a collective operation. -/
inductive Final
  | done (o : Outcome)
  | waits
deriving DecidableEq, Repr

/-- One rank when no further collective operation can complete. -/
def Prog.stuck : Prog → Final
  | .ret o => .done o
  | .allreduce _ _ => .waits

/-- The contribution of a rank that is in a collective operation -/
def Prog.value? : Prog → Option Int
  | .ret _ => none
  | .allreduce v _ => some v

/-- A rank after the collective operation with result `s` -/
def Prog.resume (s : Int) : Prog → Prog
  | .ret o => .ret o
  | .allreduce _ k => k s

/-- All ranks together: as long as every rank is in a collective operation it completes and delivers the sum to all; when
some rank has ended, the ranks in a collective operation wait for ever. `p` is rank 0, `ps` the others. -/
def runRanks : Prog → List Prog → List Final
  | .ret o, ps => .done o :: ps.map Prog.stuck
  | .allreduce v k, ps =>
    if ps.all (fun q => q.value?.isSome) then
      let s := v + (ps.filterMap Prog.value?).sum
      runRanks (k s) (ps.map (Prog.resume s))
    else .waits :: ps.map Prog.stuck

/-- A run of the ranks of a communicator. -/
def run : List Prog → List Final
  | [] => []
  | p :: ps => runRanks p ps

/-- What a rank brings into a collective creating call. -/
structure Rank where
  env : Env
  opts : Options
  call : Call

/-- All ranks of a communicator call the factory. -/
def createAll (mstk : Bool) (ranks : List Rank) : List Final :=
  run (ranks.map fun r => create mstk ranks.length r.env r.opts r.call)

end Jali.Factory
