/-
Which object keeps which other object in existence: who holds a `shared_ptr` on whom, and who only a pointer or reference.

Objects are numbered in the order of their creation. `owned` lists the `shared_ptr`s stored inside objects, as pairs
(holder, object); `handles` are the `shared_ptr`s in variables of the program, with repetitions. Destruction follows the rule
of `std::shared_ptr`: an object goes when no handle and no existing object holds it, and with it the `shared_ptr`s stored in it.
Geometric models are no `shared_ptr` objects: their handle is the model itself, dropping it is deleting the model.
Simplifications: the values inside the objects are not modelled here, and the order in which the objects of one cascade are
destroyed is ignored (no destructor uses another object: Mesh.hh:200, Mesh_MSTK.cc:1207-1244, Mesh_simple.cc:231,
MeshTile.hh:135, MeshSet.hh:143, JaliState.h:110, JaliStateVector.h:115, 226, 383, 537, 819, GeometricModel.cc:184-194).
-/
namespace Jali.Life

/-- the objects a program handles, with what they are made from -/
inductive Obj where
  /-- a geometric model with its regions (GeometricModel.hh:80-158) -/
  | model
  /-- a mesh: `geometric_model_` is a pointer (Mesh.hh:1479, GeometricModel.hh:158); the mesh it was extracted from is a pointer,
  and its entities are pointed at by the parent attributes (Mesh_MSTK.hh:828-830, Mesh_MSTK.cc:754-756, 807-810) -/
  | mesh (gm parent : Option Nat)
  /-- a tile: `Mesh& mesh_` (MeshTile.hh:316) -/
  | tile (mesh : Nat)
  /-- a mesh set: `Mesh& mesh_` (MeshSet.hh:304) -/
  | mset (mesh : Nat)
  /-- a state manager: `shared_ptr<Mesh> mymesh_` (JaliState.h:1438) -/
  | state (mesh : Nat)
  /-- a state vector: `shared_ptr<DomainType> mydomain_`, a mesh or a tile (JaliStateVector.h:254, 595); the state manager is
  known by a `weak_ptr` (154) -/
  | vector (domain : Nat)
deriving DecidableEq, Repr

/-- the state of the program -/
structure World where
  objs : List Obj
  owned : List (Nat × Nat)
  handles : List Nat
  alive : List Nat
deriving DecidableEq, Repr

def World.empty : World := ⟨[], [], [], []⟩

/-- the use count of `i` is not zero, when the objects `a` exist -/
def World.counted (w : World) (a : List Nat) (i : Nat) : Bool :=
  w.handles.contains i || w.owned.any fun p => p.2 == i && a.contains p.1

/-- one round of destructions -/
def World.sweep (w : World) (a : List Nat) : List Nat := a.filter (w.counted a)

/-- destructions until every use count of an existing object is positive -/
def World.settle (w : World) (a : List Nat) : List Nat :=
  if (w.sweep a).length < a.length then w.settle (w.sweep a) else a
termination_by a.length

def World.release (w : World) : World := { w with alive := w.settle w.alive }

/-- a new object, the `shared_ptr`s stored in it or in its maker, and whether the program gets one -/
def World.make (w : World) (o : Obj) (holds : List Nat) (holders : List Nat) (given : Bool) : World where
  objs := w.objs ++ [o]
  owned := w.owned ++ holds.map (fun x => (w.objs.length, x)) ++ holders.map (fun x => (x, w.objs.length))
  handles := if given then w.objs.length :: w.handles else w.handles
  alive := w.alive ++ [w.objs.length]

/-- what a program does -/
inductive Op where
  /-- `new GeometricModel` -/
  | newModel
  /-- `MeshFactory` (`create`, MeshFactory.cc:189-538) with the geometric model of the factory -/
  | newMesh (gm : Option Nat)
  /-- `MeshFactory` extracting (`create`, MeshFactory.cc:543-640): the geometric model is that of the parent
  (Mesh_MSTK.cc:744-746) -/
  | extract (parent : Nat)
  /-- `make_meshtile` (MeshTile.cc:317-346) and `build_tiles` -/
  | newTile (mesh : Nat)
  /-- `make_meshset` (MeshSet.cc:277-299) -/
  | newSet (mesh : Nat)
  /-- a temporary mesh set (MeshSet.cc:304-367) -/
  | newTempSet (mesh : Nat)
  /-- `State::create` (JaliState.h:81-99) with its dummy set (1426-1431), which is not given away -/
  | newState (mesh : Nat)
  /-- `State::add` (JaliState.h:1104-1380): the vector is stored in the manager -/
  | addVector (state domain : Nat)
  /-- a state vector of the program's own -/
  | newVector (domain : Nat)
  /-- `State::add_material` (JaliState.cc:59-96) with an existing set of the mesh: the manager holds the set as well -/
  | useSet (state set : Nat)
  /-- `State::rem_material` (JaliState.cc:99-126): the manager gives up the set; the mesh keeps it (`meshsets_` only grows,
  Mesh.cc:2459-2461) -/
  | forget (state set : Nat)
  /-- the program copies a `shared_ptr`: `tiles()`, `sets()`, `mesh()`, `domain()`, `get`, ... -/
  | take (i : Nat)
  /-- a `shared_ptr` of the program is destroyed or reset, or a geometric model deleted -/
  | drop (i : Nat)
deriving DecidableEq, Repr

/-- `i` exists and is a mesh -/
def World.isMesh (w : World) (i : Nat) : Bool :=
  w.alive.contains i && match w.objs[i]? with | some (.mesh _ _) => true | _ => false

/-- `i` exists and is a mesh or a tile -/
def World.isDomain (w : World) (i : Nat) : Bool :=
  w.alive.contains i && match w.objs[i]? with | some (.mesh _ _) => true | some (.tile _) => true | _ => false

def World.isState (w : World) (i : Nat) : Bool :=
  w.alive.contains i && match w.objs[i]? with | some (.state _) => true | _ => false

def World.isSet (w : World) (i : Nat) : Bool :=
  w.alive.contains i && match w.objs[i]? with | some (.mset _) => true | _ => false

/-- the geometric model given to a new mesh is an existing one -/
def World.isModel (w : World) : Option Nat → Bool
  | none => true
  | some g => w.alive.contains g && match w.objs[g]? with | some .model => true | _ => false

/-- one operation; `none`: not a program (an argument that does not exist, or of another type) -/
def World.step (w : World) : Op → Option World
  | .newModel => some (w.make .model [] [] true)
  | .newMesh gm => if w.isModel gm then some (w.make (.mesh gm none) [] [] true) else none
  | .extract p =>
    if w.alive.contains p then
      match w.objs[p]? with
      | some (.mesh gm _) => some (w.make (.mesh gm (some p)) [] [] true)
      | _ => none
    else none
  | .newTile m => if w.isMesh m then some (w.make (.tile m) [] [m] false) else none
  | .newSet m => if w.isMesh m then some (w.make (.mset m) [] [m] true) else none
  | .newTempSet m => if w.isMesh m then some (w.make (.mset m) [] [] true) else none
  | .newState m => if w.isMesh m then some (w.make (.state m) [m] [] true) else none
  | .addVector s d => if w.isState s && w.isDomain d then some (w.make (.vector d) [d] [s] false) else none
  | .newVector d => if w.isDomain d then some (w.make (.vector d) [d] [] true) else none
  | .useSet s t => if w.isState s && w.isSet t then some { w with owned := w.owned ++ [(s, t)] } else none
  | .forget h t =>
    if w.isState h && w.isSet t then some ({ w with owned := w.owned.filter (· != (h, t)) } : World).release else none
  | .take i =>
    if w.alive.contains i then
      match w.objs[i]? with
      | some .model => none
      | _ => some { w with handles := i :: w.handles }
    else none
  | .drop i => if w.handles.contains i then some ({ w with handles := w.handles.erase i } : World).release else none

def World.run (w : World) (ops : List Op) : Option World := ops.foldlM World.step w

/-- what a program asks of an object it can reach -/
inductive Ask where
  /-- what is stored in the object: entities, coordinates, connectivity, values, names -/
  | own
  /-- its mesh: `mesh()` of a tile, a set or a state manager, `domain()` or `domain()->mesh()` of a vector, and a question to it
  (MeshTile.hh:139-141, MeshSet.hh:147-149, JaliState.h:114, JaliStateVector.h:231-238, 256-261) -/
  | mesh
  /-- regions: `init_sets_from_geometric_model`, `valid_region_name`, `build_set_from_region`
  (Mesh.cc:2373-2385, 2502-2506, 2659) -/
  | region
  /-- `entity_get_parent` (Mesh_MSTK.cc:3284-3321): `MEnt_ID` of an entity of the other mesh -/
  | parent
deriving DecidableEq, Repr

/-- the objects whose memory is used to answer -/
def World.uses (w : World) (i : Nat) : Ask → List Nat
  | .own => [i]
  | .mesh =>
    match w.objs[i]? with
    | some (.tile m) => [i, m]
    | some (.mset m) => [i, m]
    | some (.state m) => [i, m]
    | some (.vector d) =>
      match w.objs[d]? with
      | some (.tile m) => [i, d, m]
      | _ => [i, d]
    | _ => [i]
  | .region =>
    match w.objs[i]? with
    | some (.mesh (some g) _) => [i, g]
    | _ => [i]
  | .parent =>
    match w.objs[i]? with
    | some (.mesh _ (some p)) => [i, p]
    | _ => [i]

/-- no memory of an object that is gone is used -/
def World.safe (w : World) (i : Nat) (q : Ask) : Bool := (w.uses i q).all fun x => w.alive.contains x

end Jali.Life
