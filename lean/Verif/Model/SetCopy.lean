import Verif.Model.SetRegistry
/-
Model of the copy constructor of `MeshSet` (src/mesh/MeshSet.hh:126-134) and of changes to the sets in the store, one after the other.
-/
namespace Jali.Reg
open Jali.MSet

/-- the copy constructor (MeshSet.hh:126-134), member by member -/
def copyObj (s : Obj) : Obj where
  name := s.name
  mesh := s.mesh
  kind := s.kind
  owned := s.owned
  ghost := s.ghost
  all := s.all
  haveMap := s.haveMap
  map := s.map

/-- a new object copied from the one at the address (`std::make_shared<MeshSet>(*set)`); the copy constructor does not call `add_set` -/
def copyAt (w : World) (a : Nat) : Except Err (Nat × World) :=
  match w.heap[a]? with
  | none => .error .undefinedBehaviour
  | some s => .ok (alloc w (copyObj s))

/-- the members of `MeshSet` that change it (MeshSet.hh:159-161, 245-252, MeshSet.cc:89-270) -/
inductive Act
  | add (e : Nat)
  | rem (e : Nat)
  | addMany (es : List Nat)
  | remMany (es : List Nat)
  | clear
  | rename (name : String)

/-- one of them, on an object; the mesh is asked about the kind that the set has (MeshSet.cc:96, 134, 153-161) -/
def Act.on (view : EntityKind → MeshView) (s : Obj) : Act → Except MSet.Err Obj
  | .add e => addEntity (view s.kind) s e
  | .rem e => remEntity (view s.kind) s e
  | .addMany es => addEntities (view s.kind) s es
  | .remMany es => remEntities (view s.kind) s es
  | .clear => .ok (MSet.clear s)
  | .rename n => .ok { s with name := n }

/-- one of them, on the object at an address (MeshSet.hh:159-161, 245-252, MeshSet.cc:89-270) -/
def actAt (w : World) (a : Nat) (k : Act) : Except Err World :=
  match w.heap[a]? with
  | none => .error .undefinedBehaviour
  | some s =>
    match k.on w.view s with
    | .error e => .error (.set e)
    | .ok s' => .ok { w with heap := w.heap.set a s' }

/-- one after the other, on objects at the addresses (MeshSet.hh:159-161, 245-252, MeshSet.cc:89-270) -/
def runAt (w : World) : List (Nat × Act) → Except Err World
  | [] => .ok w
  | (a, k) :: hist =>
    match actAt w a k with
    | .error e => .error e
    | .ok w' => runAt w' hist

end Jali.Reg
