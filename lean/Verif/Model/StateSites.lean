import Verif.Model.State
import Verif.Spec.State
/-
Several state managers on one mesh. `State::create` can be called any number of times for a mesh
(src/statemanager/JaliState.h:81-97, 1425-1431); every manager has its own vectors, `material_cellsets_` and
`cell_materials_` (JaliState.h:1434-1462), the mesh sets of the materials belong to the mesh
(src/statemanager/JaliState.cc:67-76, src/mesh/MeshSet.cc:277-298) and stay there when the manager goes.

Simplification: every manager keeps its own data blocks; handles of the vectors of one manager are not given to
operations of another one.
-/
namespace Jali.St
open Jali.MSet

/-- A mesh with the state managers created on it; `none` for one that was destroyed. The `w` of a stored manager is
not used: the sets are those of the mesh (`mymesh_`, JaliState.h:1437). -/
structure Site (V : Type) where
  mesh : Nat
  w : Reg.World
  managers : List (Option (State V))

/-- the manager with number `i` as its methods see it: `mymesh_` and the sets it points to are those of the mesh
(JaliState.h:1437, 1456) -/
def Site.manager {V : Type} (t : Site V) (i : Nat) : Option (State V) :=
  match t.managers[i]? with
  | some (some s) => some { s with w := t.w }
  | _ => none

/-- What a program does with the managers of a mesh. -/
inductive Act (V : Type)
  | create
  | destroy (i : Nat)
  | op (i : Nat) (o : Op V)

/-- One step: `State::create` (JaliState.h:81-97), the destructor (members only, JaliState.h:100-102, 1434-1462), or a
method of manager `i`. Using a manager that does not exist is an error of the program. -/
def Act.run {V : Type} (zero : V) (count : Count) (t : Site V) : Act V → Except Err (Site V)
  | .create => .ok { t with managers := t.managers ++ [some (St.create t.mesh t.w)] }
  | .destroy i =>
    match t.manager i with
    | none => .error .undefinedBehaviour
    | some _ => .ok { t with managers := t.managers.set i none }
  | .op i o =>
    match t.manager i with
    | none => .error .undefinedBehaviour
    | some s =>
      match o.run zero count s with
      | .error e => .error e
      | .ok (_, s') => .ok { t with w := s'.w, managers := t.managers.set i (some s') }

/-- a history of steps -/
def runSite {V : Type} (zero : V) (count : Count) : Site V → List (Act V) → Except Err (Site V)
  | t, [] => .ok t
  | t, a :: as =>
    match a.run zero count t with
    | .error e => .error e
    | .ok t1 => runSite zero count t1 as

end Jali.St
