import Verif.Model.State
/-
Model of the look-up of the mesh sets of materials in `State` (src/statemanager/JaliState.h:145-147, 189-195). A `shared_ptr<MeshSet>` is an
address in the store of sets.
-/
namespace Jali.St

/-- `material_set` (JaliState.h:145-147); reads past the vector for other numbers -/
def materialSet {V : Type} (s : State V) (m : Nat) : Except Err Nat :=
  match s.mats[m]? with
  | some a => .ok a
  | none => .error .undefinedBehaviour

/-- `material_set_by_name` (JaliState.h:189-195); `none`: null pointer -/
def materialSetByName {V : Type} (s : State V) (name : String) : Option Nat :=
  s.mats.find? fun a => addrNamed s name a

end Jali.St
