import Verif.Model.SetCopy
/-
Specification for C185: what a set would be if nothing but its own changes had happened.
-/
namespace Jali.Reg
open Jali.MSet

/-- the set after the changes, if it were the only one in the program -/
def alone (view : EntityKind → MeshView) (s : Obj) : List Act → Except MSet.Err Obj
  | [] => .ok s
  | k :: ks =>
    match k.on view s with
    | .error e => .error e
    | .ok s' => alone view s' ks

/-- the changes of a history that are made through the pointer to `b` -/
def changesOf (hist : List (Nat × Act)) (b : Nat) : List Act := (hist.filter fun x => x.1 = b).map fun x => x.2

end Jali.Reg
