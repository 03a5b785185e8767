import Verif.Spec.State
import Verif.Model.MaterialNames
/-
Specification for C186: the names of the materials that a history of calls asks for.
-/
namespace Jali.St

/-- the names of the materials, in order, after a call: a name in use is not added again -/
def Op.onNames {V : Type} (N : List String) : Op V → List String
  | .addMaterial n _ => if n ∈ N then N else N ++ [n]
  | .remMaterial m => N.eraseIdx m
  | .remMaterialByName n => N.filter fun x => x ≠ n
  | _ => N

/-- the names of the materials after a history of calls -/
def namesAfter {V : Type} (ops : List (Op V)) : List String := ops.foldl (fun N o => o.onNames N) []

end Jali.St
