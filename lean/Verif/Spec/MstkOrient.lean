import Verif.Spec.MstkMesh
import Mathlib.Data.List.Rotate
/- Walking around a polygon. -/
namespace Jali.Mstk

/-- the pairs of consecutive elements of a cycle: `[a, b, c]` gives `(a, b), (b, c), (c, a)` -/
def cyclicPairs {α : Type} (l : List α) : List (α × α) := l.zip (l.rotate 1)

example : cyclicPairs [1, 2, 3] = [(1, 2), (2, 3), (3, 1)] := by decide

/-- an edge, given by its two nodes, travelled forwards (1) or backwards (-1) -/
def along (o : Option (Nat × Nat)) (d : Int) : Option (Nat × Nat) :=
  o.bind fun p => if d = 1 then some p else if d = -1 then some (p.2, p.1) else none

/-- a face of a 2D mesh has two nodes -/
def twoNodes (o : Option (List Nat)) : Option (Nat × Nat) :=
  match o with
  | some [a, b] => some (a, b)
  | _ => none

end Jali.Mstk
