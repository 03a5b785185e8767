import Verif.Model.MstkExtract
import Verif.Spec.MstkMesh
/-
What it means that the answers of one mesh are those of another after a translation of ids. No algorithm of the model is
used here.
-/
namespace Jali.Mstk

/-- the ids in an answer are translated one by one; no answer if one of them has no translation -/
def translated (t : Nat → Option Nat) (o : Option (List Nat)) : Option (List Nat) := o.bind fun l => l.mapM t

/-- the same for ids with directions; the directions stay -/
def translatedDirs (t : Nat → Option Nat) (o : Option (List (Nat × Int))) : Option (List (Nat × Int)) :=
  o.bind fun l => l.mapM fun p => (t p.1).map fun q => (q, p.2)

example : translated (fun n => [5, 7, 9][n]?) (some [2, 0]) = some [9, 5] := by decide
example : translated (fun n => [5, 7, 9][n]?) (some [2, 3]) = none := by decide
example : translatedDirs (fun n => [5, 7, 9][n]?) (some [(2, 1), (0, -1)]) = some [(9, 1), (5, -1)] := by decide

/-- a serial 3D mesh with faces requested: no face is flipped -/
structure Source.Ready3 {α : Type} (s : Source α) : Prop where
  dim : s.dim3 = true
  ready : s.j.Ready3
  noflip : ∀ b ∈ s.j.faceflip, b = false

/-- a serial 2D mesh with faces requested -/
structure Source.Ready2 {α : Type} (s : Source α) : Prop where
  dim : s.dim3 = false
  ready : s.j.Ready2
  noflip : ∀ b ∈ s.j.faceflip, b = false

/-- edges requested in a serial run -/
structure Source.ReadyE {α : Type} (s : Source α) : Prop where
  ready : s.j.ReadyE
  noflip : ∀ b ∈ s.j.edgeflip, b = false

/-- a pair of nodes as a list -/
def asList (o : Option (Nat × Nat)) : Option (List Nat) := o.map fun p => [p.1, p.2]

end Jali.Mstk
