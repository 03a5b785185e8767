import Verif.Model.MstkSets
/-
Meshes extracted from meshes that were themselves extracted.
-/
namespace Jali.Mstk

variable {α : Type} [Zero α]

/-- `Descends src t par`: the mesh `t` was made from `src` by extracting cells any number of times (the lists of cells may be different each
time); `par` asks for the parent again and again until an entity of `src` is reached. -/
inductive Descends (src : Source α) : Source α → (EntityKind → Nat → Option Nat) → Prop
  | self : Descends src src fun _ i => some i
  | again {t : Source α} {par : EntityKind → Nat → Option Nat} (ht : Descends src t par) (edges : Bool) (ids : List Nat) (x : Extracted t)
      (hx : extract t .CELL false false true edges ids = .made x) :
      Descends src x.asSource fun k i => (x.parent k i).bind (par k)

end Jali.Mstk
