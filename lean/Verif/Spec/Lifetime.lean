import Verif.Model.Lifetime
/-! What is used to state the lifetime properties (C167). -/
namespace Jali.Life

/-- the program can get at the object: it has a `shared_ptr` on it, or on an object that holds a `shared_ptr` on it, ... -/
inductive World.Kept (w : World) : Nat → Prop where
  | handle {i : Nat} : i ∈ w.handles → w.Kept i
  | held {a i : Nat} : w.Kept a → (a, i) ∈ w.owned → w.Kept i

/-- the object exists -/
def World.Exists (w : World) (i : Nat) : Prop := i ∈ w.alive

/-- what a program can have done so far -/
def World.Reached (w : World) : Prop := ∃ ops, World.empty.run ops = some w

end Jali.Life
