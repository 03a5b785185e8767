/-! Vocabulary for the properties of tiles. It mentions no definition of the model. -/
namespace Jali.Tile.Spec

/-- Entity `e` belongs to one of `cells`, where `query c` lists the entities of cell `c`. -/
def Touches (query : Nat → List Nat) (cells : List Nat) (e : Nat) : Prop := ∃ c ∈ cells, e ∈ query c

/-- Part `i` is the lowest-numbered part one of whose cells has entity `e`. -/
def FirstToTouch (query : Nat → List Nat) (parts : List (List Nat)) (i e : Nat) : Prop :=
  (∃ p, parts[i]? = some p ∧ Touches query p e) ∧ ∀ j < i, ∀ p, parts[j]? = some p → ¬ Touches query p e

/-- Cell `x` can be reached from one of `cells` by at most `k` adjacency steps. -/
def Near (adj : Nat → List Nat) (cells : List Nat) : Nat → Nat → Prop
  | 0, x => x ∈ cells
  | k + 1, x => Near adj cells k x ∨ ∃ y, Near adj cells k y ∧ x ∈ adj y

/-- Among the entities `0..n-1`: each touched one is owned by exactly one tile and that tile is the reported master;
the others are owned by no tile and their master is reported as `-1`. -/
def OwnedOnce (n : Nat) (touched : Nat → Prop) (owns : Nat → Nat → Prop) (master : Nat → Option Int) : Prop :=
  ∀ e < n, (touched e → ∃ i, owns i e ∧ master e = some (i : Int) ∧ ∀ j, owns j e → j = i) ∧
    (¬ touched e → (∀ i, ¬ owns i e) ∧ master e = some (-1))

end Jali.Tile.Spec
