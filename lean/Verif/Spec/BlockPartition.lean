import Verif.Model.BlockPartition
/-
Specification vocabulary for block partitioning: cells are index triples of which the first `dim`
components count.
-/
namespace Jali.BlockPartition.Spec
open Jali.BlockPartition

/-- Cell `c` belongs to the grid with `n d` cells in direction `d < dim`. -/
def InGrid (dim : Nat) (n c : Fin 3 → Nat) : Prop := ∀ d : Fin 3, d.val < dim → c d < n d

/-- Cell `c` belongs to the block that starts at `b.lo` and has `b.num` cells in each direction. -/
def InBlock (dim : Nat) (b : Block) (c : Fin 3 → Nat) : Prop :=
  ∀ d : Fin 3, d.val < dim → b.lo d ≤ c d ∧ c d < b.lo d + b.num d

/-- Number of cells of the grid. -/
def gridSize : Nat → (Fin 3 → Nat) → Nat
  | 1, n => n 0
  | 2, n => n 0 * n 1
  | 3, n => n 0 * n 1 * n 2
  | _, _ => 0

/-- The blocks tile the grid: each cell of the grid is in exactly one block, and each block is
non-empty and does not stick out of the grid. -/
structure Tiles (dim : Nat) (n : Fin 3 → Nat) (bs : List Block) : Prop where
  cover : ∀ c, InGrid dim n c → ∃ i : Fin bs.length, InBlock dim bs[i] c ∧
            ∀ j : Fin bs.length, InBlock dim bs[j] c → j = i
  nonempty : ∀ b ∈ bs, ∀ d : Fin 3, d.val < dim → 0 < b.num d
  inside : ∀ b ∈ bs, ∀ d : Fin 3, d.val < dim → b.lo d + b.num d ≤ n d

end Jali.BlockPartition.Spec
