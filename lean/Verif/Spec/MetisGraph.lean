import Verif.Model.MetisGraph
/-
What METIS expects of the graph it partitions (METIS manual, section 5.5: compressed storage of a graph), independently of how
the arrays are filled.
-/
namespace Jali.Metis

/-- the arrays describe, for `i < n`, the list `row i` -/
structure Csr (n : Nat) (xadj adjncy : List Nat) (row : Nat → List Nat) : Prop where
  size : xadj.length = n + 1
  first : xadj[0]? = some 0
  rows : ∀ i, i < n → ∃ a b, xadj[i]? = some a ∧ xadj[i + 1]? = some b ∧ a ≤ b ∧ (adjncy.drop a).take (b - a) = row i
  last : xadj[n]? = some adjncy.length

/-- the graph of `n` vertices is one METIS accepts: neighbours are vertices, no vertex is its own neighbour, an edge is listed at
both ends (equally often) -/
structure Graph (n : Nat) (row : Nat → List Nat) : Prop where
  vertices : ∀ i, i < n → ∀ k ∈ row i, k < n
  noloop : ∀ i, i < n → i ∉ row i
  both : ∀ i k, i < n → k < n → (row i).count k = (row k).count i

/-- two cells are joined in the graph as often as they have faces in common; `faces c` are the faces of the cell `c` -/
def JoinedByFaces (n : Nat) (row : Nat → List Nat) (faces : Nat → List Nat) : Prop :=
  ∀ i k, i < n → k < n → i ≠ k → (row i).count k = ((faces i).filter fun f => f ∈ faces k).length

end Jali.Metis
