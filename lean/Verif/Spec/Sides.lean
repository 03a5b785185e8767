import Mathlib.Data.List.Nodup
import Verif.Model.Sides
/-! Vocabulary for the properties of sides, wedges and corners. -/
namespace Jali.Sides.Spec

/-- The positions, in ascending order, of the elements of `l` that satisfy `p`. -/
def positions {α : Type} (p : α → Bool) (l : List α) : List Nat :=
  (List.range l.length).filter fun k => (l[k]?).any p

/-- Cell `c` of the mesh has face `f`, used in direction `fd`. -/
def HasFace (m : Src) (c f : Nat) (fd : Int) : Prop := c ∈ m.cells ∧ (f, fd) ∈ m.cellFaces c

/-- The incidences a side stands for: edge `e` of face `f` of cell `c`. -/
def Incident (m : Src) (c f e : Nat) : Prop := (∃ fd, HasFace m c f fd) ∧ ∃ ed, (e, ed) ∈ m.faceEdges f

/-- Node `n` is an end of some edge of a face of cell `c`. -/
def OnEdge (m : Src) (c n : Nat) : Prop :=
  ∃ f e, Incident m c f e ∧ ((m.edgeNodes e).1 = n ∨ (m.edgeNodes e).2 = n)

/-- A mesh: cells listed once, each of one of the three types, with different faces, each with different edges; at most
two cells share a face; ids in range. -/
structure Valid (m : Src) : Prop where
  cells_nodup : m.cells.Nodup
  cells_lt : ∀ c ∈ m.cells, c < m.ncells
  types : ∀ c ∈ m.cells, m.cellType c = .PARALLEL_OWNED ∨ m.cellType c = .PARALLEL_GHOST ∨
    m.cellType c = .BOUNDARY_GHOST
  faces_nodup : ∀ c ∈ m.cells, ((m.cellFaces c).map Prod.fst).Nodup
  edges_nodup : ∀ c f fd, HasFace m c f fd → ((m.faceEdges f).map Prod.fst).Nodup
  edges_lt : ∀ c f e, Incident m c f e → e < m.nedges
  two_cells : ∀ f c1 d1 c2 d2 c3 d3, HasFace m c1 f d1 → HasFace m c2 f d2 → HasFace m c3 f d3 →
    c1 = c2 ∨ c1 = c3 ∨ c2 = c3

/-- Directions are ±1 and the two cells of a face use it in opposite directions. -/
structure Oriented (m : Src) : Prop where
  fdir : ∀ c f d, HasFace m c f d → d = 1 ∨ d = -1
  edir : ∀ c f d e ed, HasFace m c f d → (e, ed) ∈ m.faceEdges f → ed = 1 ∨ ed = -1
  opposite : ∀ f c1 d1 c2 d2, HasFace m c1 f d1 → HasFace m c2 f d2 → c1 ≠ c2 → d2 = -d1

/-- The nodes of a cell are the ends of the edges of its faces. -/
structure NodesOk (m : Src) : Prop where
  nodup : ∀ c ∈ m.cells, (m.cellNodes c).Nodup
  lt : ∀ c ∈ m.cells, ∀ n ∈ m.cellNodes c, n < m.nnodes
  ends : ∀ c ∈ m.cells, ∀ n, n ∈ m.cellNodes c ↔ OnEdge m c n

end Jali.Sides.Spec
