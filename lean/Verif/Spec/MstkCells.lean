import Verif.Spec.MstkMesh
/-
What the surface of a cell looks like.
-/
namespace Jali.Mstk

/-- the cell is bounded by a closed surface of polygons, as a convex polyhedron is: every edge of a face belongs to exactly one
other face of the cell, two faces have at most one edge in common, every face has at least three edges -/
structure MMesh.ClosedCell (m : MMesh) (r : Region m.nf) : Prop where
  noface : (r.faces.map Prod.fst).Nodup
  noedge : ∀ p ∈ r.faces, ((m.face p.1).edges.map Prod.fst).Nodup
  three : ∀ p ∈ r.faces, 3 ≤ (m.face p.1).edges.length
  closed : ∀ p ∈ r.faces, ∀ e ∈ (m.face p.1).edges.map Prod.fst,
    ∃ q ∈ r.faces, q ≠ p ∧ e ∈ (m.face q.1).edges.map Prod.fst ∧
      ∀ q' ∈ r.faces, q' ≠ p → e ∈ (m.face q'.1).edges.map Prod.fst → q' = q
  oneedge : ∀ p ∈ r.faces, ∀ q ∈ r.faces, p ≠ q → ∀ e e', e ∈ (m.face p.1).edges.map Prod.fst →
    e ∈ (m.face q.1).edges.map Prod.fst → e' ∈ (m.face p.1).edges.map Prod.fst → e' ∈ (m.face q.1).edges.map Prod.fst → e = e'

/-- the vertices of the faces of a cell -/
def MMesh.IsVertex (m : MMesh) (r : Region m.nf) (v : Fin m.nv) : Prop :=
  ∃ p ∈ r.faces, ∃ q ∈ (m.face p.1).edges, v = m.start q

end Jali.Mstk
