import Verif.Spec.Sides
import Verif.Spec.Geometry
/-! Vocabulary for the geometry of sides, wedges and corners. -/
namespace Jali.SideGeom.Spec
open Jali.Sides Jali.Sides.Spec Jali.Geom Jali.Geom.Spec

/-- the end nodes of an edge of a face, in the direction in which the face uses the edge -/
def usedEdge (m : Src) (e : Nat × Int) : Nat × Nat := if e.2 = 1 then m.edgeNodes e.1 else (m.edgeNodes e.1).swap

/-- `faceNodes f` are the vertices of face `f` in order: the edges of the face, in the directions in which it uses them,
run once around them. -/
def RunsAround (m : Src) (faceNodes : Nat → List Nat) : Prop :=
  ∀ c f fd, HasFace m c f fd → ((m.faceEdges f).map (usedEdge m)).Perm (polyEdges (faceNodes f))

/-- the vertices of a face of a cell, ordered so that its area vector points out of the cell -/
def outwardFace (faceNodes : Nat → List Nat) (f : Nat × Int) : List Nat :=
  if f.2 = 1 then faceNodes f.1 else (faceNodes f.1).reverse

/-- The faces of a plane cell are its edges, and run around its nodes in their order if turned so that the cell is on their
left. -/
def PlaneCell (m : Src) (c : Nat) : Prop :=
  ((m.cellFaces c).flatMap fun f => (m.faceEdges f.1).map fun e => if f.2 = 1 then m.edgeNodes e.1 else (m.edgeNodes e.1).swap).Perm
    (polyEdges (m.cellNodes c))

/-- the sum of vectors in space, and in the plane -/
noncomputable def sum3 (l : List Point) : Point := ⟨3, (l.map Point.x).sum, (l.map Point.y).sum, (l.map Point.z).sum⟩
noncomputable def sum2 (l : List Point) : Point := ⟨2, (l.map Point.x).sum, (l.map Point.y).sum, 0⟩

/-- All vertices of the face lie in one plane perpendicular to its area vector. -/
def Flat (l : List Point) : Prop := ∀ p ∈ l, ∀ q ∈ l, inner3 (areaVector l) (vec p q) = 0

/-- the edges of the faces of a cell, each with the direction in which the face, turned outwards, uses it -/
def edgeUses (m : Src) (c : Nat) : List (Nat × Int) :=
  (m.cellFaces c).flatMap fun f => (m.faceEdges f.1).map fun e => (e.1, f.2 * e.2)

/-- The faces of the cell meet in pairs along its edges: each edge is used as often in one direction as in the other. -/
def EdgesPaired (m : Src) (c : Nat) : Prop := ((edgeUses m c).map fun e => (e.1, -e.2)).Perm (edgeUses m c)

/-- the corners of a triangle given by indices -/
def triangle (t : Nat × Nat × Nat) : List Nat := [t.1, t.2.1, t.2.2]

/-- the midpoint of two points -/
noncomputable def midpoint (d : Nat) (p q : Point) : Point := ⟨d, (p.x + q.x) / 2, (p.y + q.y) / 2, (p.z + q.z) / 2⟩

/-- the midpoint of two points in the plane -/
noncomputable def mid2 (p q : Point) : Point := ⟨2, (p.x + q.x) / 2, (p.y + q.y) / 2, 0⟩

end Jali.SideGeom.Spec
