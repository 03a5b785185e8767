import Verif.Model.Point
import Mathlib.Data.List.Rotate
/-
Textbook geometry for the property statements: polygons as cyclic sequences of vertices, contour formulas, determinants.
-/
namespace Jali.Geom.Spec
noncomputable section
open Jali.Geom

/-- the directed edges of the polygon with these vertices: each vertex with the next one, the last with the first -/
def polyEdges {α : Type} (l : List α) : List (α × α) := l.zip (l.rotate 1)

/-- twice the signed area of the plane triangle a b c -/
def orient2 (a b c : Point) : ℝ := (b.x - a.x) * (c.y - a.y) - (c.x - a.x) * (b.y - a.y)

/-- the shoelace formula: signed area of a plane polygon -/
def shoelace (l : List Point) : ℝ := ((polyEdges l).map fun e => e.1.x * e.2.y - e.2.x * e.1.y).sum / 2

/-- first moments of a plane polygon: the integrals of x and of y over it, by the contour formulas -/
def momentX (l : List Point) : ℝ :=
  ((polyEdges l).map fun e => (e.1.x + e.2.x) * (e.1.x * e.2.y - e.2.x * e.1.y)).sum / 6
def momentY (l : List Point) : ℝ :=
  ((polyEdges l).map fun e => (e.1.y + e.2.y) * (e.1.x * e.2.y - e.2.x * e.1.y)).sum / 6

/-- the contour formula for the area vector of a polygon in space, half the sum of a × b over its edges -/
def areaVector (l : List Point) : Point :=
  ⟨3, ((polyEdges l).map fun e => e.1.y * e.2.z - e.1.z * e.2.y).sum / 2,
   ((polyEdges l).map fun e => e.1.z * e.2.x - e.1.x * e.2.z).sum / 2,
   ((polyEdges l).map fun e => e.1.x * e.2.y - e.1.y * e.2.x).sum / 2⟩

/-- the determinant of three vectors -/
def det3 (a b c : Point) : ℝ :=
  (a.y * b.z - a.z * b.y) * c.x + (a.z * b.x - a.x * b.z) * c.y + (a.x * b.y - a.y * b.x) * c.z

/-- the vector from `o` to `p` in space -/
def vec (o p : Point) : Point := ⟨3, p.x - o.x, p.y - o.y, p.z - o.z⟩

/-- signed volume of the tetrahedron o a b c -/
def tetVol (o a b c : Point) : ℝ := det3 (vec o a) (vec o b) (vec o c) / 6

/-- the average of a list of numbers -/
def mean (l : List ℝ) : ℝ := l.sum / l.length

/-- the average of the vertices -/
def vertexMean (d : Nat) (l : List Point) : Point := ⟨d, mean (l.map Point.x), mean (l.map Point.y), mean (l.map Point.z)⟩

/-- The triangles a polygon in space is divided into: itself if it has three vertices, otherwise one triangle for each
edge with the average of the vertices as third corner. -/
def facets (l : List Point) : List (Point × Point × Point) :=
  match l with
  | [a, b, c] => [(a, b, c)]
  | l => (polyEdges l).map fun e => (e.1, e.2, vertexMean 3 l)

/-- Every edge of a closed oriented surface is used as often in one direction as in the other. -/
def Closed (faces : List (List Point)) : Prop :=
  ((faces.flatMap polyEdges).map Prod.swap).Perm (faces.flatMap polyEdges)

/-- strictly convex and counter-clockwise: the vertices are distinct, and all other vertices are strictly to the left of each edge -/
structure StrictlyConvex (l : List Point) : Prop where
  nodup : l.Nodup
  left : ∀ e ∈ polyEdges l, ∀ v ∈ l, v = e.1 ∨ v = e.2 ∨ 0 < orient2 e.1 e.2 v

/-- scalar product in space -/
def inner3 (a b : Point) : ℝ := a.x * b.x + a.y * b.y + a.z * b.z

/-- A polygon in space that lies in a plane perpendicular to `n`, and is strictly convex and counter-clockwise when one looks
from the side `n` points to. -/
structure ConvexInSpace (n : Point) (l : List Point) : Prop where
  three : 3 ≤ l.length
  dim : ∀ v ∈ l, v.d = 3
  nodup : l.Nodup
  planar : ∀ v ∈ l, ∀ w ∈ l, inner3 n (vec v w) = 0
  left : ∀ e ∈ polyEdges l, ∀ v ∈ l, v = e.1 ∨ v = e.2 ∨ 0 < det3 (vec e.1 e.2) (vec e.1 v) n

/-- the point is in the plane of the polygon, and strictly inside -/
def InteriorInSpace (n : Point) (l : List Point) (p : Point) : Prop :=
  p.d = 3 ∧ (∀ v ∈ l, inner3 n (vec v p) = 0) ∧ ∀ e ∈ polyEdges l, 0 < det3 (vec e.1 e.2) (vec e.1 p) n

/-- the point is in the plane of the polygon, and inside or on its boundary -/
def InPolygonInSpace (n : Point) (l : List Point) (p : Point) : Prop :=
  p.d = 3 ∧ (∀ v ∈ l, inner3 n (vec v p) = 0) ∧ ∀ e ∈ polyEdges l, 0 ≤ det3 (vec e.1 e.2) (vec e.1 p) n

/-- the square of the distance of two points in space -/
def dist2 (p q : Point) : ℝ := inner3 (vec p q) (vec p q)

end
end Jali.Geom.Spec
