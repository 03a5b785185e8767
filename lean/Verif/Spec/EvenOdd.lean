import Verif.Spec.Geometry
/-! Specification of C145, C146: segments that do not meet, or that cross, in the plane (only the coordinates x and y matter)
and in space. -/
namespace Jali.Geom.Spec
open Jali.Geom

noncomputable section

/-- the point with coordinates `x`, `y` is on the closed segment from `a` to `b` -/
def OnSeg (a b : Point) (x y : ℝ) : Prop :=
  ∃ s : ℝ, 0 ≤ s ∧ s ≤ 1 ∧ x = a.x + s * (b.x - a.x) ∧ y = a.y + s * (b.y - a.y)

/-- the closed segments from `a` to `b` and from `p` to `q` have no common point -/
def Apart (a b p q : Point) : Prop := ∀ x y, OnSeg a b x y → ¬ OnSeg p q x y

/-- the segments cross: the ends of each are strictly on different sides of the other -/
def Cross (a b p q : Point) : Prop :=
  orient2 a b p * orient2 a b q < 0 ∧ orient2 p q a * orient2 p q b < 0

/-- A polygon in space that lies in a plane perpendicular to `n`, convex or not. The first three vertices are not on a line, and
the polygon turns left at the second vertex when one looks from the side `n` points to. -/
structure PlanarPolygon (n : Point) (l : List Point) : Prop where
  three : 3 ≤ l.length
  dim : ∀ v ∈ l, v.d = 3
  planar : ∀ v ∈ l, ∀ w ∈ l, inner3 n (vec v w) = 0
  corner : ∀ p0 p1 p2 rest, l = p0 :: p1 :: p2 :: rest → 0 < det3 (vec p1 p2) (vec p1 p0) n

/-- the point of space is in the plane of the polygon -/
def InPlaneOf (n : Point) (l : List Point) (p : Point) : Prop := p.d = 3 ∧ ∀ v ∈ l, inner3 n (vec v p) = 0

/-- the point of the segment from `a` to `b` in space, for `s` from 0 to 1 -/
def along (a b : Point) (s : ℝ) : Point := ⟨3, a.x + s * (b.x - a.x), a.y + s * (b.y - a.y), a.z + s * (b.z - a.z)⟩

/-- two closed segments in space without common point -/
def Apart3 (a b p q : Point) : Prop :=
  ∀ s r : ℝ, 0 ≤ s → s ≤ 1 → 0 ≤ r → r ≤ 1 → along a b s ≠ along p q r

/-- two segments in a plane perpendicular to `n` that cross: the ends of each are strictly on different sides of the other -/
def Cross3 (n a b p q : Point) : Prop :=
  det3 (vec a b) (vec a p) n * det3 (vec a b) (vec a q) n < 0 ∧ det3 (vec p q) (vec p a) n * det3 (vec p q) (vec p b) n < 0

end
end Jali.Geom.Spec
