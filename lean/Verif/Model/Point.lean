import Mathlib.Analysis.Real.Sqrt
/-
`JaliGeometry::Point` (src/geometry/Point.hh). Coordinates are real numbers instead of doubles (no rounding). A point of
dimension `d` stores three coordinates; those beyond `d` are 0 here, in the code they may be indeterminate, and no
operator modelled here reads them when the operands have the same dimension.
-/
namespace Jali.Geom
noncomputable section

/-- `Point` (Point.hh:64-244): `d` and `xyz`. -/
@[ext] structure Point where
  d : Nat
  x : ℝ
  y : ℝ
  z : ℝ

namespace Point

/-- `Point(N)` (Point.hh:74-77) and `Point()` for `N = 0` (Point.hh:66-69) -/
def zero (n : Nat) : Point := ⟨n, 0, 0, 0⟩
instance : Inhabited Point := ⟨zero 0⟩
/-- `Point(x, y)` (Point.hh:78-82) -/
def mk2 (x y : ℝ) : Point := ⟨2, x, y, 0⟩
/-- `Point(x, y, z)` (Point.hh:83-88) -/
def mk3 (x y z : ℝ) : Point := ⟨3, x, y, z⟩
/-- `Point(1)` followed by `set(v)` (as in the operators for dimension 1, e.g. Point.hh:169-173) -/
def mk1 (v : ℝ) : Point := ⟨1, v, 0, 0⟩

/-- `operator+` (Point.hh:188-198) -/
def add (p q : Point) : Point :=
  if p.d = 1 then mk1 (p.x + q.x) else if p.d = 2 then mk2 (p.x + q.x) (p.y + q.y)
  else mk3 (p.x + q.x) (p.y + q.y) (p.z + q.z)
/-- binary `operator-` (Point.hh:199-209) -/
def sub (p q : Point) : Point :=
  if p.d = 1 then mk1 (p.x - q.x) else if p.d = 2 then mk2 (p.x - q.x) (p.y - q.y)
  else mk3 (p.x - q.x) (p.y - q.y) (p.z - q.z)
/-- unary `operator-` (Point.hh:210-220) -/
def neg (p : Point) : Point :=
  if p.d = 1 then mk1 (-p.x) else if p.d = 2 then mk2 (-p.x) (-p.y) else mk3 (-p.x) (-p.y) (-p.z)
/-- `r*p` and `p*r` (Point.hh:168-179) -/
def smul (r : ℝ) (p : Point) : Point :=
  if p.d = 1 then mk1 (r * p.x) else if p.d = 2 then mk2 (r * p.x) (r * p.y) else mk3 (r * p.x) (r * p.y) (r * p.z)
/-- `p/r` (Point.hh:186) -/
def sdiv (p : Point) (r : ℝ) : Point := smul (1 / r) p
/-- `p*q` (Point.hh:180-184): the loop runs over the dimension of `p` -/
def dot (p q : Point) : ℝ :=
  (if 0 < p.d then p.x * q.x else 0) + (if 1 < p.d then p.y * q.y else 0) + (if 2 < p.d then p.z * q.z else 0)
/-- `p^q` (Point.hh:222-232) -/
def cross (p q : Point) : Point :=
  if p.d = 2 then ⟨2, p.x * q.y - q.x * p.y, 0, 0⟩
  else if p.d = 3 then ⟨3, p.y * q.z - p.z * q.y, p.z * q.x - p.x * q.z, p.x * q.y - p.y * q.x⟩
  else zero p.d
/-- `p += q` (Point.hh:151-154): the loop runs over the dimension of `p`, so it does nothing for `Point()` -/
def addAssign (p q : Point) : Point :=
  ⟨p.d, if 0 < p.d then p.x + q.x else p.x, if 1 < p.d then p.y + q.y else p.y, if 2 < p.d then p.z + q.z else p.z⟩
/-- `p *= c` (Point.hh:159-162) -/
def mulAssign (p : Point) (c : ℝ) : Point :=
  ⟨p.d, if 0 < p.d then p.x * c else p.x, if 1 < p.d then p.y * c else p.y, if 2 < p.d then p.z * c else p.z⟩
/-- `p /= c` (Point.hh:163-166) -/
def divAssign (p : Point) (c : ℝ) : Point :=
  ⟨p.d, if 0 < p.d then p.x / c else p.x, if 1 < p.d then p.y / c else p.y, if 2 < p.d then p.z / c else p.z⟩
/-- `set(val)` (Point.hh:101-105); `none` if the assertion `d > 0` fails -/
def setAll (p : Point) (v : ℝ) : Option Point :=
  if 0 < p.d then some ⟨p.d, v, if 1 < p.d then v else p.y, if 2 < p.d then v else p.z⟩ else none
/-- `L22` (Point.hh:247) -/
def L22 (p : Point) : ℝ := dot p p
/-- `norm` (Point.hh:248) -/
def norm (p : Point) : ℝ := Real.sqrt (dot p p)

instance : Add Point := ⟨add⟩
instance : Sub Point := ⟨sub⟩
instance : Neg Point := ⟨neg⟩

end Point
end
end Jali.Geom
