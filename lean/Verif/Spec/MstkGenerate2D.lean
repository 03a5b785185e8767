import Verif.Model.MstkGenerate2D
import Verif.Spec.MstkGenerate
/-
Specification vocabulary for regular quadrilateral meshes: the geometric model is a rectangle with corners 1..4
(counterclockwise from the lower left), edges 1 bottom, 2 right, 3 top, 4 left, and one face.
-/
namespace Jali.MstkGen.Spec
open Jali.MstkGen

/-- model entities of the rectangle by dimension and number -/
def modelEnt2 : Nat → Nat → Option (Pos × Pos)
  | 0, 1 => some (.lo, .lo)
  | 0, 2 => some (.hi, .lo)
  | 0, 3 => some (.hi, .hi)
  | 0, 4 => some (.lo, .hi)
  | 1, 1 => some (.mid, .lo)
  | 1, 2 => some (.hi, .mid)
  | 1, 3 => some (.mid, .hi)
  | 1, 4 => some (.lo, .mid)
  | 2, 1 => some (.mid, .mid)
  | _, _ => none

section
variable {K : Type} [Field K] [LinearOrder K]

/-- the point `(x, y)` lies in the (relatively open) model entity number `gent` of dimension `gdim` -/
def OnModel2 (d : Dom2 K) (gdim gent : Nat) (x y : K) : Prop :=
  ∃ p : Pos × Pos, modelEnt2 gdim gent = some p ∧ OnAxis d.X0 d.X1 x p.1 ∧ OnAxis d.Y0 d.Y1 y p.2

/-- a domain of positive size with at least one cell in each direction -/
structure GoodDom2 (d : Dom2 K) : Prop where
  x : d.X0 < d.X1
  y : d.Y0 < d.Y1
  nx : 0 < d.NX
  ny : 0 < d.NY

/-- a block with at least one cell in each direction that lies inside the grid -/
structure GoodBlk2 (d : Dom2 K) (b : Blk2) : Prop where
  nx : 0 < b.nx
  ny : 0 < b.ny
  ix : b.i0 + b.nx ≤ d.NX
  iy : b.j0 + b.ny ≤ d.NY
end

section
variable {K : Type} [Field K]

/-- position of a vertex -/
def pos2 (v : Vert2 K) : K × K := (v.x, v.y)

/-- the grid point `(i, j)` -/
def gpt2 (d : Dom2 K) (i j : Nat) : K × K := (gridPt d.X0 d.X1 d.NX i, gridPt d.Y0 d.Y1 d.NY j)

/-- the edge joins the points `p` and `q`, in one direction or the other -/
def Joins (e : Edge2 K) (p q : K × K) : Prop :=
  (pos2 e.v0 = p ∧ pos2 e.v1 = q) ∨ (pos2 e.v0 = q ∧ pos2 e.v1 = p)

/-- first vertex of an edge when it is traversed in the given direction -/
def start (e : Edge2 K × Bool) : Vert2 K := if e.2 then e.1.v0 else e.1.v1
/-- last vertex of an edge when it is traversed in the given direction -/
def finish (e : Edge2 K × Bool) : Vert2 K := if e.2 then e.1.v1 else e.1.v0

/-- `p` and `q` are neighbouring grid points of the block -/
def Neighbours (d : Dom2 K) (b : Blk2) (p q : K × K) : Prop :=
  (∃ i j, b.i0 ≤ i ∧ i < b.i0 + b.nx ∧ b.j0 ≤ j ∧ j ≤ b.j0 + b.ny ∧ p = gpt2 d i j ∧ q = gpt2 d (i + 1) j) ∨
  (∃ i j, b.i0 ≤ i ∧ i ≤ b.i0 + b.nx ∧ b.j0 ≤ j ∧ j < b.j0 + b.ny ∧ p = gpt2 d i j ∧ q = gpt2 d i (j + 1))

/-- number of vertices of the whole grid -/
def nVerts2 (d : Dom2 K) : Nat := (d.NX + 1) * (d.NY + 1)
/-- number of edges: horizontal and vertical -/
def nEdges2 (d : Dom2 K) : Nat := d.NX * (d.NY + 1) + (d.NX + 1) * d.NY
/-- number of cells -/
def nCells2 (d : Dom2 K) : Nat := d.NX * d.NY

end
end Jali.MstkGen.Spec
