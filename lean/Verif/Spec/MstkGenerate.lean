import Verif.Model.MstkGenerate
import Mathlib.Algebra.Order.Field.Basic
/-
Specification vocabulary for the generation of regular meshes: the geometric model is a box with 8 corners, 12 edges, 6
faces and 1 region, each of them a product of three "sides"; the figure in Mesh_MSTK.cc:4602-4628 numbers them.
-/
namespace Jali.MstkGen.Spec
open Jali.MstkGen

/-- position along one axis: at the lower end, strictly inside, at the upper end -/
inductive Pos where
  | lo | mid | hi
  deriving DecidableEq, Repr

/-- The model entities by dimension and number, as drawn in the figure (x to the right, y to the back, z up). -/
def modelEnt : Nat → Nat → Option (Pos × Pos × Pos)
  | 0, 1 => some (.lo, .lo, .lo)
  | 0, 2 => some (.hi, .lo, .lo)
  | 0, 3 => some (.lo, .hi, .lo)
  | 0, 4 => some (.hi, .hi, .lo)
  | 0, 5 => some (.lo, .lo, .hi)
  | 0, 6 => some (.hi, .lo, .hi)
  | 0, 7 => some (.lo, .hi, .hi)
  | 0, 8 => some (.hi, .hi, .hi)
  | 1, 1 => some (.mid, .lo, .lo)
  | 1, 2 => some (.hi, .lo, .mid)
  | 1, 3 => some (.mid, .lo, .hi)
  | 1, 4 => some (.lo, .lo, .mid)
  | 1, 5 => some (.mid, .hi, .lo)
  | 1, 6 => some (.hi, .hi, .mid)
  | 1, 7 => some (.mid, .hi, .hi)
  | 1, 8 => some (.lo, .hi, .mid)
  | 1, 9 => some (.lo, .mid, .lo)
  | 1, 10 => some (.hi, .mid, .lo)
  | 1, 11 => some (.hi, .mid, .hi)
  | 1, 12 => some (.lo, .mid, .hi)
  | 2, 1 => some (.mid, .lo, .mid)
  | 2, 2 => some (.mid, .hi, .mid)
  | 2, 3 => some (.mid, .mid, .lo)
  | 2, 4 => some (.mid, .mid, .hi)
  | 2, 5 => some (.hi, .mid, .mid)
  | 2, 6 => some (.lo, .mid, .mid)
  | 3, 1 => some (.mid, .mid, .mid)
  | _, _ => none

section
variable {K : Type} [Field K] [LinearOrder K]

/-- `x` is at this position of the interval from `a` to `b` -/
def OnAxis (a b x : K) : Pos → Prop
  | .lo => x = a
  | .mid => a < x ∧ x < b
  | .hi => x = b

/-- the point `(x, y, z)` lies in the (relatively open) model entity number `gent` of dimension `gdim` -/
def OnModel (d : Dom K) (gdim gent : Nat) (x y z : K) : Prop :=
  ∃ p : Pos × Pos × Pos, modelEnt gdim gent = some p ∧
    OnAxis d.X0 d.X1 x p.1 ∧ OnAxis d.Y0 d.Y1 y p.2.1 ∧ OnAxis d.Z0 d.Z1 z p.2.2

/-- a domain of positive size with at least one cell in each direction -/
structure GoodDom (d : Dom K) : Prop where
  x : d.X0 < d.X1
  y : d.Y0 < d.Y1
  z : d.Z0 < d.Z1
  nx : 0 < d.NX
  ny : 0 < d.NY
  nz : 0 < d.NZ

/-- a block with at least one cell in each direction that lies inside the grid -/
structure GoodBlk (d : Dom K) (b : Blk) : Prop where
  nx : 0 < b.nx
  ny : 0 < b.ny
  nz : 0 < b.nz
  ix : b.i0 + b.nx ≤ d.NX
  iy : b.j0 + b.ny ≤ d.NY
  iz : b.k0 + b.nz ≤ d.NZ
end

section
variable {K : Type} [Field K]

/-- the coordinates of grid point number `i` of `0 .. n` between `a` and `b` -/
def gridPt (a b : K) (n i : Nat) : K := a + (i : K) / (n : K) * (b - a)

/-- position of a vertex -/
def pos (v : Vert K) : K × K × K := (v.x, v.y, v.z)

/-- the grid point `(i, j, k)` of the domain -/
def gpt (d : Dom K) (i j k : Nat) : K × K × K :=
  (gridPt d.X0 d.X1 d.NX i, gridPt d.Y0 d.Y1 d.NY j, gridPt d.Z0 d.Z1 d.NZ k)

/-- mean of the coordinates of some vertices -/
def center (vs : List (Vert K)) : K × K × K :=
  ((vs.map Vert.x).sum / (vs.length : K), (vs.map Vert.y).sum / (vs.length : K), (vs.map Vert.z).sum / (vs.length : K))

/-- number of vertices, edges, faces, cells of the whole grid -/
def nVerts (d : Dom K) : Nat := (d.NX + 1) * (d.NY + 1) * (d.NZ + 1)
/-- number of edges: those along x, along y, along z -/
def nEdges (d : Dom K) : Nat :=
  d.NX * (d.NY + 1) * (d.NZ + 1) + (d.NX + 1) * d.NY * (d.NZ + 1) + (d.NX + 1) * (d.NY + 1) * d.NZ
/-- number of faces: those normal to x, to y, to z -/
def nFaces (d : Dom K) : Nat :=
  (d.NX + 1) * d.NY * d.NZ + d.NX * (d.NY + 1) * d.NZ + d.NX * d.NY * (d.NZ + 1)
/-- number of cells -/
def nCells (d : Dom K) : Nat := d.NX * d.NY * d.NZ

/-- the list contains each of `1 .. n` exactly once and nothing else -/
def Numbers (l : List Nat) (n : Nat) : Prop := l.Nodup ∧ ∀ m, m ∈ l ↔ 1 ≤ m ∧ m ≤ n

end
end Jali.MstkGen.Spec
