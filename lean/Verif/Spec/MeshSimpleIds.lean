import Verif.Model.MeshSimple
import Verif.Spec.MeshSimple
/-
Which entity id the structured mesh gives to which lattice position, and plain vector algebra for stating
geometric facts.
-/
namespace Jali.Simple
open Spec

/-- id of the node at a lattice point -/
def nodeIdx (d : Dims) (p : Pos) : Nat := nodeIndex d p.i p.j p.k
/-- id of the cell at a lattice position -/
def cellIdx (d : Dims) (p : Pos) : Nat := cellIndex d p.i p.j p.k
/-- id of the face at a face position -/
def faceIdx (d : Dims) (f : FacePos) : Nat :=
  match f.o with
  | .xy => xyFaceIndex d f.p.i f.p.j f.p.k
  | .xz => xzFaceIndex d f.p.i f.p.j f.p.k
  | .yz => yzFaceIndex d f.p.i f.p.j f.p.k

namespace Spec

/-- Vectors in space. -/
structure V3 where
  x : Rat
  y : Rat
  z : Rat

def V3.sub (a b : V3) : V3 := ⟨a.x - b.x, a.y - b.y, a.z - b.z⟩
def V3.dot (a b : V3) : Rat := a.x * b.x + a.y * b.y + a.z * b.z
def V3.cross (a b : V3) : V3 :=
  ⟨a.y * b.z - a.z * b.y, a.z * b.x - a.x * b.z, a.x * b.y - a.y * b.x⟩

/-- coordinates as returned by the API -/
def V3.list (a : V3) : List Rat := [a.x, a.y, a.z]

/-- (twice) the right-hand-rule area vector of the quadrilateral a b c e, in this order -/
def areaVec (a b c e : V3) : V3 := V3.cross (c.sub a) (e.sub b)

/-- Where the box's lattice point `p` is. -/
def latticePoint (d : Dims) (b : Box) (p : Pos) : V3 :=
  ⟨b.x0 + p.i * ((b.x1 - b.x0) / d.nx), b.y0 + p.j * ((b.y1 - b.y0) / d.ny),
   b.z0 + p.k * ((b.z1 - b.z0) / d.nz)⟩

end Spec
end Jali.Simple
