import Verif.Model.MstkExtract
import Verif.Model.Geometry
import Verif.Spec.MstkBase
import Verif.Spec.Geometry
/-
Positions of the corners of an MSTK mesh, the surface of a cell seen from outside, closed surfaces. Nothing of the code of queries
is used here.
-/
namespace Jali.Mstk
open Jali.Geom Jali.Geom.Point

/-- the edges of the faces of a cell, each with the direction in which it is used if the face is seen from outside -/
def MMesh.edgeUses (m : MMesh) (r : Region m.nf) : List (Fin m.ne × Bool) :=
  r.faces.flatMap fun q => (m.face q.1).edges.map fun p => (p.1, p.2 == q.2)

/-- the faces of the cell form a closed surface: each edge is used as often in one direction as in the other -/
def MMesh.Watertight (m : MMesh) (r : Region m.nf) : Prop :=
  ((m.edgeUses r).map fun u => (u.1, !u.2)).Perm (m.edgeUses r)

noncomputable section

/-- position of a vertex, in space or in the plane -/
def Source.place (s : Source ℝ) (v : Fin s.j.m.nv) : Point :=
  if s.spaceDim = 3 then mk3 (s.xyz v).x (s.xyz v).y (s.xyz v).z else mk2 (s.xyz v).x (s.xyz v).y

/-- the corners of a face of MSTK, in the order in which its edges are passed -/
def Source.corners (s : Source ℝ) (f : Fin s.j.m.nf) : List Point := ((s.j.m.face f).edges.map s.j.m.start).map s.place

/-- the corners of a face as seen from a region that uses it in direction `q.2` (true: the normal of the face leaves the region) -/
def Source.outward (s : Source ℝ) (q : Fin s.j.m.nf × Bool) : List Point :=
  if q.2 then s.corners q.1 else (s.corners q.1).reverse

/-- the surface of a region -/
def Source.surface (s : Source ℝ) (r : Fin s.j.m.nr) : List (List Point) := (s.j.m.region r).faces.map s.outward

end

/-- a mesh of polyhedra in space, made with faces requested -/
structure Source.Solid (s : Source ℝ) (r : MeshCache.Request) : Prop where
  made : s.j.Made3 r
  faces : r.faces = true
  dim : s.dim3 = true
  space : s.spaceDim = 3
  polygons : s.j.m.Polygons
  regions : s.j.m.Regions
  three : ∀ f, 3 ≤ (s.j.m.face f).edges.length

/-- a mesh of polygons in the plane, made with faces requested -/
structure Source.Flat (s : Source ℝ) (r : MeshCache.Request) : Prop where
  made : s.j.Made2 r
  faces : r.faces = true
  dim : s.dim3 = false
  space : s.spaceDim = 2
  polygons : s.j.m.Polygons
  cells : s.j.m.OrientedCells

end Jali.Mstk
