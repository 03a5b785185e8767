import Verif.Spec.MstkMesh
import Verif.Spec.MstkGenerate
import Verif.Spec.MstkGeometry
import Mathlib.Data.List.Rotate
/-
When an MSTK mesh is the mesh that was generated. Positions of entities are positions in the order of creation. No algorithm of
the model is used here.
-/
namespace Jali.MstkGen.Spec
open Jali.Mstk Jali.MstkGen

/-- the corners of a face as seen from a region that uses it in direction `q.2` -/
def seen (m : MMesh) (q : Fin m.nf × Bool) : List (Fin m.nv) :=
  if q.2 then (m.face q.1).edges.map m.start else ((m.face q.1).edges.map m.start).reverse

/-- the sides of a hexahedron with corners 0..3 below (counterclockwise from above) and 4..7 above them, each of them counterclockwise
as seen from outside: bottom, top, front, right, back, left -/
def outside : List (List Nat) := [[3, 2, 1, 0], [4, 5, 6, 7], [0, 1, 5, 4], [1, 2, 6, 5], [2, 3, 7, 6], [3, 0, 4, 7]]

/-- The MSTK mesh consists of the generated entities, in the order of generation: edges have their ends, faces their corners in order,
regions have six faces, one on each side of the hexahedron, used in the direction in which the side is counterclockwise as seen from
outside. -/
structure Holds {K : Type} (m : MMesh) (g : RegMesh K) : Prop where
  counts : m.nv = g.verts.length ∧ m.ne = g.edges.length ∧ m.nf = g.faces.length ∧ m.nr = g.regions.length
  vtx : ∀ i : Fin m.nv, ∃ v, g.verts[i.1]? = some v ∧ (m.vtx i).gid = v.id ∧ (m.vtx i).ptype = .interior
  edge : ∀ i : Fin m.ne, ∃ e, g.edges[i.1]? = some e ∧ g.verts[(m.edge i).v0.1]? = some e.v0 ∧
    g.verts[(m.edge i).v1.1]? = some e.v1 ∧ (m.edge i).gid = e.id ∧ (m.edge i).ptype = .interior
  face : ∀ i : Fin m.nf, ∃ f, g.faces[i.1]? = some f ∧
    ((m.face i).edges.map m.start).map (fun v => g.verts[v.1]?) = f.vs.map some ∧ (m.face i).gid = f.id ∧
    (m.face i).ptype = .interior
  region : ∀ i : Fin m.nr, ∃ r, g.regions[i.1]? = some r ∧ (m.region i).gid = r.id ∧ (m.region i).ptype = .interior ∧
    (m.region i).faces.length = 6 ∧ r.vs.length = 8 ∧
    ∀ t ∈ outside, ∃ q ∈ (m.region i).faces, ∃ k,
      ((seen m q).map fun v => g.verts[v.1]?) = (t.map fun n => r.vs[n]?).rotate k

/-- a face of the block is on one of the six sides of the block -/
def OnBoundary {K : Type} [Field K] (d : Dom K) (b : Blk) (f : Face K) : Prop :=
  (∀ v ∈ f.vs, v.x = gridPt d.X0 d.X1 d.NX b.i0) ∨ (∀ v ∈ f.vs, v.x = gridPt d.X0 d.X1 d.NX (b.i0 + b.nx)) ∨
  (∀ v ∈ f.vs, v.y = gridPt d.Y0 d.Y1 d.NY b.j0) ∨ (∀ v ∈ f.vs, v.y = gridPt d.Y0 d.Y1 d.NY (b.j0 + b.ny)) ∨
  (∀ v ∈ f.vs, v.z = gridPt d.Z0 d.Z1 d.NZ b.k0) ∨ (∀ v ∈ f.vs, v.z = gridPt d.Z0 d.Z1 d.NZ (b.k0 + b.nz))

/-- the vertices of the mesh have the generated coordinates -/
def Placed (s : Source ℝ) (g : RegMesh ℝ) : Prop :=
  ∀ v : Fin s.j.m.nv, ∃ w, g.verts[v.1]? = some w ∧ s.xyz v = ⟨w.x, w.y, w.z⟩

end Jali.MstkGen.Spec
