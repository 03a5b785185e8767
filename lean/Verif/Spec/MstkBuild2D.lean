import Verif.Spec.MstkGenerate2D
import Verif.Spec.MstkGeometry
/-
When an MSTK mesh is the quadrilateral mesh that was generated. Positions of entities are positions in the order of creation. No
algorithm of the model is used here.
-/
namespace Jali.MstkGen.Spec
open Jali.Mstk Jali.MstkGen

/-- The MSTK mesh consists of the generated entities, in the order of generation: edges have their ends, cells their edges in order and
in the generated directions. -/
structure Holds2 {K : Type} (m : MMesh) (g : RegMesh2 K) : Prop where
  counts : m.nv = g.verts.length ∧ m.ne = g.edges.length ∧ m.nf = g.faces.length ∧ m.nr = 0
  vtx : ∀ i : Fin m.nv, ∃ v, g.verts[i.1]? = some v ∧ (m.vtx i).gid = v.id ∧ (m.vtx i).ptype = .interior
  edge : ∀ i : Fin m.ne, ∃ e, g.edges[i.1]? = some e ∧ g.verts[(m.edge i).v0.1]? = some e.v0 ∧
    g.verts[(m.edge i).v1.1]? = some e.v1 ∧ (m.edge i).gid = e.id ∧ (m.edge i).ptype = .interior
  face : ∀ i : Fin m.nf, ∃ f, g.faces[i.1]? = some f ∧
    (m.face i).edges.map (fun p => (g.edges[p.1.1]?, p.2)) = f.es.map (fun p => (some p.1, p.2)) ∧ (m.face i).gid = f.id ∧
    (m.face i).ptype = .interior

/-- the edge lies on one of the four sides of the block -/
def OnBoundary2 {K : Type} [Field K] (d : Dom2 K) (b : Blk2) (e : Edge2 K) : Prop :=
  (e.v0.x = gridPt d.X0 d.X1 d.NX b.i0 ∧ e.v1.x = gridPt d.X0 d.X1 d.NX b.i0) ∨
  (e.v0.x = gridPt d.X0 d.X1 d.NX (b.i0 + b.nx) ∧ e.v1.x = gridPt d.X0 d.X1 d.NX (b.i0 + b.nx)) ∨
  (e.v0.y = gridPt d.Y0 d.Y1 d.NY b.j0 ∧ e.v1.y = gridPt d.Y0 d.Y1 d.NY b.j0) ∨
  (e.v0.y = gridPt d.Y0 d.Y1 d.NY (b.j0 + b.ny) ∧ e.v1.y = gridPt d.Y0 d.Y1 d.NY (b.j0 + b.ny))

/-- the vertices of the mesh have the generated coordinates -/
def Placed2 (s : Source ℝ) (g : RegMesh2 ℝ) : Prop :=
  ∀ v : Fin s.j.m.nv, ∃ w, g.verts[v.1]? = some w ∧ (s.xyz v).x = w.x ∧ (s.xyz v).y = w.y

end Jali.MstkGen.Spec
