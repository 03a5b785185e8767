import Verif.Model.MstkGenerate2D
import Verif.Model.MstkMesh
/-
From the calls of `generate_regular_mesh` in two dimensions (src/mesh/mesh_mstk/Mesh_MSTK.cc:4926-5139, `Model/MstkGenerate2D.lean`) to the
mesh that the queries of `Mesh_MSTK` see (`Model/MstkMesh.lean`). `ME_Set_Vertex` and `MF_Set_Edges` of MSTK (external library) store the
pointers they are given. A vertex pointer is known by the array element it was kept in (`ptr`), an edge pointer by the pointers of its
ends: the code makes an edge only after `MVs_CommonEdge` has not found one.
-/
namespace Jali.MstkGen

variable {K : Type}

/-- the handle of a vertex: its position in the order of `MESH_Next_Vertex` -/
def handle2 (vs : List (Vert2 K)) (v : Vert2 K) : Option (Fin vs.length) :=
  (List.finRange vs.length).find? fun i => (vs.get i).ptr = v.ptr

/-- `ME_Set_Vertex(me, 0, v0); ME_Set_Vertex(me, 1, v1); ME_Set_GlobalID` (Mesh_MSTK.cc:5017-5031 and the three like it) -/
def putEdge2 (vs : List (Vert2 K)) (e : Edge2 K) : Option (Mstk.Edge vs.length) := do
  let a ← handle2 vs e.v0
  let b ← handle2 vs e.v1
  return { ptype := .interior, gid := e.id, v0 := a, v1 := b }

/-- the handle of an edge: its position in the order of `MESH_Next_Edge` -/
def edgeHandle2 {vs : List (Vert2 K)} (es : List (Mstk.Edge vs.length)) (e : Edge2 K) : Option (Fin es.length) :=
  (List.finRange es.length).find? fun i => decide ((vs.get (es.get i).v0).ptr = e.v0.ptr ∧ (vs.get (es.get i).v1).ptr = e.v1.ptr)

/-- `MF_Set_Edges(mf, 4, fedges, dir); MF_Set_GlobalID` (Mesh_MSTK.cc:5124-5130) -/
def putFace2 {vs : List (Vert2 K)} (es : List (Mstk.Edge vs.length)) (f : Face2 K) : Option (Mstk.Face es.length) := do
  let l ← f.es.mapM fun p => (edgeHandle2 es p.1).map fun i => (i, p.2)
  return { ptype := .interior, gid := f.id, edges := l }

/-- the MSTK mesh after the calls (Mesh_MSTK.cc:4949-5131). A mesh on one rank has interior entities only. -/
def build2 (g : RegMesh2 K) : Option Mstk.MMesh := do
  let es ← g.edges.mapM (putEdge2 g.verts)
  let fs ← g.faces.mapM (putFace2 es)
  return { nv := g.verts.length, ne := es.length, nf := fs.length, nr := 0
           vtx := fun i => ⟨.interior, (g.verts.get i).id⟩
           edge := es.get, face := fs.get, region := fun i => i.elim0 }

end Jali.MstkGen
