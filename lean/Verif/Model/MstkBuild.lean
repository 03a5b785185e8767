import Verif.Model.MstkGenerate
import Verif.Model.MstkMesh
import Mathlib.Data.List.Rotate
/-
From the calls of `generate_regular_mesh` (src/mesh/mesh_mstk/Mesh_MSTK.cc:4592-4921, `Model/MstkGenerate.lean`) to the mesh that
the queries of `Mesh_MSTK` see (`Model/MstkMesh.lean`). In between is MSTK (external library, not part of /repo): what `ME_Set_Vertex`,
`MF_Set_Vertices` and `MR_Set_Vertices` do for the full representation F1 asked for in Mesh_MSTK.cc:274 is modelled here as far as the
result is concerned: `MF_Set_Vertices` uses the edge that joins two consecutive vertices, `MR_Set_Vertices` uses the faces on
the sides of a hexahedron. Where there is no such edge or face MSTK makes a new one; that is the outcome `none` here. Vertices are
the same if their ids are (they are all different, `ids_agree`).
-/
namespace Jali.MstkGen


variable {K : Type}

/-- the handle of a vertex: its position in the order of `MESH_Next_Vertex` -/
def handleOf (vs : List (Vert K)) (v : Vert K) : Option (Fin vs.length) :=
  (List.finRange vs.length).find? fun i => (vs.get i).id = v.id

/-- `ME_Set_Vertex(me, 0, ..); ME_Set_Vertex(me, 1, ..); ME_Set_GlobalID` (Mesh_MSTK.cc:4723-4735 and the other two loops) -/
def putEdge (vs : List (Vert K)) (e : Edge K) : Option (Mstk.Edge vs.length) := do
  let a ← handleOf vs e.v0
  let b ← handleOf vs e.v1
  return { ptype := .interior, gid := e.id, v0 := a, v1 := b }

/-- the edge between two vertices (`MVs_CommonEdge`), with `true` if it runs from the first to the second -/
def edgeBetween {n : Nat} (es : List (Mstk.Edge n)) (a b : Fin n) : Option (Fin es.length × Bool) :=
  ((List.finRange es.length).find? fun i =>
    decide (((es.get i).v0 = a ∧ (es.get i).v1 = b) ∨ ((es.get i).v0 = b ∧ (es.get i).v1 = a))).map fun i =>
      (i, decide ((es.get i).v0 = a))

/-- `MF_Set_Vertices(mf, 4, fverts); MF_Set_GlobalID` (Mesh_MSTK.cc:4812-4826 and the other two loops) -/
def putFace (vs : List (Vert K)) (es : List (Mstk.Edge vs.length)) (f : Face K) : Option (Mstk.Face es.length) := do
  let c ← f.vs.mapM (handleOf vs)
  let l ← (c.zip (c.rotate 1)).mapM fun p => edgeBetween es p.1 p.2
  return { ptype := .interior, gid := f.id, edges := l }

/-- the sides of a hexahedron for `MR_Set_Vertices`: corners 0..3 below, 4..7 above, each side as seen from outside -/
def hexSides : List (List Nat) := [[0, 3, 2, 1], [4, 5, 6, 7], [0, 1, 5, 4], [1, 2, 6, 5], [2, 3, 7, 6], [3, 0, 4, 7]]

/-- the corners of a face in order: where its edges start -/
def walk {n : Nat} (es : List (Mstk.Edge n)) (f : Mstk.Face es.length) : List (Fin n) :=
  f.edges.map fun p => if p.2 then (es.get p.1).v0 else (es.get p.1).v1

/-- the face on some vertices (`MVs_CommonFace`), with `true` if it passes the second of them right after the first -/
def faceOn {n : Nat} (es : List (Mstk.Edge n)) (fs : List (Mstk.Face es.length)) (q : List (Fin n)) :
    Option (Fin fs.length × Bool) :=
  ((List.finRange fs.length).find? fun i => decide ((walk es (fs.get i)).Perm q)).map fun i =>
    (i, match q with
      | a :: b :: _ => decide ((a, b) ∈ (walk es (fs.get i)).zip ((walk es (fs.get i)).rotate 1))
      | _ => false)

/-- `MR_Set_Vertices(mr, 8, rverts, 6, NULL); MR_Set_GlobalID` (Mesh_MSTK.cc:4900-4908) -/
def putRegion (vs : List (Vert K)) (es : List (Mstk.Edge vs.length)) (fs : List (Mstk.Face es.length)) (r : Region K) :
    Option (Mstk.Region fs.length) := do
  let c ← r.vs.mapM (handleOf vs)
  let qs ← hexSides.mapM fun t => t.mapM fun i => c[i]?
  let l ← qs.mapM (faceOn es fs)
  return { ptype := .interior, gid := r.id, faces := l }

/-- the MSTK mesh after the calls (Mesh_MSTK.cc:4676-4911): all vertices, then all edges, then all faces, then all regions. A mesh on
one rank has interior entities only. -/
def build (g : RegMesh K) : Option Mstk.MMesh := do
  let es ← g.edges.mapM (putEdge g.verts)
  let fs ← g.faces.mapM (putFace g.verts es)
  let rs ← g.regions.mapM (putRegion g.verts es fs)
  return { nv := g.verts.length, ne := es.length, nf := fs.length, nr := rs.length
           vtx := fun i => ⟨.interior, (g.verts.get i).id⟩
           edge := es.get, face := fs.get, region := rs.get }

end Jali.MstkGen
