import Verif.Model.MstkBase
import Verif.Spec.MstkMesh
import Verif.Spec.MstkOrient
/-
A mesh object as the constructors of `Mesh_MSTK` leave it, with the requests of the base class.
-/
namespace Jali.Mstk

/-- `r` are the requests after the base class added what they imply (Mesh.hh:185-192); the flags of flipped faces and edges
exist for what is requested -/
structure JMesh.Made3 (j : JMesh) (r : MeshCache.Request) : Prop where
  closed : ∃ r0, r = MeshCache.closure r0
  faces : j.faces = r.faces
  edges : j.edges = r.edges
  fflips : r.faces = true → j.faceflip.length = j.m.nf
  eflips : r.edges = true → j.edgeflip.length = j.m.ne

/-- in 2D the faces are the edges of MSTK -/
structure JMesh.Made2 (j : JMesh) (r : MeshCache.Request) : Prop where
  closed : ∃ r0, r = MeshCache.closure r0
  faces : j.faces = r.faces
  edges : j.edges = r.edges
  fflips : r.faces = true → j.faceflip.length = j.m.ne
  eflips : r.edges = true → j.edgeflip.length = j.m.ne

/-- a face is given by its nodes in cyclic order; two nodes are passed in this order -/
def InOrder (o : Option (List Nat)) (a b : Nat) : Prop := ∃ ns, o = some ns ∧ (a, b) ∈ cyclicPairs ns

end Jali.Mstk
