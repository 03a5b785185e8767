import Verif.Model.MstkBndry
import Verif.Spec.MstkMesh
/-
Boundary faces, as a user of the mesh sees them.
-/
namespace Jali.Mstk

/-- `create_boundary_ghosts` is called before anything is numbered (Mesh_MSTK.cc:3365): no cell is marked yet -/
structure JMesh.Fresh3 (j : JMesh) : Prop where
  noghosts : j.bg = false
  unmarked : ∀ r, (j.m.region r).bndryGhost = false

/-- the same for a 2D mesh, which has no regions -/
structure JMesh.Fresh2 (j : JMesh) : Prop where
  noghosts : j.bg = false
  unmarked : ∀ f, (j.m.face f).bndryGhost = false

/-- the mesh with boundary ghosts requested, 3D and 2D; the flags of the faces may be any -/
def JMesh.withGhosts3 (j : JMesh) : JMesh := { j with m := j.m.boundaryGhosts3, bg := true }
def JMesh.withGhosts2 (j : JMesh) : JMesh := { j with m := j.m.boundaryGhosts2, bg := true }

/-- the cells of a 2D mesh: no edge is used twice by a cell, an edge has at most one cell on each side -/
structure MMesh.Cells2 (m : MMesh) : Prop where
  noface : ∀ f, ((m.face f).edges.map Prod.fst).Nodup
  sides : m.OrientedCells

/-- face `f` belongs to this rank, is not on the boundary of the part of the mesh that another rank continues, and `c` is the
only cell that has it -/
structure JMesh.Outer3 (j : JMesh) (f c : Nat) : Prop where
  owned : f ∈ j.m.faceIds3.owned
  outside : ∀ h, j.m.fmap.at f = some h → (j.m.face h).parBndry = false
  one : j.faceCells3 f .ALL = some [c]

structure JMesh.Outer2 (j : JMesh) (f c : Nat) : Prop where
  owned : f ∈ j.m.edgeIds.owned
  outside : ∀ h, j.m.emap.at f = some h → (j.m.edge h).parBndry = false
  one : j.faceCells2 f .ALL = some [c]

end Jali.Mstk
