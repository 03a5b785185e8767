import Verif.Model.MstkMesh
/-
What a user of `Mesh_MSTK` can say about the answers of queries, and when an MSTK mesh is a mesh. No algorithm of the model is
used here.
-/
namespace Jali.Mstk

/-- the query answers, and `x` is among the answers -/
def Has {α : Type} (o : Option (List α)) (x : α) : Prop := ∃ l, o = some l ∧ x ∈ l

/-- the query answers, and the entity `x` is among the answers, with some direction -/
def HasFst (o : Option (List (Nat × Int))) (x : Nat) : Prop := ∃ l, o = some l ∧ ∃ d, (x, d) ∈ l

/-- the query answers, and no entity is listed twice -/
def NoRepeat {α : Type} (o : Option (List α)) : Prop := ∃ l, o = some l ∧ l.Nodup

/-- a 3D mesh with faces requested; one flag per face, as allocated in Mesh_MSTK.cc:3899-3908 and 3942 -/
structure JMesh.Ready3 (j : JMesh) : Prop where
  faces : j.faces = true
  flips : j.faceflip.length = j.m.nf

/-- a 2D mesh with faces requested; the faces are MSTK's edges (Mesh_MSTK.cc:3899, 4013) -/
structure JMesh.Ready2 (j : JMesh) : Prop where
  faces : j.faces = true
  flips : j.faceflip.length = j.m.ne

/-- edges requested (Mesh_MSTK.cc:3787, 3810) -/
structure JMesh.ReadyE (j : JMesh) : Prop where
  edges : j.edges = true
  flips : j.edgeflip.length = j.m.ne

/-- an edge runs from where the previous one ended: `start e`, `finish e` in the direction of use -/
def MMesh.start (m : MMesh) (p : Fin m.ne × Bool) : Fin m.nv := if p.2 then (m.edge p.1).v0 else (m.edge p.1).v1
def MMesh.finish (m : MMesh) (p : Fin m.ne × Bool) : Fin m.nv := if p.2 then (m.edge p.1).v1 else (m.edge p.1).v0

/-- the MSTK mesh is a mesh of polygons: an edge has two ends, the edges of a face are a closed walk through
different vertices -/
structure MMesh.Polygons (m : MMesh) : Prop where
  ends : ∀ e, (m.edge e).v0 ≠ (m.edge e).v1
  closed : ∀ f, (m.face f).edges.map m.finish = ((m.face f).edges.map m.start).rotate 1
  simple : ∀ f, ((m.face f).edges.map m.start).Nodup
  noedge : ∀ f, ((m.face f).edges.map Prod.fst).Nodup

/-- the regions are bounded by faces: no face is used twice, a face has at most one region on each side -/
structure MMesh.Regions (m : MMesh) : Prop where
  noface : ∀ r, ((m.region r).faces.map Prod.fst).Nodup
  sides : ∀ f d r r', (f, d) ∈ (m.region r).faces → (f, d) ∈ (m.region r').faces → r = r'

/-- the 2D cells are oriented alike: an edge is used at most once in each direction -/
def MMesh.OrientedCells (m : MMesh) : Prop :=
  ∀ e d f f', (e, d) ∈ (m.face f).edges → (e, d) ∈ (m.face f').edges → f = f'

end Jali.Mstk
