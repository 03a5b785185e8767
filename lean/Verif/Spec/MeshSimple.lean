/-
Specification vocabulary for the structured meshes: lattice positions, independent of how the code
numbers or stores anything.
-/
namespace Jali.Simple.Spec

/-- A point or cell position of a lattice. -/
structure Pos where
  i : Nat
  j : Nat
  k : Nat
deriving DecidableEq, Repr

/-- Position in an `a × b × c` lattice. -/
def Pos.In (p : Pos) (a b c : Nat) : Prop := p.i < a ∧ p.j < b ∧ p.k < c

instance (p : Pos) (a b c : Nat) : Decidable (p.In a b c) := by unfold Pos.In; infer_instance

/-- The three orientations of a face of the structured mesh. -/
inductive Orient
  | xy | xz | yz
deriving DecidableEq, Repr

/-- A face position: orientation, and the lattice point of its lowest corner. -/
structure FacePos where
  o : Orient
  p : Pos
deriving DecidableEq, Repr

/-- Faces of an `nx × ny × nz` mesh: a face spans one cell width in the two directions of its plane and
lies on one of `n+1` planes in the third. -/
def FacePos.In (f : FacePos) (nx ny nz : Nat) : Prop :=
  match f.o with
  | .xy => f.p.In nx ny (nz + 1)
  | .xz => f.p.In nx (ny + 1) nz
  | .yz => f.p.In (nx + 1) ny nz

instance (f : FacePos) (a b c : Nat) : Decidable (f.In a b c) := by
  unfold FacePos.In; split <;> infer_instance

/-- The eight corners of the cell at `p`: bottom four counter-clockwise seen from above, then the top
four (Exodus II hexahedron order). -/
def hexCorners (p : Pos) : List Pos :=
  [⟨p.i, p.j, p.k⟩, ⟨p.i + 1, p.j, p.k⟩, ⟨p.i + 1, p.j + 1, p.k⟩, ⟨p.i, p.j + 1, p.k⟩,
   ⟨p.i, p.j, p.k + 1⟩, ⟨p.i + 1, p.j, p.k + 1⟩, ⟨p.i + 1, p.j + 1, p.k + 1⟩, ⟨p.i, p.j + 1, p.k + 1⟩]

/-- The four corners of a face, as a set. -/
def IsFaceCorner (f : FacePos) (q : Pos) : Prop :=
  match f.o with
  | .xy => (q.i = f.p.i ∨ q.i = f.p.i + 1) ∧ (q.j = f.p.j ∨ q.j = f.p.j + 1) ∧ q.k = f.p.k
  | .xz => (q.i = f.p.i ∨ q.i = f.p.i + 1) ∧ q.j = f.p.j ∧ (q.k = f.p.k ∨ q.k = f.p.k + 1)
  | .yz => q.i = f.p.i ∧ (q.j = f.p.j ∨ q.j = f.p.j + 1) ∧ (q.k = f.p.k ∨ q.k = f.p.k + 1)

/-- The face lies on the boundary of the domain. -/
def OnBoundary (f : FacePos) (nx ny nz : Nat) : Prop :=
  match f.o with
  | .xy => f.p.k = 0 ∨ f.p.k = nz
  | .xz => f.p.j = 0 ∨ f.p.j = ny
  | .yz => f.p.i = 0 ∨ f.p.i = nx

instance (f : FacePos) (a b c : Nat) : Decidable (OnBoundary f a b c) := by
  unfold OnBoundary; split <;> infer_instance

end Jali.Simple.Spec
