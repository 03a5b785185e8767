import Verif.Spec.MstkOrient
/-
When the meshes of several ranks are parts of one mesh. Nothing here mentions how flags are computed.
-/
namespace Jali.Mstk

/-- the global ids of the two ends of an edge -/
def MMesh.ends (m : MMesh) (e : Fin m.ne) : Nat × Nat := ((m.vtx (m.edge e).v0).gid, (m.vtx (m.edge e).v1).gid)

/-- the global ids of the vertices of a face, in the order of its edges -/
def MMesh.cycle (m : MMesh) (f : Fin m.nf) : List Nat := (m.face f).edges.map fun p => (m.vtx (m.start p)).gid

/-- the region with global id `g` lies behind (`true`) or in front of (`false`) the face `f`: it uses the face in that
direction -/
def MMesh.Uses (m : MMesh) (g : Nat) (f : Fin m.nf) (d : Bool) : Prop :=
  ∃ r, (m.region r).gid = g ∧ (f, d) ∈ (m.region r).faces

/-- the edges of the ranks are parts of one mesh: copies of an edge have the same ends, perhaps exchanged; each ghost is owned
by some rank, which knows that it has ghosts; the owner is unique -/
structure EdgesMatch (w : List MMesh) : Prop where
  two : ∀ m ∈ w, ∀ e, (m.ends e).1 ≠ (m.ends e).2
  same : ∀ m ∈ w, ∀ m' ∈ w, ∀ e e', (m.edge e).gid = (m'.edge e').gid → m'.ends e' = m.ends e ∨ m'.ends e' = (m.ends e).swap
  owner : ∀ m ∈ w, ∀ e, (m.edge e).ptype = .ghost → ∃ m' ∈ w, ∃ e', (m'.edge e').ptype = .overlap ∧ (m'.edge e').gid = (m.edge e).gid
  unique : ∀ m ∈ w, ∀ m' ∈ w, ∀ e e', (m.edge e).ptype ≠ .ghost → (m'.edge e').ptype ≠ .ghost →
    (m.edge e).gid = (m'.edge e').gid → m.ends e = m'.ends e'

/-- two copies of a face, the second directed like the first (`σ = false`) or not: the vertices are the same in the same or
the opposite cyclic order, and a region that both ranks know at this face uses it in the same or the opposite direction -/
structure CopyOf (m m' : MMesh) (f : Fin m.nf) (f' : Fin m'.nf) (σ : Bool) : Prop where
  cycle : (m'.cycle f').IsRotated (if σ then (m.cycle f).reverse else m.cycle f)
  uses : ∀ g d d', g ≠ 0 → m.Uses g f d → m'.Uses g f' d' → d' = xor d σ

/-- the faces of the ranks are parts of one mesh -/
structure FacesMatch (w : List MMesh) : Prop where
  same : ∀ m ∈ w, ∀ m' ∈ w, ∀ f f', (m.face f).gid = (m'.face f').gid → ∃ σ, CopyOf m m' f f' σ
  owner : ∀ m ∈ w, ∀ f, (m.face f).ptype = .ghost → ∃ m' ∈ w, ∃ f', (m'.face f').ptype = .overlap ∧ (m'.face f').gid = (m.face f).gid
  unique : ∀ m ∈ w, ∀ m' ∈ w, ∀ f f', (m.face f).ptype ≠ .ghost → (m'.face f').ptype ≠ .ghost →
    (m.face f).gid = (m'.face f').gid → (m.cycle f).IsRotated (m'.cycle f') ∧ ∀ g d, m.Uses g f d ↔ m'.Uses g f' d
  /-- regions on the two sides are different; a face has a region that is not a boundary ghost -/
  different : ∀ m ∈ w, ∀ f g d, g ≠ 0 → m.Uses g f d → m.Uses g f (!d) → False
  bounds : ∀ m ∈ w, ∀ f, ∃ g d, g ≠ 0 ∧ m.Uses g f d

/-- there is a layer of ghost cells: the owner of a face knows the cells on both sides -/
def GhostLayer (w : List MMesh) : Prop :=
  ∀ m ∈ w, ∀ m' ∈ w, ∀ f f', (m.face f).gid = (m'.face f').gid → (m'.face f').ptype ≠ .ghost →
    ∀ g d, g ≠ 0 → m.Uses g f d → ∃ d', m'.Uses g f' d'

end Jali.Mstk
