import Verif.Model.SetInit
/-
Which sets `init_sets_from_geometric_model` owes to a region, and which regions suit which kind of entities.
-/
namespace Jali.Reg
open Jali.MSet
variable {P K : Type} [Field K] [LinearOrder K]

/-- the name of a kind of entities that can carry labels -/
def kindName : EntityKind → Option String
  | .CELL => some "CELL"
  | .FACE => some "FACE"
  | .EDGE => some "EDGE"
  | .NODE => some "NODE"
  | _ => none

/-- the entity string of a labeled set names the kind, with or without the prefix "Entity_kind::" -/
def NamesKind (s : String) (k : EntityKind) : Prop := ∃ n, kindName k = some n ∧ (s = n ∨ s = "Entity_kind::" ++ n)

/-- the kinds asked for when the caller asks for none: nodes of every region, cells of the regions of full dimension, faces (if the mesh has
them) of the regions of at least their dimension -/
def DefaultKind (g : Geo P K) (gdim : Nat) (r : Region P) (k : EntityKind) : Prop :=
  k = .NODE ∨ (k = .CELL ∧ r.dim = gdim) ∨ (k = .FACE ∧ g.facesRequested = true ∧ gdim ≤ r.dim + 1)

/-- no component of a logical region is a labeled set -/
def NoLabel (gm : List (Region P)) (r : Region P) (l : List String) : Prop :=
  r.type = .LOGICAL → ∀ n ∈ l, ∃ c, findRegion gm n = some c ∧ c.type ≠ .LABELEDSET

/-- the kinds of entities of a region for which a set is asked: the kind of the first labeled set a logical region combines; else those given by
the caller; else the default kinds -/
inductive AskedFor (g : Geo P K) (gm : List (Region P)) (gdim : Nat) (req : String → Option (List EntityKind)) (r : Region P) :
    List EntityKind → Prop
  | labeled (pre : List String) (n : String) (post : List String) (c : Region P) (k : EntityKind) (hl : r.type = .LOGICAL)
      (hs : r.comps = pre ++ n :: post) (hp : NoLabel gm r pre) (hc : findRegion gm n = some c) (ht : c.type = .LABELEDSET)
      (hk : NamesKind c.entityStr k) : AskedFor g gm gdim req r [k]
  | caller (ks : List EntityKind) (hn : NoLabel gm r r.comps) (hr : req r.name = some ks) : AskedFor g gm gdim req r ks
  | default (ks : List EntityKind) (hn : NoLabel gm r r.comps) (hr : req r.name = none) (hk : ∀ k, k ∈ ks ↔ DefaultKind g gdim r k) :
      AskedFor g gm gdim req r ks

/-- the region can have a set of the kind: a color function always, a labeled set of its own kind, any other region of cells if it has their
dimension or is a point, of faces if it has at least their dimension, of nodes always -/
def Suits (mdim : Nat) (k : EntityKind) (r : Region P) : Prop :=
  if r.type = .COLORFUNCTION then True
  else if r.type = .LABELEDSET then kindName k = some r.entityStr
  else (k = .CELL ∧ (mdim ≤ r.dim ∨ r.dim = 0)) ∨ (k = .FACE ∧ mdim ≤ r.dim + 1) ∨ k = .NODE

end Jali.Reg
