import Verif.Model.MeshSet
/-! Vocabulary for the mesh set properties C18–C24. -/
namespace Jali.MSet

/-- Position of an entity in a list, or -1. -/
def posOrNeg (l : List Nat) (e : Nat) : Int := if e ∈ l then (l.idxOf e : Int) else -1

/-- `index_in_set` is right for every entity of the mesh: the position in `entities<ALL>()`, or -1. -/
def IndexExact (m : MeshView) (s : Obj) : Prop :=
  ∀ e, e < m.nAll → indexInSet s e = .ok (posOrNeg (entities s .ALL) e)

/-- `index_in_set` tells members from non-members (it may give a wrong position). -/
def IndexTells (m : MeshView) (s : Obj) : Prop :=
  ∀ e, e < m.nAll → ∃ i, indexInSet s e = .ok i ∧ (i = -1 ↔ e ∉ entities s .ALL)

/-- The lists of a set are in order: owned entities, ghost entities, no repetition, ALL = OWNED then GHOST, all of
them entities of the mesh; storage for the index is there if and only if it was asked for. -/
structure Proper (m : MeshView) (s : Obj) : Prop where
  all_eq : s.all = s.owned ++ s.ghost
  nodup : s.all.Nodup
  owned_type : ∀ e ∈ s.owned, m.typeOf e = .PARALLEL_OWNED
  ghost_type : ∀ e ∈ s.ghost, m.typeOf e = .PARALLEL_GHOST
  bound : ∀ e ∈ s.all, e < m.nAll
  map_len : s.map.length = if s.haveMap then m.nAll else 0

/-- Same as `Proper` except that ALL is OWNED and GHOST in some order. -/
structure Loose (m : MeshView) (s : Obj) : Prop where
  all_perm : s.all.Perm (s.owned ++ s.ghost)
  nodup : s.all.Nodup
  owned_type : ∀ e ∈ s.owned, m.typeOf e = .PARALLEL_OWNED
  ghost_type : ∀ e ∈ s.ghost, m.typeOf e = .PARALLEL_GHOST
  bound : ∀ e ∈ s.all, e < m.nAll
  map_len : s.map.length = if s.haveMap then m.nAll else 0

/-- Single-entity operations on a set. -/
inductive Op
  | add (e : Nat)
  | rem (e : Nat)

/-- run an operation -/
def Op.run (m : MeshView) (s : Obj) : Op → Except Err Obj
  | .add e => addEntity m s e
  | .rem e => remEntity m s e

/-- run a history -/
def runOps (m : MeshView) (s : Obj) : List Op → Except Err Obj
  | [] => .ok s
  | o :: os =>
    match o.run m s with
    | .error x => .error x
    | .ok s' => runOps m s' os

/-- The abstract set: a predicate on entities. -/
def Op.spec (x : Nat → Prop) : Op → Nat → Prop
  | .add e => fun a => a = e ∨ x a
  | .rem e => fun a => a ≠ e ∧ x a

/-- A history is legal when only entities of the mesh, owned or ghost, are named, and an entity is added only while
it is absent (`add_entity` documents that it does not check for duplicates). -/
def Legal (m : MeshView) (x : Nat → Prop) : List Op → Prop
  | [] => True
  | .add e :: os => e < m.nAll ∧ (m.typeOf e = .PARALLEL_OWNED ∨ m.typeOf e = .PARALLEL_GHOST) ∧ ¬ x e ∧
      Legal m (Op.spec x (.add e)) os
  | .rem e :: os => e < m.nAll ∧ (m.typeOf e = .PARALLEL_OWNED ∨ m.typeOf e = .PARALLEL_GHOST) ∧
      Legal m (Op.spec x (.rem e)) os

end Jali.MSet
