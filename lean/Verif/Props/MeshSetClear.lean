import Verif.Props.MeshSetHistory
import Verif.Props.SetRegistry
import Verif.Model.EntityTypes
/-! Property theorems C151: clearing and renaming mesh sets. -/
namespace Jali.MSet

/-- **C151, clearing empties.** After `clear` the set has no entities of any type and every entity, whatever its number, is reported not to
be in it. -/
theorem clear_empties_partial (s : Obj) :
    (∀ t, entities (clear s) t = [] ∧ numEntities (clear s) t = 0) ∧ ∀ e, indexInSet (clear s) e = .ok (-1) := by
  refine ⟨fun t => ?_, fun e => rfl⟩
  cases t <;> exact ⟨rfl, rfl⟩

/-- the mesh knows no type of any entity for the kind a set has after `clear` (`entity_get_type`, whatever the mesh) -/
theorem cleared_kind (b : Types.Base) (c : Types.Caches) (s : Obj) (e : Nat) :
    Types.entityGetType b c (clear s).kind e = some .TYPE_UNKNOWN := rfl

/-- the view of a mesh that a cleared set has (see `cleared_kind`) -/
def NoTypes (m : MeshView) : Prop := ∀ e, m.typeOf e = .TYPE_UNKNOWN

theorem add_unknown {m : MeshView} (h : NoTypes m) (s : Obj) (e : Nat) : addEntity m s e = .ok s := by
  simp [addEntity, h e]
theorem rem_unknown {m : MeshView} (h : NoTypes m) (s : Obj) (e : Nat) : remEntity m s e = .ok s := by
  simp [remEntity, h e]

/-- **C151 is false of the code: a cleared set cannot be filled again.** Whatever is added to a set after `clear` with `add_entity`
(and removed with `rem_entity`), in whatever order, the set stays as it is: empty. -/
theorem cleared_stays_empty (m : MeshView) (h : NoTypes m) (s : Obj) (ops : List Op) : runOps m (clear s) ops = .ok (clear s) := by
  induction ops with
  | nil => rfl
  | cons o ops ih =>
    cases o with
    | add e => simp only [runOps, Op.run, add_unknown h]; exact ih
    | rem e => simp only [runOps, Op.run, rem_unknown h]; exact ih

theorem addEach_unknown {m : MeshView} (h : NoTypes m) (es : List Nat) : ∀ s, addEach m es s = .ok s := by
  induction es with
  | nil => intro s; rfl
  | cons e es ih => intro s; simp only [addEach, add_unknown h]; exact ih s

theorem count_unknown {m : MeshView} (h : NoTypes m) (es : List Nat) {t : EntityType} (ht : t ≠ .TYPE_UNKNOWN) : countType m es t = 0 := by
  unfold countType
  rw [List.countP_eq_zero]
  intro e _
  rw [h e]
  simpa using ht.symm

/-- **C151 is false of the code: lists of a refilled set disagree.** Adding a list of entities to a cleared set with `add_entities` makes
them members for the type ALL, but there are still no owned and no ghost entities, and the index says that none of them is in the set. -/
theorem cleared_add_entities (m : MeshView) (h : NoTypes m) (s : Obj) (es : List Nat) :
    ∃ s', addEntities m (clear s) es = .ok s' ∧ entities s' .ALL = es ∧ entities s' .PARALLEL_OWNED = [] ∧ entities s' .PARALLEL_GHOST = [] ∧
      ∀ e, indexInSet s' e = .ok (-1) := by
  have h1 := count_unknown h es (t := .PARALLEL_OWNED) (by decide)
  have h2 := count_unknown h es (t := .PARALLEL_GHOST) (by decide)
  have h3 : addLists m (clear s) es = .ok (clear s) := by
    unfold addLists
    rw [h1, h2]
    cases es with
    | nil => simp
    | cons e es => simp [addEach_unknown h]
  refine ⟨{ clear s with all := es }, ?_, rfl, rfl, rfl, fun e => rfl⟩
  unfold addEntities
  simp only [h1, h2, h3]
  simp [clear, indexLoop]

/-- **C151 is false of the code: no state vector on a cleared set.** Asking a cleared set for the number of its entities of the kind it
had (as the constructor of a state vector on it does) fails an assertion. -/
theorem cleared_kind_asserts (s : Obj) (h : s.kind ≠ .UNKNOWN_KIND) (t : EntityType) : numEntitiesOf (clear s) s.kind t = .error .assertFailed := by
  unfold numEntitiesOf
  rw [if_neg]
  exact fun e => h e.symm

/-- before, the answer is the length of the list of the type -/
theorem numEntitiesOf_kind (s : Obj) (k : EntityKind) (t : EntityType) :
    numEntitiesOf s k t = if s.kind = k then .ok (entities s t).length else .error .assertFailed := by
  unfold numEntitiesOf
  cases t <;> rfl

/-- a set of cells of a mesh with two owned cells and one ghost, cleared and refilled -/
example : ∃ s, construct ⟨fun e => if e < 2 then .PARALLEL_OWNED else .PARALLEL_GHOST, 2, 1⟩ "a" 0 .CELL [1] [2] true = .ok s ∧
    entities s .ALL = [1, 2] ∧ indexInSet s 2 = .ok 1 ∧ numEntitiesOf s .CELL .ALL = .ok 2 ∧
    entities (clear s) .ALL = [] ∧ runOps ⟨fun _ => .TYPE_UNKNOWN, 0, 0⟩ (clear s) [.add 0, .add 1] = .ok (clear s) :=
  ⟨_, rfl, rfl, rfl, rfl, rfl, cleared_stays_empty _ (fun _ => rfl) _ _⟩

end Jali.MSet

namespace Jali.Reg
open Jali.MSet

/-- the object at an address after `set_name` -/
theorem setName_heap (w : World) (a : Nat) (n : String) (x : Nat) :
    (setName w a n).heap[x]? = (w.heap[x]?).map fun s => if x = a then { s with name := n } else s := by
  show (w.heap.modify a _)[x]? = _
  rw [List.getElem?_modify]
  by_cases h : a = x
  · subst h; simp
  · simp [h, Ne.symm h]

/-- **C151, renaming.** After a set is renamed, every set query by name and kind answers as if it had been made with the new name: a look-up
finds the first registered set that now has the name and kind; other sets keep their names; entities are unchanged. -/
theorem rename_lookup (w : World) (a : Nat) (new n : String) (k : EntityKind) :
    (∀ x, Named (setName w a new) x n k ↔ if x = a then new = n ∧ ∃ s : Obj, w.heap[a]? = some s ∧ s.kind = k else Named w x n k) ∧
    (∀ x, findMeshset (setName w a new) n k = some x ↔ ∃ i : Nat, w.reg[i]? = some x ∧ Named (setName w a new) x n k ∧
      ∀ j x' : Nat, j < i → w.reg[j]? = some x' → ¬ Named (setName w a new) x' n k) ∧
    ∀ (x : Nat) (s : Obj), w.heap[x]? = some s → ∃ s' : Obj, (setName w a new).heap[x]? = some s' ∧ (∀ t, entities s' t = entities s t) ∧ s'.kind = s.kind ∧
      ∀ e, indexInSet s' e = indexInSet s e := by
  refine ⟨fun x => ?_, (find_meshset_first (setName w a new) n k).1, fun x s hs => ?_⟩
  · unfold Named
    rw [setName_heap]
    by_cases hx : x = a
    · subst hx
      rw [if_pos rfl]
      cases hw : w.heap[x]? with
      | none => simp
      | some s => simp
    · rw [if_neg hx]
      cases hw : w.heap[x]? with
      | none => simp
      | some s => simp [hx]
  · rw [setName_heap, hs]
    by_cases hx : x = a
    · refine ⟨_, rfl, fun t => ?_, ?_, fun e => ?_⟩
      · dsimp only; rw [if_pos hx]; cases t <;> rfl
      · dsimp only; rw [if_pos hx]
      · dsimp only; rw [if_pos hx]; rfl
    · exact ⟨s, by simp [hx], fun t => rfl, rfl, fun e => rfl⟩

/-- **C151, a cleared set is not found any more** under the kind it had: look-ups behave as if it had never been registered. -/
theorem clear_lookup (w : World) (a : Nat) (n : String) (k : EntityKind) (hk : k ≠ .UNKNOWN_KIND) :
    findMeshset (clearAt w a) n k = findMeshset { w with reg := w.reg.filter (· ≠ a) } n k := by
  have key : ∀ x, nameKind (clearAt w a) x n k = (decide (x ≠ a) && nameKind w x n k) := by
    intro x
    unfold nameKind clearAt
    dsimp only
    rw [List.getElem?_modify]
    by_cases h : a = x
    · subst h
      cases hw : w.heap[a]? with
      | none => simp
      | some s =>
        have : ((clear s).kind = k) = False := by simp only [clear, eq_iff_iff, iff_false]; exact hk.symm
        simp [this]
    · have h' : ¬ x = a := fun e => h e.symm
      cases hw : w.heap[x]? <;> simp [h, h']
  unfold findMeshset
  show w.reg.find? _ = (w.reg.filter _).find? _
  rw [List.find?_filter]
  congr 1
  funext x
  rw [key x]
  have : nameKind w x n k = nameKind { w with reg := w.reg.filter (· ≠ a) } x n k := rfl
  rw [this]
  simp

/-- two sets of cells with the same name: after clearing the first, the second is found -/
example : let v : MeshView := ⟨fun _ => .PARALLEL_OWNED, 3, 0⟩
    let w : World := ⟨fun _ => v, [⟨"a", 0, .CELL, [0], [], [0], false, []⟩, ⟨"a", 0, .CELL, [1, 2], [], [1, 2], false, []⟩], [0, 1]⟩
    findMeshset w "a" .CELL = some 0 ∧ findMeshset (clearAt w 0) "a" .CELL = some 1 ∧ findMeshset (setName w 0 "b") "a" .CELL = some 1 ∧
      findMeshset (setName w 0 "b") "b" .CELL = some 0 := by
  decide +kernel

end Jali.Reg
