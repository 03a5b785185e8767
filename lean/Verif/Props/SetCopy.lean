import Verif.Spec.SetCopy
import Verif.Props.SetRegistry
/-! Property theorems C185: copies of mesh sets. -/
namespace Jali.Reg
open Jali.MSet

theorem runAt_each : ∀ (hist : List (Nat × Act)) (w w2 : World), runAt w hist = .ok w2 →
    w2.view = w.view ∧ w2.reg = w.reg ∧ w2.heap.length = w.heap.length ∧
    ∀ b s, w.heap[b]? = some s → ∃ s', w2.heap[b]? = some s' ∧ alone w.view s (changesOf hist b) = .ok s' := by
  intro hist
  induction hist with
  | nil =>
    intro w w2 h
    cases h
    exact ⟨rfl, rfl, rfl, fun b s hs => ⟨s, hs, rfl⟩⟩
  | cons x hist ih =>
    obtain ⟨a, k⟩ := x
    intro w w2 h
    rw [runAt] at h
    unfold actAt at h
    cases ha : w.heap[a]? with
    | none => rw [ha] at h; cases h
    | some sa =>
      rw [ha] at h
      cases hk : k.on w.view sa with
      | error e => simp only [hk] at h; cases h
      | ok s' =>
        simp only [hk] at h
        obtain ⟨h1, h2, h3, h4⟩ := ih _ _ h
        refine ⟨h1, h2, by rw [h3]; simp, fun b s hs => ?_⟩
        by_cases hb : a = b
        · subst hb
          rw [ha] at hs; cases hs
          obtain ⟨t, t1, t2⟩ := h4 a s' (by
            have := (List.getElem?_eq_some_iff.1 ha).1
            simp [List.getElem?_set, this])
          refine ⟨t, t1, ?_⟩
          have : changesOf ((a, k) :: hist) a = k :: changesOf hist a := by simp [changesOf]
          rw [this, alone, hk]
          exact t2
        · obtain ⟨t, t1, t2⟩ := h4 b s (by simp only [List.getElem?_set, if_neg hb]; exact hs)
          refine ⟨t, t1, ?_⟩
          have : changesOf ((a, k) :: hist) b = changesOf hist b := by simp [changesOf, hb]
          rw [this]
          exact t2

theorem runAt_ok : ∀ (hist : List (Nat × Act)) (w : World), (∀ x ∈ hist, x.1 < w.heap.length) →
    (∀ b s, w.heap[b]? = some s → ∃ s', alone w.view s (changesOf hist b) = .ok s') → ∃ w2, runAt w hist = .ok w2 := by
  intro hist
  induction hist with
  | nil => intro w _ _; exact ⟨w, rfl⟩
  | cons x hist ih =>
    obtain ⟨a, k⟩ := x
    intro w hv hok
    have hlt : a < w.heap.length := hv (a, k) (by simp)
    have ha : w.heap[a]? = some w.heap[a] := List.getElem?_eq_getElem hlt
    have hc : changesOf ((a, k) :: hist) a = k :: changesOf hist a := by simp [changesOf]
    obtain ⟨t, ht⟩ := hok a _ ha
    rw [hc, alone] at ht
    cases hk : k.on w.view w.heap[a] with
    | error e => rw [hk] at ht; cases ht
    | ok s' =>
      rw [hk] at ht
      have e : actAt w a k = .ok { w with heap := w.heap.set a s' } := by unfold actAt; rw [ha]; simp only [hk]
      rw [runAt, e]
      refine ih _ (fun x hx => by simpa using hv x (by simp [hx])) fun b s hs => ?_
      by_cases hb : a = b
      · subst hb
        simp only [List.getElem?_set, hlt, if_true] at hs
        cases hs
        exact ⟨t, ht⟩
      · simp only [List.getElem?_set, if_neg hb] at hs
        obtain ⟨t', ht'⟩ := hok b s hs
        have : changesOf ((a, k) :: hist) b = changesOf hist b := by simp [changesOf, hb]
        rw [this] at ht'
        exact ⟨t', ht'⟩

/-- **C185.** A copy of a mesh set is a new set of the same contents: every query gives what it gives on the original. The mesh does not know
it: the sets it lists and finds are the same as before. The copy and the original live on independently: after any history of changes through
the pointers to them and to other sets, in whatever order, each set is what its own changes make of it, and the changes can all be made if each
set can take its own. -/
theorem copy_independent {w : World} {a : Nat} {s : Obj} (hs : w.heap[a]? = some s) :
    ∃ c w1, copyAt w a = .ok (c, w1) ∧ w1.heap[c]? = some s ∧ (∀ b < w.heap.length, b ≠ c ∧ w1.heap[b]? = w.heap[b]?) ∧
      ((∀ b ∈ w.reg, b < w.heap.length) → ∀ n k t, sets w1 k = sets w k ∧ findMeshset w1 n k = findMeshset w n k ∧
        getSetEntities w1 n k t = getSetEntities w n k t) ∧
      (∀ hist w2, runAt w1 hist = .ok w2 → w2.reg = w.reg ∧ ∀ b s0, w1.heap[b]? = some s0 →
        ∃ sb, w2.heap[b]? = some sb ∧ alone w.view s0 (changesOf hist b) = .ok sb) ∧
      (∀ hist, (∀ x ∈ hist, x.1 < w1.heap.length) → (∀ b s0, w1.heap[b]? = some s0 → ∃ sb, alone w.view s0 (changesOf hist b) = .ok sb) →
        ∃ w2, runAt w1 hist = .ok w2) := by
  have old : ∀ b, b < w.heap.length → (w.heap ++ [s])[b]? = w.heap[b]? := fun b hb => List.getElem?_append_left hb
  refine ⟨w.heap.length, { w with heap := w.heap ++ [s] }, by unfold copyAt; rw [hs]; rfl, by simp, fun b hb => ⟨by omega, old b hb⟩,
    fun hreg n k t => ?_, fun hist w2 h => ?_, fun hist h1 h2 => runAt_ok hist _ h1 h2⟩
  · have e1 : sets { w with heap := w.heap ++ [s] } k = sets w k := by
      have : ∀ l : List Nat, (∀ b ∈ l, b < w.heap.length) → ∀ acc : List Nat,
          l.foldl (fun l a => if hasKind { w with heap := w.heap ++ [s] } k a then l ++ [a] else l) acc =
            l.foldl (fun l a => if hasKind w k a then l ++ [a] else l) acc := by
        intro l
        induction l with
        | nil => intro _ _; rfl
        | cons b l ih =>
          intro hl acc
          have e : hasKind { w with heap := w.heap ++ [s] } k b = hasKind w k b := by
            unfold hasKind
            simp only [old b (hl b (by simp))]
          rw [List.foldl_cons, List.foldl_cons, e, ih fun b hb => hl b (by simp [hb])]
      unfold sets
      rw [this _ hreg]
    have e2 : findMeshset { w with heap := w.heap ++ [s] } n k = findMeshset w n k := by
      unfold findMeshset
      have : ∀ l : List Nat, (∀ b ∈ l, b < w.heap.length) →
          l.find? (fun a => nameKind { w with heap := w.heap ++ [s] } a n k) = l.find? (fun a => nameKind w a n k) := by
        intro l
        induction l with
        | nil => intro _; rfl
        | cons b l ih =>
          intro hl
          have e : nameKind { w with heap := w.heap ++ [s] } b n k = nameKind w b n k := by
            unfold nameKind
            simp only [old b (hl b (by simp))]
          rw [List.find?_cons, List.find?_cons, e, ih fun b hb => hl b (by simp [hb])]
      exact this _ hreg
    refine ⟨e1, e2, ?_⟩
    unfold getSetEntities
    rw [e2]
    cases hf : findMeshset w n k with
    | none => rfl
    | some b =>
      have hb : b < w.heap.length := by
        unfold findMeshset at hf
        exact hreg b (List.mem_of_find?_eq_some hf)
      simp only [old b hb]
  · obtain ⟨-, h2, -, h4⟩ := runAt_each hist _ _ h
    exact ⟨h2, h4⟩

/-- a mesh of two owned cells and a ghost with a set of cells 1 and 2; a copy of it, the original emptied, the copy extended -/
def copyWorld : World :=
  ⟨fun _ => ⟨fun e => if e < 2 then .PARALLEL_OWNED else .PARALLEL_GHOST, 2, 1⟩, [⟨"a", 0, .CELL, [1], [2], [1, 2], true, [-1, 0, 1]⟩], [0]⟩

example : ∃ w1 w2 s0 s1, copyAt copyWorld 0 = .ok (1, w1) ∧ runAt w1 [(0, .clear), (1, .add 0), (0, .rename "b"), (1, .rem 1)] = .ok w2 ∧
    w2.heap[0]? = some s0 ∧ entities s0 .ALL = [] ∧ w2.heap[1]? = some s1 ∧ entities s1 .PARALLEL_OWNED = [0] ∧ entities s1 .PARALLEL_GHOST = [2] ∧
    findMeshset w1 "a" .CELL = some 0 :=
  ⟨_, _, _, _, rfl, rfl, rfl, rfl, rfl, rfl, rfl, rfl⟩

end Jali.Reg
