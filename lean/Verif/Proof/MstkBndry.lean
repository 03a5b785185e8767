import Verif.Model.MstkBndry
import Verif.Spec.MstkMesh
import Verif.Proof.MstkMesh
import Mathlib.Data.List.Nodup
import Mathlib.Data.Fin.SuccPred
/-
Lemmas about `create_boundary_ghosts`, for regions on faces and faces on edges alike.
-/
namespace Jali.Mstk

section Generic
variable {n k : Nat} {C : Type} (cell : Fin n → C) (uses : C → List (Fin k × Bool)) (ok : Fin k → Prop) [DecidablePred ok]
  (mk : Fin k × Bool → C)

/-- direction in which the cell uses the item -/
def dirOf (c : C) (f : Fin k) : Bool :=
  match (uses c).find? fun p => p.1 = f with
  | some p => p.2
  | none => false

/-- one turn of the loop -/
def stepG (added : List C) (f : Fin k) : List C :=
  match ((List.finRange n).map cell ++ added).filter fun c => f ∈ (uses c).map Prod.fst with
  | [r] => if ok f then added ++ [mk (f, !dirOf uses r f)] else added
  | _ => added

/-- the cell added for an item, if any -/
def ghostFor (f : Fin k) : Option C :=
  match (List.finRange n).filter fun r => f ∈ (uses (cell r)).map Prod.fst with
  | [r] => if ok f then some (mk (f, !dirOf uses (cell r) f)) else none
  | _ => none

/-- all the cells added -/
def ghostsFor : List C := (List.finRange k).filterMap (ghostFor cell uses ok mk)

theorem fold_stepG (hmk : ∀ p, uses (mk p) = [p]) (L : List (Fin k)) (hL : L.Nodup) (acc : List C)
    (hacc : ∀ c ∈ acc, ∀ f ∈ L, f ∉ (uses c).map Prod.fst) :
    L.foldl (stepG cell uses ok mk) acc = acc ++ L.filterMap (ghostFor cell uses ok mk) := by
  induction L generalizing acc with
  | nil => simp
  | cons f L ih =>
    rw [List.nodup_cons] at hL
    have e : (((List.finRange n).map cell ++ acc).filter fun c => f ∈ (uses c).map Prod.fst) =
        ((List.finRange n).filter fun r => f ∈ (uses (cell r)).map Prod.fst).map cell := by
      rw [List.filter_append, List.filter_map]
      have : (acc.filter fun c => decide (f ∈ (uses c).map Prod.fst)) = [] := by
        rw [List.filter_eq_nil_iff]
        intro c hc
        simpa using hacc c hc f (by simp)
      rw [this, List.append_nil]
      rfl
    have hs : stepG cell uses ok mk acc f = acc ++ (ghostFor cell uses ok mk f).toList := by
      unfold stepG ghostFor
      rw [e]
      rcases (List.finRange n).filter fun r => decide (f ∈ (uses (cell r)).map Prod.fst) with _ | ⟨a, _ | ⟨b, l⟩⟩
      · simp
      · by_cases h : ok f <;> simp [h]
      · simp
    rw [List.foldl_cons, hs, ih hL.2]
    · rw [List.filterMap_cons]
      cases ghostFor cell uses ok mk f <;> simp
    · intro c hc g hg
      rw [List.mem_append] at hc
      rcases hc with hc | hc
      · exact hacc c hc g (by simp [hg])
      · rw [Option.mem_toList] at hc
        unfold ghostFor at hc
        split at hc
        · split at hc
          · obtain rfl : mk _ = c := Option.some.inj hc
            rw [hmk]
            simp only [List.map_cons, List.map_nil, List.mem_singleton]
            rintro rfl
            exact hL.1 hg
          · cases hc
        · cases hc

theorem fold_stepG_all (hmk : ∀ p, uses (mk p) = [p]) :
    (List.finRange k).foldl (stepG cell uses ok mk) [] = ghostsFor cell uses ok mk := by
  rw [fold_stepG cell uses ok mk hmk _ (List.nodup_finRange k) [] (by simp)]
  rfl

/-- the cells that use an item -/
def users {n : Nat} (cell : Fin n → C) (f : Fin k) : List (Fin n) :=
  (List.finRange n).filter fun r => f ∈ (uses (cell r)).map Prod.fst

/-- the item is used by the cell `r` and by no other, in direction `d`, and a cell is to be added -/
def OuterG (f : Fin k) (r : Fin n) (d : Bool) : Prop :=
  ok f ∧ (f, d) ∈ uses (cell r) ∧ ∀ r' d', (f, d') ∈ uses (cell r') → r' = r

theorem filter_unique {α : Type} (L : List α) (p : α → Bool) (hL : L.Nodup) (i : α) (hi : i ∈ L)
    (h : ∀ x ∈ L, p x = true ↔ x = i) : L.filter p = [i] := by
  induction L with
  | nil => simp at hi
  | cons a L ih =>
    rw [List.nodup_cons] at hL
    by_cases ha : a = i
    · subst ha
      rw [List.filter_cons_of_pos ((h a (by simp)).mpr rfl)]
      have : L.filter p = [] := by
        rw [List.filter_eq_nil_iff]
        intro x hx hp
        have := (h x (by simp [hx])).mp hp
        exact hL.1 (this ▸ hx)
      rw [this]
    · rw [List.filter_cons_of_neg (fun hp => ha ((h a (by simp)).mp hp))]
      have hi' : i ∈ L := by
        rcases List.mem_cons.mp hi with e | e
        · exact absurd e.symm ha
        · exact e
      exact ih hL.2 hi' fun x hx => h x (by simp [hx])

theorem mem_uses_fst (c : C) (f : Fin k) : f ∈ (uses c).map Prod.fst ↔ ∃ d, (f, d) ∈ uses c := by
  rw [List.mem_map]
  constructor
  · rintro ⟨⟨g, d⟩, h, rfl⟩; exact ⟨d, h⟩
  · rintro ⟨d, h⟩; exact ⟨(f, d), h, rfl⟩

theorem dirOf_eq {c : C} {f : Fin k} {d : Bool} (hn : ((uses c).map Prod.fst).Nodup) (h : (f, d) ∈ uses c) :
    dirOf uses c f = d := by
  unfold dirOf
  generalize uses c = l at *
  induction l with
  | nil => simp at h
  | cons p l ih =>
    rw [List.map_cons, List.nodup_cons] at hn
    by_cases hp : p.1 = f
    · rw [List.find?_cons_of_pos (by simpa using hp)]
      rcases List.mem_cons.mp h with e | e
      · rw [← e]
      · exact absurd (List.mem_map.mpr ⟨(f, d), e, hp.symm⟩) hn.1
    · rw [List.find?_cons_of_neg (by simpa using hp)]
      rcases List.mem_cons.mp h with e | e
      · exact absurd (by rw [← e]) hp
      · exact ih hn.2 e

theorem users_singleton {f : Fin k} {r : Fin n} : users uses cell f = [r] ↔
    (∃ d, (f, d) ∈ uses (cell r)) ∧ ∀ r' d', (f, d') ∈ uses (cell r') → r' = r := by
  constructor
  · intro h
    have hm : ∀ r', r' ∈ users uses cell f ↔ r' = r := by intro r'; rw [h]; simp
    have hu : ∀ r', r' ∈ users uses cell f ↔ ∃ d, (f, d) ∈ uses (cell r') := by
      intro r'
      unfold users
      rw [List.mem_filter, ← mem_uses_fst]
      simp
    exact ⟨(hu r).mp ((hm r).mpr rfl), fun r' d' h' => (hm r').mp ((hu r').mpr ⟨d', h'⟩)⟩
  · rintro ⟨⟨d, hd⟩, h⟩
    apply filter_unique _ _ (List.nodup_finRange n) r (List.mem_finRange r)
    intro x _
    rw [decide_eq_true_iff, mem_uses_fst]
    exact ⟨fun ⟨d', h'⟩ => h x d' h', fun e => ⟨d, e ▸ hd⟩⟩

variable (hn : ∀ r, ((uses (cell r)).map Prod.fst).Nodup)
include hn

theorem ghostFor_eq {f : Fin k} {c : C} : ghostFor cell uses ok mk f = some c ↔
    ∃ r d, OuterG cell uses ok f r d ∧ c = mk (f, !d) := by
  have e : ghostFor cell uses ok mk f = match users uses cell f with
      | [r] => if ok f then some (mk (f, !dirOf uses (cell r) f)) else none
      | _ => none := rfl
  rw [e]
  constructor
  · intro h
    split at h
    · next r hr =>
      rw [users_singleton] at hr
      obtain ⟨⟨d, hd⟩, hu⟩ := hr
      split at h
      · next hok =>
        rw [dirOf_eq uses (hn r) hd] at h
        exact ⟨r, d, ⟨hok, hd, hu⟩, (Option.some.inj h).symm⟩
      · cases h
    · cases h
  · rintro ⟨r, d, ⟨hok, hd, hu⟩, rfl⟩
    rw [(users_singleton cell uses).mpr ⟨⟨d, hd⟩, hu⟩]
    simp only
    rw [if_pos hok, dirOf_eq uses (hn r) hd]

theorem mem_ghostsFor {c : C} : c ∈ ghostsFor cell uses ok mk ↔ ∃ f r d, OuterG cell uses ok f r d ∧ c = mk (f, !d) := by
  unfold ghostsFor
  rw [List.mem_filterMap]
  constructor
  · rintro ⟨f, _, h⟩
    exact ⟨f, (ghostFor_eq cell uses ok mk hn).mp h⟩
  · rintro ⟨f, r, d, h⟩
    exact ⟨f, List.mem_finRange f, (ghostFor_eq cell uses ok mk hn).mpr ⟨r, d, h⟩⟩

theorem nodup_ghostsFor (hmk : ∀ p, uses (mk p) = [p]) : (ghostsFor cell uses ok mk).Nodup := by
  unfold ghostsFor
  apply List.Nodup.filterMap _ (List.nodup_finRange k)
  intro f g c h1 h2
  rw [Option.mem_def, ghostFor_eq cell uses ok mk hn] at h1 h2
  obtain ⟨_, d, _, rfl⟩ := h1
  obtain ⟨_, d', _, e⟩ := h2
  have := congrArg uses e
  rw [hmk, hmk] at this
  simpa using congrArg (List.map Prod.fst) this

theorem outerG_unique {f : Fin k} {r r' : Fin n} {d d' : Bool} (h : OuterG cell uses ok f r d)
    (h' : OuterG cell uses ok f r' d') : r = r' ∧ d = d' := by
  have e := h'.2.2 r d h.2.1
  subst e
  refine ⟨rfl, ?_⟩
  rw [← dirOf_eq uses (hn r) h.2.1, ← dirOf_eq uses (hn r) h'.2.1]

end Generic

/-- the cells with those added -/
def extend {n : Nat} {C : Type} (cell : Fin n → C) (A : List C) : Fin (n + A.length) → C :=
  Fin.addCases cell fun i => A[i]

theorem finRange_add (a b : Nat) :
    List.finRange (a + b) = (List.finRange a).map (Fin.castAdd b) ++ (List.finRange b).map (Fin.natAdd a) := by
  apply List.ext_getElem
  · simp
  · intro i h1 h2
    rw [List.getElem_append]
    split
    · simp
    · next h =>
      simp at h ⊢
      omega

theorem extend_old {n : Nat} {C : Type} (cell : Fin n → C) (A : List C) (r : Fin n) :
    extend cell A (Fin.castAdd _ r) = cell r := by
  unfold extend; exact Fin.addCases_left r

theorem extend_new {n : Nat} {C : Type} (cell : Fin n → C) (A : List C) (i : Fin A.length) :
    extend cell A (Fin.natAdd _ i) = A[i] := by
  unfold extend; exact Fin.addCases_right i

theorem users_extend {n k : Nat} {C : Type} (cell : Fin n → C) (uses : C → List (Fin k × Bool)) (A : List C) (f : Fin k) :
    users uses (extend cell A) f = (users uses cell f).map (Fin.castAdd _) ++
      ((List.finRange A.length).filter fun i => f ∈ (uses A[i]).map Prod.fst).map (Fin.natAdd n) := by
  unfold users
  rw [finRange_add, List.filter_append, List.filter_map, List.filter_map]
  congr 2
  · apply List.filter_congr
    intro r _
    simp only [Function.comp, extend_old]
  · apply List.filter_congr
    intro i _
    simp only [Function.comp, extend_new]

section Added
variable {n k : Nat} {C : Type} (cell : Fin n → C) (uses : C → List (Fin k × Bool)) (ok : Fin k → Prop) [DecidablePred ok]
  (mk : Fin k × Bool → C) (hn : ∀ r, ((uses (cell r)).map Prod.fst).Nodup) (hmk : ∀ p, uses (mk p) = [p])
include hn hmk

theorem users_outer {f : Fin k} {r : Fin n} {d : Bool} (h : OuterG cell uses ok f r d) :
    ∃ i : Fin (ghostsFor cell uses ok mk).length, (ghostsFor cell uses ok mk)[i] = mk (f, !d) ∧
      users uses (extend cell (ghostsFor cell uses ok mk)) f = [Fin.castAdd _ r, Fin.natAdd _ i] := by
  have hm : mk (f, !d) ∈ ghostsFor cell uses ok mk := (mem_ghostsFor cell uses ok mk hn).mpr ⟨f, r, d, h, rfl⟩
  obtain ⟨i, hi, e⟩ := List.getElem_of_mem hm
  refine ⟨⟨i, hi⟩, e, ?_⟩
  rw [users_extend, (users_singleton cell uses).mpr ⟨⟨d, h.2.1⟩, h.2.2⟩]
  rw [filter_unique _ _ (List.nodup_finRange _) ⟨i, hi⟩ (List.mem_finRange _)]
  · rfl
  · intro x _
    rw [decide_eq_true_iff]
    constructor
    · intro hx
      obtain ⟨g, r', d', h', e'⟩ := (mem_ghostsFor cell uses ok mk hn).mp (List.getElem_mem x.isLt)
      have e1 : (ghostsFor cell uses ok mk)[x] = mk (g, !d') := e'
      rw [e1, hmk] at hx
      simp only [List.map_cons, List.map_nil, List.mem_singleton] at hx
      subst hx
      obtain ⟨rfl, rfl⟩ := outerG_unique cell uses ok hn h h'
      apply Fin.ext
      apply ((nodup_ghostsFor cell uses ok mk hn hmk).getElem_inj_iff (hi := x.isLt) (hj := hi)).mp
      rw [e]; exact e1
    · rintro rfl
      have e1 : (ghostsFor cell uses ok mk)[(⟨i, hi⟩ : Fin (ghostsFor cell uses ok mk).length)] = mk (f, !d) := e
      rw [e1, hmk]; simp

theorem users_inner {f : Fin k} (h : ¬ ∃ r d, OuterG cell uses ok f r d) :
    users uses (extend cell (ghostsFor cell uses ok mk)) f = (users uses cell f).map (Fin.castAdd _) := by
  rw [users_extend]
  have : ((List.finRange (ghostsFor cell uses ok mk).length).filter
      fun i => f ∈ (uses (ghostsFor cell uses ok mk)[i]).map Prod.fst) = [] := by
    rw [List.filter_eq_nil_iff]
    intro x _ hx
    rw [decide_eq_true_iff] at hx
    obtain ⟨g, r', d', h', e'⟩ := (mem_ghostsFor cell uses ok mk hn).mp (List.getElem_mem x.isLt)
    have e1 : (ghostsFor cell uses ok mk)[x] = mk (g, !d') := e'
    rw [e1, hmk] at hx
    simp only [List.map_cons, List.map_nil, List.mem_singleton] at hx
    subst hx
    exact h ⟨r', d', h'⟩
  rw [this]; simp

end Added

/-! ### Numbering -/

section Num
variable {n : Nat} {C : Type} (cell : Fin n → C) (A : List C) (pt : C → PType) (mk : C → Bool)

/-- ids of the cells that were there do not change -/
theorem at_old (h0 : ∀ r, mk (cell r) = false) (hA : ∀ c ∈ A, pt c = .interior ∧ mk c = true) :
    (∀ i, i < n → (idMap3 true (ownedCells true (fun r => pt (extend cell A r)) fun r => mk (extend cell A r))
      (ghostList fun r => pt (extend cell A r))
      (bndryCells true (fun r => pt (extend cell A r)) fun r => mk (extend cell A r))).at i =
    ((idMap3 false (ownedCells false (fun r => pt (cell r)) fun r => mk (cell r)) (ghostList fun r => pt (cell r))
      (bndryCells false (fun r => pt (cell r)) fun r => mk (cell r))).at i).map (Fin.castAdd _)) ∧
    (ownedCells true (fun r => pt (extend cell A r)) fun r => mk (extend cell A r)) =
      (ownedCells false (fun r => pt (cell r)) fun r => mk (cell r)).map (Fin.castAdd _) ∧
    (ghostList fun r => pt (extend cell A r)) = (ghostList fun r => pt (cell r)).map (Fin.castAdd _) ∧
    (bndryCells true (fun r => pt (extend cell A r)) fun r => mk (extend cell A r)) = (List.finRange A.length).map (Fin.natAdd n) ∧
    ∀ i : Fin A.length, (idMap3 true (ownedCells true (fun r => pt (extend cell A r)) fun r => mk (extend cell A r))
      (ghostList fun r => pt (extend cell A r))
      (bndryCells true (fun r => pt (extend cell A r)) fun r => mk (extend cell A r))).at (n + i) = some (Fin.natAdd n i) := by
  have eo : (ownedCells true (fun r => pt (extend cell A r)) fun r => mk (extend cell A r)) =
      (ownedCells false (fun r => pt (cell r)) fun r => mk (cell r)).map (Fin.castAdd _) := by
    unfold ownedCells
    rw [finRange_add, List.filter_append, List.filter_map, List.filter_map]
    have : ((List.finRange A.length).filter ((fun i => decide (pt (extend cell A i) ≠ .ghost ∧
        ¬(true && mk (extend cell A i)) = true)) ∘ Fin.natAdd n)) = [] := by
      rw [List.filter_eq_nil_iff]
      intro x _
      simp only [Function.comp, extend_new]
      simp [(hA _ (List.getElem_mem x.isLt)).2]
    rw [this, List.map_nil, List.append_nil]
    congr 1
    apply List.filter_congr
    intro r _
    simp only [Function.comp, extend_old]
    simp [h0]
  have eg : (ghostList fun r => pt (extend cell A r)) = (ghostList fun r => pt (cell r)).map (Fin.castAdd _) := by
    unfold ghostList
    rw [finRange_add, List.filter_append, List.filter_map, List.filter_map]
    have : ((List.finRange A.length).filter ((fun i => decide (pt (extend cell A i) = .ghost)) ∘ Fin.natAdd n)) = [] := by
      rw [List.filter_eq_nil_iff]
      intro x _
      simp only [Function.comp, extend_new]
      simp [(hA _ (List.getElem_mem x.isLt)).1]
    rw [this, List.map_nil, List.append_nil]
    congr 1
    apply List.filter_congr
    intro r _
    simp only [Function.comp, extend_old]
  have eb : (bndryCells true (fun r => pt (extend cell A r)) fun r => mk (extend cell A r)) =
      (List.finRange A.length).map (Fin.natAdd n) := by
    unfold bndryCells
    rw [finRange_add, List.filter_append, List.filter_map, List.filter_map]
    have : ((List.finRange n).filter ((fun i => decide (pt (extend cell A i) ≠ .ghost ∧
        (true && mk (extend cell A i)) = true)) ∘ Fin.castAdd A.length)) = [] := by
      rw [List.filter_eq_nil_iff]
      intro x _
      simp only [Function.comp, extend_old]
      simp [h0]
    rw [this, List.map_nil, List.nil_append]
    congr 1
    rw [List.filter_eq_self]
    intro x _
    simp only [Function.comp, extend_new]
    simp [hA _ (List.getElem_mem x.isLt)]
  have h1 := numbered_three true (fun r => pt (extend cell A r)) fun r => mk (extend cell A r)
  have h2 := numbered_three false (fun r => pt (cell r)) fun r => mk (cell r)
  have hl := h2.length
  rw [bndryCells_false, List.append_nil, List.length_append] at hl
  refine ⟨fun i hi => ?_, eo, eg, eb, fun i => ?_⟩
  · rw [h1.at_eq, h2.at_eq, eo, eg, bndryCells_false, List.append_nil]
    rw [← List.map_append, List.getElem?_append_left (by simp; omega), List.getElem?_map]
  · rw [h1.at_eq, eo, eg, eb, ← List.map_append, List.getElem?_append_right (by simp; omega)]
    simp only [List.length_map, List.length_append, hl]
    simp

end Num

end Jali.Mstk
