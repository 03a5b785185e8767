import Verif.Proof.MstkIsCopy2
import Verif.Spec.MstkExtract
/- Ids of an extracted mesh and of its source. -/
namespace Jali.Mstk

variable {α : Type}

theorem finRange_get (n k : Nat) : (List.finRange n)[k]? = toHandle n k := by
  unfold toHandle
  split
  · rename_i h
    rw [List.getElem?_eq_getElem (by simpa using h)]; simp
  · rename_i h
    rw [List.getElem?_eq_none_iff]; simpa using h

/-- a numbering in which no entity is passed over is the order of the entities -/
theorem plain_at {n : Nat} {im : IdMap n} (h : Numbered im (List.finRange n)) (k : Nat) : im.at k = toHandle n k := by
  rw [h.at_eq, finRange_get]

theorem plain_id {n : Nat} {im : IdMap n} (h : Numbered im (List.finRange n)) (v : Fin n) : im.id v = v.val + 1 := by
  apply h.id_of_at
  rw [plain_at h, toHandle_lt v.isLt]

theorem plain_two {n : Nat} {pt : Fin n → PType} (h : ∀ i, pt i = .interior) :
    Numbered (idMap2 (ownedList pt) (ghostList pt)) (List.finRange n) := by
  have := numbered_two pt
  have e : ownedList pt ++ ghostList pt = List.finRange n := by
    unfold ownedList ghostList
    simp [h]
  rwa [e] at this

theorem plain_three {n : Nat} {pt : Fin n → PType} {mk : Fin n → Bool} (h : ∀ i, pt i = .interior) :
    Numbered (idMap3 false (ownedCells false pt mk) (ghostList pt) (bndryCells false pt mk)) (List.finRange n) := by
  have := numbered_three false pt mk
  have e : ownedCells false pt mk ++ ghostList pt ++ bndryCells false pt mk = List.finRange n := by
    unfold ownedCells ghostList bndryCells
    simp [h]
  rwa [e] at this

theorem mapM_parents {n n' : Nat} {par : Fin n' → Option (Fin n)} {P : Nat → Option Nat} {idc : Fin n' → Nat} {ids : Fin n → Nat}
    (hP : ∀ v p, par v = some p → P (idc v) = some (ids p)) : ∀ (l : List (Fin n')) (L : List (Fin n)),
    l.map par = L.map some → (l.map idc).mapM P = some (L.map ids) := by
  intro l
  induction l with
  | nil => intro L e; cases L with
    | nil => rfl
    | cons => cases e
  | cons a l ih =>
    intro L e
    cases L with
    | nil => cases e
    | cons b L =>
      rw [List.map_cons, List.map_cons, List.cons.injEq] at e
      rw [List.map_cons, List.mapM_cons, hP a b e.1, ih L e.2]
      rfl

theorem mapM_parents_dirs {n n' : Nat} {par : Fin n' → Option (Fin n)} {P : Nat → Option Nat} {idc : Fin n' → Nat}
    {ids : Fin n → Nat} (hP : ∀ v p, par v = some p → P (idc v) = some (ids p)) (g : Bool → Int) :
    ∀ (l : List (Fin n' × Bool)) (L : List (Fin n × Bool)),
    l.map (fun q => (par q.1, q.2)) = L.map (fun q => (some q.1, q.2)) →
    ((l.map fun q => (idc q.1, g q.2)).mapM fun p => (P p.1).map fun q => (q, p.2)) = some (L.map fun q => (ids q.1, g q.2)) := by
  intro l
  induction l with
  | nil => intro L e; cases L with
    | nil => rfl
    | cons => cases e
  | cons a l ih =>
    intro L e
    cases L with
    | nil => cases e
    | cons b L =>
      rw [List.map_cons, List.map_cons, List.cons.injEq] at e
      obtain ⟨e1, e2⟩ := Prod.mk.inj e.1
      rw [List.map_cons, List.mapM_cons, hP a.1 b.1 e1, ih L e.2]
      simp [e2]

/-- looking up an entity by the id of MSTK, for a numbering of Jali -/
theorem fromId_eq {n : Nat} {im : IdMap n} {L : List (Fin n)} (h : Numbered im L) (i : Nat) : fromId im.id (i + 1) = im.at i := by
  unfold fromId
  cases hi : im.at i with
  | some v =>
    have h1 := h.id_of_at hi
    cases hf : (List.finRange n).find? fun j => im.id j = i + 1 with
    | none =>
      have := List.find?_eq_none.mp hf v (List.mem_finRange v)
      simp [h1] at this
    | some w =>
      have hw := List.find?_some hf
      simp only [decide_eq_true_eq] at hw
      have : im.id w - 1 = im.id v - 1 := by rw [hw, h1]
      rw [h.id_inj this]
  | none =>
    rw [List.find?_eq_none]
    intro v _ hv
    simp only [decide_eq_true_eq] at hv
    have := h.at_id v
    rw [hv] at this
    simp only [Nat.add_sub_cancel] at this
    rw [hi] at this; cases this

theorem mapM_fromId {n : Nat} {im : IdMap n} {L : List (Fin n)} (h : Numbered im L) {ids : List Nat} {l : List (Fin n)}
    (hl : (ids.mapM fun i => fromId im.id (i + 1)) = some l) : ids = l.map fun v => im.id v - 1 := by
  induction ids generalizing l with
  | nil => cases hl; rfl
  | cons a ids ih =>
    rw [List.mapM_cons, fromId_eq h] at hl
    cases ha : im.at a with
    | none => rw [ha] at hl; cases hl
    | some v =>
      rw [ha] at hl
      cases hm : ids.mapM fun i => fromId im.id (i + 1) with
      | none => rw [hm] at hl; cases hl
      | some l' =>
        rw [hm] at hl
        have : v :: l' = l := Option.some.inj hl
        rw [← this, List.map_cons, ← ih hm, h.at_iff.mp ha]

theorem mapM_fromId_some {n : Nat} {im : IdMap n} {L : List (Fin n)} (h : Numbered im L) {ids : List Nat} :
    (∃ l, (ids.mapM fun i => fromId im.id (i + 1)) = some l) ↔ ∀ i ∈ ids, i < n := by
  constructor
  · rintro ⟨l, hl⟩ i hi
    rw [mapM_fromId h hl, List.mem_map] at hi
    obtain ⟨v, _, rfl⟩ := hi
    exact h.id_lt v
  · intro hi
    obtain ⟨l', hl, _⟩ := mapM_exists (l := ids) (f := fun i => fromId im.id (i + 1)) (by
      intro a ha
      obtain ⟨v, hv⟩ := h.at_some (hi a ha)
      exact ⟨v, by rw [fromId_eq h, hv]⟩)
    exact ⟨l', hl⟩

end Jali.Mstk
