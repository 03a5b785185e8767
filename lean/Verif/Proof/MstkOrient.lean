import Verif.Spec.MstkOrient
import Verif.Proof.MstkQueries
/- Lemmas about cycles. -/
namespace Jali.Mstk

theorem mem_cyclicPairs {α : Type} (l : List α) (x y : α) :
    (x, y) ∈ cyclicPairs l ↔ ∃ i, l[i]? = some x ∧ l[(i + 1) % l.length]? = some y := by
  unfold cyclicPairs
  rw [List.mem_iff_getElem?]
  constructor
  · rintro ⟨i, hi⟩
    rw [List.getElem?_zip_eq_some] at hi
    have hlt : i < l.length := by
      rw [List.getElem?_eq_some_iff] at hi; exact hi.1.1
    refine ⟨i, hi.1, ?_⟩
    rw [← List.getElem?_rotate hlt]; exact hi.2
  · rintro ⟨i, h1, h2⟩
    have hlt : i < l.length := by rw [List.getElem?_eq_some_iff] at h1; exact h1.1
    refine ⟨i, ?_⟩
    rw [List.getElem?_zip_eq_some, List.getElem?_rotate hlt]
    exact ⟨h1, h2⟩

theorem idx_inj {α : Type} {l : List α} (hn : l.Nodup) {i k : Nat} {x : α} (hi : l[i]? = some x) (hk : l[k]? = some x) :
    i = k := by
  rw [List.getElem?_eq_some_iff] at hi hk
  obtain ⟨a, ea⟩ := hi
  obtain ⟨b, eb⟩ := hk
  exact (hn.getElem_inj_iff).mp (ea.trans eb.symm)

theorem not_both_ways {α : Type} {l : List α} (hn : l.Nodup) (h3 : 3 ≤ l.length) {x y : α} (h : (x, y) ∈ cyclicPairs l) :
    (y, x) ∉ cyclicPairs l := by
  intro h'
  rw [mem_cyclicPairs] at h h'
  obtain ⟨i, hi, hi'⟩ := h
  obtain ⟨k, hk, hk'⟩ := h'
  have l1 : i < l.length := (List.getElem?_eq_some_iff.mp hi).1
  have l2 : k < l.length := (List.getElem?_eq_some_iff.mp hk).1
  have m1 : (i + 1) % l.length < l.length := Nat.mod_lt _ (by omega)
  have m2 : (k + 1) % l.length < l.length := Nat.mod_lt _ (by omega)
  have e1 : k = (i + 1) % l.length := idx_inj hn hk hi'
  have e2 : i = (k + 1) % l.length := idx_inj hn hi hk'
  by_cases c1 : i + 1 < l.length
  · rw [Nat.mod_eq_of_lt c1] at e1
    by_cases c2 : k + 1 < l.length
    · rw [Nat.mod_eq_of_lt c2] at e2; omega
    · have : k + 1 = l.length := by omega
      rw [this, Nat.mod_self] at e2; omega
  · have : i + 1 = l.length := by omega
    rw [this, Nat.mod_self] at e1
    subst e1
    rw [Nat.mod_eq_of_lt (by omega)] at e2; omega

/-- going round the other way -/
theorem cyclicPairs_rev {α : Type} (S : List α) (x y : α) :
    (x, y) ∈ cyclicPairs S → (y, x) ∈ cyclicPairs (S.rotate 1).reverse := by
  rw [mem_cyclicPairs, mem_cyclicPairs]
  rintro ⟨k, hk, hk'⟩
  have hlt : k < S.length := (List.getElem?_eq_some_iff.mp hk).1
  have hlen : (S.rotate 1).reverse.length = S.length := by simp
  have R : ∀ i, i < S.length → (S.rotate 1).reverse[i]? = S[(S.length - i) % S.length]? := by
    intro i hi
    rw [List.getElem?_reverse (by simpa using hi), List.getElem?_rotate (by simp; omega)]
    congr 2; simp; omega
  refine ⟨S.length - 1 - k, ?_, ?_⟩
  · rw [R _ (by omega), ← hk']; congr 2; omega
  · rw [hlen, R _ (Nat.mod_lt _ (by omega)), ← hk]
    congr 1
    by_cases h0 : k = 0
    · subst h0
      have : S.length - 1 - 0 + 1 = S.length := by omega
      rw [this]; simp
    · have : S.length - 1 - k + 1 < S.length := by omega
      rw [Nat.mod_eq_of_lt this]
      have : S.length - (S.length - 1 - k + 1) = k := by omega
      rw [this, Nat.mod_eq_of_lt hlt]

theorem cyclicPairs_map {α β : Type} (g : α → β) (l : List α) :
    cyclicPairs (l.map g) = (cyclicPairs l).map (fun p => (g p.1, g p.2)) := by
  unfold cyclicPairs
  rw [← List.map_rotate, List.zip_map]
  rfl

theorem mfVertices_true (m : MMesh) (f : Face m.ne) : m.mfVertices f true = f.edges.map m.start := by
  unfold MMesh.mfVertices MMesh.start; simp

theorem mfVertices_false (m : MMesh) (f : Face m.ne) : m.mfVertices f false = (f.edges.map m.finish).reverse := by
  unfold MMesh.mfVertices MMesh.finish; rw [← List.map_reverse]; simp

/-- the edges of a face, walked in their direction, are the consecutive pairs of its vertices -/
theorem walk_eq (m : MMesh) (hp : m.Polygons) (f : Fin m.nf) :
    cyclicPairs (m.mfVertices (m.face f) true) = (m.face f).edges.map fun p => (m.start p, m.finish p) := by
  unfold cyclicPairs
  rw [mfVertices_true, ← hp.closed f]
  rw [List.zip_map', ]

end Jali.Mstk
