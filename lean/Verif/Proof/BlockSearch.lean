import Verif.Model.BlockSearch
import Mathlib.Tactic.Linarith
import Mathlib.Tactic.NormNum
/- The search for a regular structure: limits, and walking a chain of cells. -/
namespace Jali.BlockSearch
open Jali.Geom Jali.MeshGeom

theorem widen_fold (d : Nat) (L : List Point) : ∀ l : ℝ × ℝ,
    (L.foldl (widen d) l).1 ≤ l.1 ∧ l.2 ≤ (L.foldl (widen d) l).2 ∧
    (∀ p ∈ L, (L.foldl (widen d) l).1 ≤ coord p d ∧ coord p d ≤ (L.foldl (widen d) l).2) ∧
    ((L.foldl (widen d) l).1 = l.1 ∨ ∃ p ∈ L, (L.foldl (widen d) l).1 = coord p d) ∧
    ((L.foldl (widen d) l).2 = l.2 ∨ ∃ p ∈ L, (L.foldl (widen d) l).2 = coord p d) := by
  induction L with
  | nil => intro l; simp
  | cons q L ih =>
    intro l
    rw [List.foldl_cons]
    obtain ⟨h1, h2, h3, h4, h5⟩ := ih (widen d l q)
    have a1 : (widen d l q).1 ≤ l.1 ∧ (widen d l q).1 ≤ coord q d ∧ ((widen d l q).1 = l.1 ∨ (widen d l q).1 = coord q d) := by
      unfold widen; dsimp only; split
      · exact ⟨le_of_lt ‹_›, le_rfl, .inr rfl⟩
      · exact ⟨le_rfl, not_lt.mp ‹_›, .inl rfl⟩
    have a2 : l.2 ≤ (widen d l q).2 ∧ coord q d ≤ (widen d l q).2 ∧ ((widen d l q).2 = l.2 ∨ (widen d l q).2 = coord q d) := by
      unfold widen; dsimp only; split
      · exact ⟨le_of_lt ‹_›, le_rfl, .inr rfl⟩
      · exact ⟨le_rfl, not_lt.mp ‹_›, .inl rfl⟩
    refine ⟨le_trans h1 a1.1, le_trans a2.1 h2, ?_, ?_, ?_⟩
    · intro p hp
      rcases List.mem_cons.mp hp with rfl | hp
      · exact ⟨le_trans h1 a1.2.1, le_trans a2.2.1 h2⟩
      · exact h3 p hp
    · rcases h4 with h4 | ⟨p, hp, h4⟩
      · rcases a1.2.2 with e | e
        · exact .inl (h4.trans e)
        · exact .inr ⟨q, List.mem_cons_self, h4.trans e⟩
      · exact .inr ⟨p, List.mem_cons_of_mem _ hp, h4⟩
    · rcases h5 with h5 | ⟨p, hp, h5⟩
      · rcases a2.2.2 with e | e
        · exact .inl (h5.trans e)
        · exact .inr ⟨q, List.mem_cons_self, h5.trans e⟩
      · exact .inr ⟨p, List.mem_cons_of_mem _ hp, h5⟩

/-- the limits are the smallest and the largest coordinate, if they are between -1e20 and 1e20 -/
theorem limits_eq {m : GMesh} {cells : List Nat} {d : Nat} {a b : ℝ} (ha : a ≤ 1e20) (hb : -1e20 ≤ b)
    (hr : ∀ c ∈ cells, ∀ p ∈ m.cellCoords c, a ≤ coord p d ∧ coord p d ≤ b)
    (hla : ∃ c ∈ cells, ∃ p ∈ m.cellCoords c, coord p d = a) (hlb : ∃ c ∈ cells, ∃ p ∈ m.cellCoords c, coord p d = b) :
    limits m cells d = (a, b) := by
  have mem : ∀ {p}, p ∈ cells.flatMap m.cellCoords ↔ ∃ c ∈ cells, p ∈ m.cellCoords c := by
    intro p; rw [List.mem_flatMap]
  obtain ⟨h1, h2, h3, h4, h5⟩ := widen_fold d (cells.flatMap m.cellCoords) (1e20, -1e20)
  have e1 : (limits m cells d).1 = a := by
    obtain ⟨c, hc, p, hp, e⟩ := hla
    have le : (limits m cells d).1 ≤ a := by rw [← e]; exact (h3 p (mem.mpr ⟨c, hc, hp⟩)).1
    refine le_antisymm le ?_
    rcases h4 with h4 | ⟨q, hq, h4⟩
    · have : (limits m cells d).1 = 1e20 := h4
      rw [this]; exact ha
    · obtain ⟨c, hc, hq⟩ := mem.mp hq
      have : (limits m cells d).1 = coord q d := h4
      rw [this]; exact (hr c hc q hq).1
  have e2 : (limits m cells d).2 = b := by
    obtain ⟨c, hc, p, hp, e⟩ := hlb
    have le : b ≤ (limits m cells d).2 := by rw [← e]; exact (h3 p (mem.mpr ⟨c, hc, hp⟩)).2
    refine le_antisymm ?_ le
    rcases h5 with h5 | ⟨q, hq, h5⟩
    · have : (limits m cells d).2 = -1e20 := h5
      rw [this]; exact hb
    · obtain ⟨c, hc, hq⟩ := mem.mp hq
      have : (limits m cells d).2 = coord q d := h5
      rw [this]; exact (hr c hc q hq).2
  exact Prod.ext e1 e2

/-- a chain of cells that ends at the high end -/
theorem walk_chain {m : GMesh} {owned : Nat → Bool} {hi : ℝ} {d : Nat} (chain : Nat → Nat) (N : Nat)
    (hnext : ∀ i, i + 1 < N → scan m owned hi d (chain i) ((m.cellFaces (chain i)).map Prod.fst) = .next (chain (i + 1)))
    (hlast : scan m owned hi d (chain (N - 1)) ((m.cellFaces (chain (N - 1))).map Prod.fst) = .reached) :
    ∀ (k i fuel n : Nat), i + k = N - 1 → k < fuel → i < N → walk m owned hi d fuel (chain i) n = .count (n + k) := by
  intro k
  induction k with
  | zero =>
    intro i fuel n hik hf _
    obtain ⟨fuel, rfl⟩ : ∃ g, fuel = g + 1 := ⟨fuel - 1, by omega⟩
    have : i = N - 1 := by omega
    subst this
    rw [walk, hlast]; rfl
  | succ k ih =>
    intro i fuel n hik hf hi'
    obtain ⟨fuel, rfl⟩ : ∃ g, fuel = g + 1 := ⟨fuel - 1, by omega⟩
    rw [walk, hnext i (by omega)]
    dsimp only
    rw [ih (i + 1) fuel (n + 1) (by omega) (by omega) (by omega)]
    congr 1; omega

end Jali.BlockSearch
