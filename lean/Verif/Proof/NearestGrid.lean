import Verif.Spec.MstkGenerate
import Mathlib.Data.Real.Basic
import Mathlib.Tactic.Linarith
import Mathlib.Tactic.Ring
import Mathlib.Tactic.FieldSimp
/-! Distances of a number to grid points. -/
namespace Jali.MstkGen
open Jali.MstkGen.Spec

theorem gridPt_mul (a e : ℝ) (n i : ℕ) : gridPt a e n i = a + i * ((e - a) / n) := by
  unfold gridPt; ring

/-- a grid point that is not an end of the interval a number lies in is a cell away from it, and one of the ends is nearer -/
theorem grid_out {a e : ℝ} (hae : a < e) {n : ℕ} (hn : 0 < n) {p : ℝ} {I I' : ℕ} (h1 : gridPt a e n I ≤ p)
    (h2 : p ≤ gridPt a e n (I + 1)) (ho : I' ≠ I ∧ I' ≠ I + 1) :
    ((e - a) / n) ^ 2 ≤ (gridPt a e n I' - p) ^ 2 ∧
    ∃ K, (K = I ∨ K = I + 1) ∧ (gridPt a e n K - p) ^ 2 < (gridPt a e n I' - p) ^ 2 := by
  rw [gridPt_mul] at h1 h2
  simp only [gridPt_mul]
  have hn' : (0 : ℝ) < n := by exact_mod_cast hn
  have hh : 0 < (e - a) / n := div_pos (sub_pos.2 hae) hn'
  generalize (e - a) / n = h at *
  push_cast at h2
  rcases Nat.lt_or_ge I' I with hl | hl
  · have hk : (I' : ℝ) + 1 ≤ I := by exact_mod_cast hl
    have hm : ((I' : ℝ) + 1) * h ≤ I * h := mul_le_mul_of_nonneg_right hk hh.le
    have hd : h ≤ p - (a + I' * h) := by nlinarith
    refine ⟨by nlinarith, I, .inl rfl, ?_⟩
    have h0 : 0 ≤ p - (a + I * h) := by linarith
    have h3 : p - (a + I * h) < p - (a + I' * h) := by nlinarith
    nlinarith
  · have hg : I + 1 < I' := by omega
    have hk : (I : ℝ) + 1 + 1 ≤ I' := by exact_mod_cast hg
    have hm : ((I : ℝ) + 1 + 1) * h ≤ I' * h := mul_le_mul_of_nonneg_right hk hh.le
    have hd : h ≤ (a + I' * h) - p := by nlinarith
    refine ⟨by nlinarith, I + 1, .inr rfl, ?_⟩
    push_cast
    have h0 : 0 ≤ (a + ((I : ℝ) + 1) * h) - p := by linarith
    have h3 : (a + ((I : ℝ) + 1) * h) - p < (a + I' * h) - p := by nlinarith
    nlinarith

/-- the squared distance in three (or two) directions, each of the grid: the nearest grid point is a corner of the box -/
theorem grid_corner {a e p : ℝ} (hae : a < e) {n : ℕ} (hn : 0 < n) {I I' : ℕ} (h1 : gridPt a e n I ≤ p)
    (h2 : p ≤ gridPt a e n (I + 1)) (wide : 1 / 10 ^ 16 < (e - a) / n) {q : ℝ} (hq : 0 ≤ q)
    (h : (gridPt a e n I' - p) ^ 2 + q ≤ 1 / 10 ^ 32 ∨
      ∀ K, (K = I ∨ K = I + 1) → (gridPt a e n I' - p) ^ 2 + q ≤ (gridPt a e n K - p) ^ 2 + q) : I' = I ∨ I' = I + 1 := by
  by_contra hc
  obtain ⟨h3, K, hK, h4⟩ := grid_out hae hn h1 h2 (not_or.1 hc)
  rcases h with h | h
  · have : (1 / 10 ^ 16 : ℝ) ^ 2 < ((e - a) / n) ^ 2 := by nlinarith
    norm_num at this h
    linarith
  · have := h K hK
    linarith

end Jali.MstkGen
