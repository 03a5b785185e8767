import Verif.Spec.EvenOdd
import Verif.Proof.PointInPolygon
import Mathlib.Tactic.LinearCombination
/-! The crossing test at the two ends of a segment. -/
namespace Jali.Geom
open Spec Point

/-- the position at height `h` on the line through `a` and `b` -/
noncomputable def xAt (a b : Point) (h : ℝ) : ℝ := a.x + (h - a.y) * (b.x - a.x) / (b.y - a.y)

/-- the vertex `v` is to the right of the segment from `t` to `t'`, at a height between its ends -/
noncomputable def beyond (t t' v : Point) : Bool :=
  (decide (t.y < v.y) ^^ decide (t'.y < v.y)) && decide (xAt t t' v.y ≤ v.x)

theorem xAt_fst (a b : Point) : xAt a b a.y = a.x := by simp [xAt]
theorem xAt_snd {a b : Point} (h : a.y < b.y) : xAt a b b.y = b.x := by
  have : b.y - a.y ≠ 0 := by linarith
  unfold xAt; rw [mul_div_assoc, mul_div_cancel₀ _ this]; ring
theorem xAt_swap {a b : Point} (hab : a.y ≠ b.y) (h : ℝ) : xAt a b h = xAt b a h := by
  have h1 : b.y - a.y ≠ 0 := sub_ne_zero.2 (Ne.symm hab)
  have h2 : a.y - b.y ≠ 0 := sub_ne_zero.2 hab
  unfold xAt; field_simp; ring

theorem crosses_eq (t p q : Point) : crosses t.x t.y p q =
    ((decide (t.y < p.y) ^^ decide (t.y < q.y)) && decide (t.x ≤ xAt p q t.y)) := by
  unfold crosses xAt
  congr 1
  rw [Bool.eq_iff_iff, decide_eq_true_eq, gt_iff_lt, gt_iff_lt]
  by_cases h1 : t.y < p.y <;> by_cases h2 : t.y < q.y
  · simp [h1, h2, not_le.2 h1, not_le.2 h2]
  · simp [h1, h2, not_lt.1 h2]
  · simp [h1, h2, not_lt.1 h1]
  · simp [h1, h2]

theorem crosses_swap (t p q : Point) : crosses t.x t.y p q = crosses t.x t.y q p := by
  rw [crosses_eq, crosses_eq, Bool.xor_comm]
  by_cases h : p.y = q.y
  · simp [h]
  · rw [xAt_swap h]

theorem beyond_swap (t t' v : Point) : beyond t t' v = beyond t' t v := by
  unfold beyond
  rw [Bool.xor_comm]
  by_cases h : t.y = t'.y
  · simp [h]
  · rw [xAt_swap h]

/-- how much the edge is to the right of the segment -/
noncomputable def gap (t t' p q : Point) (h : ℝ) : ℝ := xAt p q h - xAt t t' h

/-- how often the edge from `p` to `q` changes the answer on the way from `t` to `t'`, up to the positions of `p` and `q` -/
noncomputable def flips (t t' p q : Point) : Bool :=
  (crosses t.x t.y p q ^^ crosses t'.x t'.y p q) ^^ (beyond t t' p ^^ beyond t t' q)

theorem flips_swap (t t' p q : Point) : flips t t' p q = flips t t' q p := by
  unfold flips
  rw [crosses_swap t, crosses_swap t', Bool.xor_comm (beyond t t' p)]

theorem flips_swap' (t t' p q : Point) : flips t t' p q = flips t' t p q := by
  unfold flips
  rw [beyond_swap t, beyond_swap t, Bool.xor_comm (crosses t.x t.y p q)]

/-- both segments go upwards, at some heights side by side -/
theorem flips_side {t t' p q : Point} (hp : p.y < q.y) (ht : t.y < t'.y) (h : max p.y t.y < min q.y t'.y) :
    flips t t' p q = (decide (0 ≤ gap t t' p q (max p.y t.y)) ^^ decide (0 ≤ gap t t' p q (min q.y t'.y))) := by
  have h1 : p.y < t'.y := lt_of_le_of_lt (le_max_left _ _) (lt_of_lt_of_le h (min_le_right _ _))
  have h2 : t.y < q.y := lt_of_le_of_lt (le_max_right _ _) (lt_of_lt_of_le h (min_le_left _ _))
  have lo : (crosses t.x t.y p q ^^ beyond t t' p) = decide (0 ≤ gap t t' p q (max p.y t.y)) := by
    rw [crosses_eq]
    unfold beyond
    rcases le_or_gt p.y t.y with h3 | h3
    · rw [max_eq_right h3]
      unfold gap
      rw [xAt_fst]
      simp [not_lt.2 h3, h2, not_lt.2 h1.le]
    · rw [max_eq_left h3.le]
      unfold gap
      rw [xAt_fst p]
      simp [h3, h2, not_lt.2 h1.le]
  have hi : (crosses t'.x t'.y p q ^^ beyond t t' q) = decide (0 ≤ gap t t' p q (min q.y t'.y)) := by
    rw [crosses_eq]
    unfold beyond
    rcases le_or_gt q.y t'.y with h3 | h3
    · rw [min_eq_left h3]
      unfold gap
      rw [xAt_snd hp]
      simp [not_lt.2 h3, h2, not_lt.2 h1.le]
    · rw [min_eq_right h3.le]
      unfold gap
      rw [xAt_snd ht]
      simp [h3, h2, not_lt.2 h1.le]
  unfold flips
  rw [← lo, ← hi]
  cases crosses t.x t.y p q <;> cases crosses t'.x t'.y p q <;> cases beyond t t' p <;> cases beyond t t' q <;> rfl

/-- both segments go upwards, one above the other -/
theorem flips_above {t t' p q : Point} (hp : p.y < q.y) (ht : t.y < t'.y) (h : min q.y t'.y ≤ max p.y t.y) :
    flips t t' p q = false := by
  unfold flips beyond
  rw [crosses_eq, crosses_eq]
  have h' : q.y ≤ t.y ∨ t'.y ≤ p.y := by
    rcases min_le_iff.1 h with h | h <;> rcases le_max_iff.1 h with h | h
    · linarith
    · exact .inl h
    · exact .inr h
    · linarith
  rcases h' with h' | h'
  · simp [not_lt.2 h', not_lt.2 (show p.y ≤ t.y by linarith), not_lt.2 (show p.y ≤ t'.y by linarith), not_lt.2 (show q.y ≤ t'.y by linarith)]
  · by_cases h3 : t'.y < p.y
    · simp [h3, show t.y < p.y by linarith, show t.y < q.y by linarith, show t'.y < q.y by linarith]
    · have : t'.y = p.y := le_antisymm h' (not_lt.1 h3)
      have e1 : xAt t t' p.y = t'.x := by rw [← this]; exact xAt_snd ht
      rw [e1, this, xAt_fst]
      simp [show t.y < p.y by linarith, show t.y < q.y by linarith, hp]

theorem gap_affine (t t' p q : Point) : ∃ A m : ℝ, ∀ h, gap t t' p q h = A + m * h :=
  ⟨p.x - p.y * (q.x - p.x) / (q.y - p.y) - t.x + t.y * (t'.x - t.x) / (t'.y - t.y),
    (q.x - p.x) / (q.y - p.y) - (t'.x - t.x) / (t'.y - t.y), fun h => by unfold gap xAt; ring⟩

theorem orient_xAt {a b : Point} (h : a.y ≠ b.y) (c : Point) : orient2 a b c = (xAt a b c.y - c.x) * (b.y - a.y) := by
  have : b.y - a.y ≠ 0 := sub_ne_zero.2 (Ne.symm h)
  unfold orient2 xAt; field_simp; ring

theorem onSeg_xAt {a b : Point} (hab : a.y < b.y) {h : ℝ} (h1 : a.y ≤ h) (h2 : h ≤ b.y) : OnSeg a b (xAt a b h) h := by
  have hd : 0 < b.y - a.y := by linarith
  refine ⟨(h - a.y) / (b.y - a.y), div_nonneg (by linarith) hd.le, (div_le_one hd).2 (by linarith), ?_, ?_⟩
  · unfold xAt; ring
  · rw [div_mul_cancel₀ _ hd.ne']; ring

/-- a point between two points of the same height -/
theorem onSeg_flat {a b : Point} (hab : a.y = b.y) {x : ℝ} (h1 : a.x ≤ x) (h2 : x ≤ b.x) (hlt : a.x < b.x) : OnSeg a b x a.y := by
  have hd : 0 < b.x - a.x := by linarith
  refine ⟨(x - a.x) / (b.x - a.x), div_nonneg (by linarith) hd.le, (div_le_one hd).2 (by linarith), ?_, ?_⟩
  · rw [div_mul_cancel₀ _ hd.ne']; ring
  · rw [hab]; ring

theorem onSeg_swap {a b : Point} {x y : ℝ} (h : OnSeg a b x y) : OnSeg b a x y := by
  obtain ⟨s, h0, h1, h2, h3⟩ := h
  exact ⟨1 - s, by linarith, by linarith, by rw [h2]; ring, by rw [h3]; ring⟩

theorem apart_swap {t t' p q : Point} (h : Apart t t' p q) : Apart t t' q p := fun x y h1 h2 => h x y h1 (onSeg_swap h2)
theorem apart_swap' {t t' p q : Point} (h : Apart t t' p q) : Apart t' t p q := fun x y h1 h2 => h x y (onSeg_swap h1) h2

theorem cross_swap {t t' p q : Point} (h : Cross t t' p q) : Cross t t' q p := by
  have e1 : orient2 q p t = -orient2 p q t := by unfold orient2; ring
  have e2 : orient2 q p t' = -orient2 p q t' := by unfold orient2; ring
  refine ⟨by rw [mul_comm]; exact h.1, ?_⟩
  rw [e1, e2, neg_mul_neg]; exact h.2
theorem cross_swap' {t t' p q : Point} (h : Cross t t' p q) : Cross t' t p q := by
  have e1 : orient2 t' t p = -orient2 t t' p := by unfold orient2; ring
  have e2 : orient2 t' t q = -orient2 t t' q := by unfold orient2; ring
  refine ⟨?_, by rw [mul_comm]; exact h.2⟩
  rw [e1, e2, neg_mul_neg]; exact h.1

/-! ### both segments go upwards -/

theorem apart_up {t t' p q : Point} (hp : p.y < q.y) (ht : t.y < t'.y) (ha : Apart t t' p q) : flips t t' p q = false := by
  rcases le_or_gt (min q.y t'.y) (max p.y t.y) with h | h
  · exact flips_above hp ht h
  · rw [flips_side hp ht h]
    have hz : ∀ y, max p.y t.y ≤ y → y ≤ min q.y t'.y → gap t t' p q y ≠ 0 := by
      intro y h1 h2 h0
      have o1 := onSeg_xAt hp (le_trans (le_max_left _ _) h1) (le_trans h2 (min_le_left _ _))
      have o2 := onSeg_xAt ht (le_trans (le_max_right _ _) h1) (le_trans h2 (min_le_right _ _))
      have : xAt p q y = xAt t t' y := by unfold gap at h0; linarith
      rw [this] at o1
      exact ha _ _ o2 o1
    obtain ⟨A, m, hg⟩ := gap_affine t t' p q
    generalize max p.y t.y = lo at *
    generalize min q.y t'.y = hi at *
    have z1 := hz lo le_rfl h.le
    have z2 := hz hi h.le le_rfl
    rcases lt_or_gt_of_ne z1 with s1 | s1 <;> rcases lt_or_gt_of_ne z2 with s2 | s2
    · simp [not_le.2 s1, not_le.2 s2]
    · exfalso
      rw [hg] at s1 s2
      have hm : 0 < m := by
        by_contra hm
        have := mul_nonneg_of_nonpos_of_nonpos (not_lt.1 hm) (by linarith : lo - hi ≤ 0)
        linarith
      refine hz (-A / m) ?_ ?_ ?_
      · rw [le_div_iff₀ hm]; linarith
      · rw [div_le_iff₀ hm]; linarith
      · rw [hg, mul_div_cancel₀ _ hm.ne']; ring
    · exfalso
      rw [hg] at s1 s2
      have hm : m < 0 := by
        by_contra hm
        have := mul_nonneg (not_lt.1 hm) (by linarith : 0 ≤ hi - lo)
        linarith
      refine hz (-A / m) ?_ ?_ ?_
      · rw [le_div_iff_of_neg hm]; linarith
      · rw [div_le_iff_of_neg hm]; linarith
      · rw [hg, mul_div_cancel₀ _ hm.ne]; ring
    · simp [s1.le, s2.le]

theorem cross_up {t t' p q : Point} (hp : p.y < q.y) (ht : t.y < t'.y) (hc : Cross t t' p q) : flips t t' p q = true := by
  obtain ⟨c1, c2⟩ := hc
  rw [orient_xAt ht.ne, orient_xAt ht.ne] at c1
  rw [orient_xAt hp.ne, orient_xAt hp.ne] at c2
  have gp : gap t t' p q p.y = p.x - xAt t t' p.y := by unfold gap; rw [xAt_fst]
  have gq : gap t t' p q q.y = q.x - xAt t t' q.y := by unfold gap; rw [xAt_snd hp]
  have gt : gap t t' p q t.y = xAt p q t.y - t.x := by unfold gap; rw [xAt_fst]
  have gt' : gap t t' p q t'.y = xAt p q t'.y - t'.x := by unfold gap; rw [xAt_snd ht]
  have d1 : gap t t' p q p.y * gap t t' p q q.y < 0 := by
    rw [gp, gq]
    have hw : 0 < (t'.y - t.y) * (t'.y - t.y) := mul_pos (by linarith) (by linarith)
    by_contra hn
    have := mul_nonneg (not_lt.1 hn) hw.le
    linarith
  have d2 : gap t t' p q t.y * gap t t' p q t'.y < 0 := by
    rw [gt, gt']
    have hw : 0 < (q.y - p.y) * (q.y - p.y) := mul_pos (by linarith) (by linarith)
    by_contra hn
    have := mul_nonneg (not_lt.1 hn) hw.le
    linarith
  obtain ⟨A, m, hg⟩ := gap_affine t t' p q
  have key : max p.y t.y < min q.y t'.y ∧ gap t t' p q (max p.y t.y) * gap t t' p q (min q.y t'.y) < 0 := by
    simp only [hg] at d1 d2 ⊢
    have e1 : p.y ≤ max p.y t.y := le_max_left _ _
    have e2 : t.y ≤ max p.y t.y := le_max_right _ _
    have e3 : min q.y t'.y ≤ q.y := min_le_left _ _
    have e4 : min q.y t'.y ≤ t'.y := min_le_right _ _
    have f1 : max p.y t.y = p.y ∨ max p.y t.y = t.y := by
      rcases le_total p.y t.y with h | h
      · exact .inr (max_eq_right h)
      · exact .inl (max_eq_left h)
    have f2 : min q.y t'.y = q.y ∨ min q.y t'.y = t'.y := by
      rcases le_total q.y t'.y with h | h
      · exact .inl (min_eq_left h)
      · exact .inr (min_eq_right h)
    generalize max p.y t.y = lo at *
    generalize min q.y t'.y = hi at *
    rcases lt_trichotomy m 0 with hm | hm | hm
    · have mono : ∀ a b : ℝ, a ≤ b → m * b ≤ m * a := fun a b h => mul_le_mul_of_nonpos_left h hm.le
      have u1 : 0 < A + m * p.y ∧ A + m * q.y < 0 := by
        have := mono _ _ hp.le
        rcases mul_neg_iff.1 d1 with h | h
        · exact h
        · linarith [h.1, h.2]
      have u2 : 0 < A + m * t.y ∧ A + m * t'.y < 0 := by
        have := mono _ _ ht.le
        rcases mul_neg_iff.1 d2 with h | h
        · exact h
        · linarith [h.1, h.2]
      have v1 : 0 < A + m * lo := by rcases f1 with h | h <;> rw [h]; exacts [u1.1, u2.1]
      have v2 : A + m * hi < 0 := by rcases f2 with h | h <;> rw [h]; exacts [u1.2, u2.2]
      refine ⟨?_, mul_neg_of_pos_of_neg v1 v2⟩
      by_contra hn
      have := mono _ _ (not_lt.1 hn)
      linarith
    · rw [hm] at d1; nlinarith [mul_self_nonneg A]
    · have mono : ∀ a b : ℝ, a ≤ b → m * a ≤ m * b := fun a b h => mul_le_mul_of_nonneg_left h hm.le
      have u1 : A + m * p.y < 0 ∧ 0 < A + m * q.y := by
        have := mono _ _ hp.le
        rcases mul_neg_iff.1 d1 with h | h
        · linarith [h.1, h.2]
        · exact h
      have u2 : A + m * t.y < 0 ∧ 0 < A + m * t'.y := by
        have := mono _ _ ht.le
        rcases mul_neg_iff.1 d2 with h | h
        · linarith [h.1, h.2]
        · exact h
      have v1 : A + m * lo < 0 := by rcases f1 with h | h <;> rw [h]; exacts [u1.1, u2.1]
      have v2 : 0 < A + m * hi := by rcases f2 with h | h <;> rw [h]; exacts [u1.2, u2.2]
      refine ⟨?_, mul_neg_of_neg_of_pos v1 v2⟩
      by_contra hn
      have := mono _ _ (not_lt.1 hn)
      linarith
  rw [flips_side hp ht key.1]
  rcases mul_neg_iff.1 key.2 with ⟨h1, h2⟩ | ⟨h1, h2⟩
  · simp [h1.le, not_le.2 h2]
  · simp [h2.le, not_le.2 h1]

/-! ### one of the segments is level -/

theorem flips_level_edge {t t' p q : Point} (hp : p.y = q.y) : flips t t' p q =
    ((decide (t.y < p.y) ^^ decide (t'.y < p.y)) && (decide (xAt t t' p.y ≤ p.x) ^^ decide (xAt t t' p.y ≤ q.x))) := by
  unfold flips beyond
  rw [crosses_eq, crosses_eq, ← hp]
  cases (decide (t.y < p.y) ^^ decide (t'.y < p.y)) <;> simp

theorem flips_level_seg {t t' p q : Point} (ht : t.y = t'.y) : flips t t' p q =
    ((decide (t.y < p.y) ^^ decide (t.y < q.y)) && (decide (t.x ≤ xAt p q t.y) ^^ decide (t'.x ≤ xAt p q t.y))) := by
  unfold flips beyond
  rw [crosses_eq, crosses_eq, ← ht]
  cases (decide (t.y < p.y) ^^ decide (t.y < q.y)) <;> simp

theorem apart_level_edge {t t' p q : Point} (hp : p.y = q.y) (ht : t.y < t'.y) (ha : Apart t t' p q) : flips t t' p q = false := by
  rw [flips_level_edge hp]
  by_contra hn
  rw [Bool.not_eq_false, Bool.and_eq_true] at hn
  obtain ⟨h1, h2⟩ := hn
  have hr : t.y < p.y ∧ p.y ≤ t'.y := by
    by_cases a : t.y < p.y <;> by_cases b : t'.y < p.y
    · simp [a, b] at h1
    · exact ⟨a, not_lt.1 b⟩
    · linarith
    · simp [a, b] at h1
  have o := onSeg_xAt ht hr.1.le hr.2
  generalize xAt t t' p.y = x at *
  by_cases a : x ≤ p.x <;> by_cases b : x ≤ q.x
  · simp [a, b] at h2
  · exact ha _ _ o (by rw [hp]; exact onSeg_swap (onSeg_flat hp.symm (not_le.1 b).le a (lt_of_lt_of_le (not_le.1 b) a)))
  · exact ha _ _ o (onSeg_flat hp (not_le.1 a).le b (lt_of_lt_of_le (not_le.1 a) b))
  · simp [a, b] at h2

theorem apart_level_seg {t t' p q : Point} (hp : p.y < q.y) (ht : t.y = t'.y) (ha : Apart t t' p q) : flips t t' p q = false := by
  rw [flips_level_seg ht]
  by_contra hn
  rw [Bool.not_eq_false, Bool.and_eq_true] at hn
  obtain ⟨h1, h2⟩ := hn
  have hr : p.y ≤ t.y ∧ t.y < q.y := by
    by_cases a : t.y < p.y <;> by_cases b : t.y < q.y
    · simp [a, b] at h1
    · linarith
    · exact ⟨not_lt.1 a, b⟩
    · simp [a, b] at h1
  have o := onSeg_xAt hp hr.1 hr.2.le
  generalize xAt p q t.y = x at *
  by_cases a : t.x ≤ x <;> by_cases b : t'.x ≤ x
  · simp [a, b] at h2
  · exact ha _ _ (onSeg_flat ht a (not_le.1 b).le (lt_of_le_of_lt a (not_le.1 b))) o
  · exact ha _ _ (onSeg_swap (by have := onSeg_flat ht.symm b (not_le.1 a).le (lt_of_le_of_lt b (not_le.1 a)); rwa [← ht] at this)) o
  · simp [a, b] at h2

theorem cross_level_edge {t t' p q : Point} (hp : p.y = q.y) (ht : t.y < t'.y) (hc : Cross t t' p q) : flips t t' p q = true := by
  obtain ⟨c1, c2⟩ := hc
  rw [orient_xAt ht.ne, orient_xAt ht.ne, ← hp] at c1
  have e1 : orient2 p q t * orient2 p q t' = ((q.x - p.x) * (q.x - p.x)) * ((t.y - p.y) * (t'.y - p.y)) := by
    unfold orient2; rw [← hp]; ring
  rw [e1] at c2
  rw [flips_level_edge hp]
  have s2 : (t.y - p.y) * (t'.y - p.y) < 0 := by
    by_contra hn
    have := mul_nonneg (mul_self_nonneg (q.x - p.x)) (not_lt.1 hn)
    linarith
  have s1 : (xAt t t' p.y - p.x) * (xAt t t' p.y - q.x) < 0 := by
    by_contra hn
    have := mul_nonneg (not_lt.1 hn) (mul_self_nonneg (t'.y - t.y))
    linarith
  have hr : t.y < p.y ∧ p.y < t'.y := by
    rcases mul_neg_iff.1 s2 with h | h
    · linarith [h.1, h.2]
    · exact ⟨by linarith [h.1], by linarith [h.2]⟩
  rcases mul_neg_iff.1 s1 with h | h
  · simp [hr.1, not_lt.2 hr.2.le, show xAt t t' p.y ≤ q.x by linarith [h.2], show p.x < xAt t t' p.y by linarith [h.1]]
  · simp [hr.1, not_lt.2 hr.2.le, show q.x < xAt t t' p.y by linarith [h.2], show xAt t t' p.y ≤ p.x by linarith [h.1]]

theorem cross_level_seg {t t' p q : Point} (hp : p.y < q.y) (ht : t.y = t'.y) (hc : Cross t t' p q) : flips t t' p q = true := by
  obtain ⟨c1, c2⟩ := hc
  rw [orient_xAt hp.ne, orient_xAt hp.ne, ← ht] at c2
  have e1 : orient2 t t' p * orient2 t t' q = ((t'.x - t.x) * (t'.x - t.x)) * ((p.y - t.y) * (q.y - t.y)) := by
    unfold orient2; rw [← ht]; ring
  rw [e1] at c1
  rw [flips_level_seg ht]
  have s2 : (p.y - t.y) * (q.y - t.y) < 0 := by
    by_contra hn
    have := mul_nonneg (mul_self_nonneg (t'.x - t.x)) (not_lt.1 hn)
    linarith
  have s1 : (xAt p q t.y - t.x) * (xAt p q t.y - t'.x) < 0 := by
    by_contra hn
    have := mul_nonneg (not_lt.1 hn) (mul_self_nonneg (q.y - p.y))
    linarith
  have hr : p.y < t.y ∧ t.y < q.y := by
    rcases mul_neg_iff.1 s2 with h | h
    · linarith [h.1, h.2]
    · exact ⟨by linarith [h.1], by linarith [h.2]⟩
  rcases mul_neg_iff.1 s1 with h | h
  · simp [hr.2, not_lt.2 hr.1.le, show t.x ≤ xAt p q t.y by linarith [h.1], show xAt p q t.y < t'.x by linarith [h.2]]
  · simp [hr.2, not_lt.2 hr.1.le, show xAt p q t.y < t.x by linarith [h.1], show t'.x ≤ xAt p q t.y by linarith [h.2]]

/-! ### all positions -/

theorem flips_apart {t t' p q : Point} (ha : Apart t t' p q) : flips t t' p q = false := by
  rcases lt_trichotomy p.y q.y with hp | hp | hp <;> rcases lt_trichotomy t.y t'.y with ht | ht | ht
  · exact apart_up hp ht ha
  · exact apart_level_seg hp ht ha
  · rw [flips_swap']; exact apart_up hp ht (apart_swap' ha)
  · exact apart_level_edge hp ht ha
  · rw [flips_level_edge hp, ht]; simp
  · rw [flips_swap']; exact apart_level_edge hp ht (apart_swap' ha)
  · rw [flips_swap]; exact apart_up hp ht (apart_swap ha)
  · rw [flips_swap]; exact apart_level_seg hp ht (apart_swap ha)
  · rw [flips_swap, flips_swap']; exact apart_up hp ht (apart_swap' (apart_swap ha))

theorem flips_cross {t t' p q : Point} (ha : Cross t t' p q) : flips t t' p q = true := by
  rcases lt_trichotomy p.y q.y with hp | hp | hp <;> rcases lt_trichotomy t.y t'.y with ht | ht | ht
  · exact cross_up hp ht ha
  · exact cross_level_seg hp ht ha
  · rw [flips_swap']; exact cross_up hp ht (cross_swap' ha)
  · exact cross_level_edge hp ht ha
  · exfalso
    have h := ha.1
    have e1 : orient2 t t' p * orient2 t t' q = ((t'.x - t.x) * (p.y - t.y)) * ((t'.x - t.x) * (p.y - t.y)) := by
      unfold orient2; rw [← ht, ← hp]; ring
    rw [e1] at h
    linarith [mul_self_nonneg ((t'.x - t.x) * (p.y - t.y))]
  · rw [flips_swap']; exact cross_level_edge hp ht (cross_swap' ha)
  · rw [flips_swap]; exact cross_up hp ht (cross_swap ha)
  · rw [flips_swap]; exact cross_level_seg hp ht (cross_swap ha)
  · rw [flips_swap, flips_swap']; exact cross_up hp ht (cross_swap' (cross_swap ha))

end Jali.Geom
