import Verif.Spec.PointLocation
import Verif.Proof.EvenOdd
import Mathlib.Tactic.Linarith
import Mathlib.Tactic.Ring
/-! Signed crossings: the number of times a polygon goes around a point, as the crossing test counts. -/
namespace Jali.Geom
open Spec Point

/-- 1 if the point is above the height `y`, else 0 -/
noncomputable def above (y : ℝ) (p : Point) : ℤ := if y < p.y then 1 else 0

/-- 1 if the edge counted goes upwards, -1 if it goes downwards, 0 if it is not counted -/
noncomputable def wind (t : Point) (e : Point × Point) : ℤ :=
  (above t.y e.2 - above t.y e.1) * (if t.x ≤ xAt e.1 e.2 t.y then 1 else 0)

theorem wind_flat {t p q : Point} (h : p.y = q.y) : wind t (p, q) = 0 := by
  unfold wind above; simp [h]

theorem wind_swap (t p q : Point) : wind t (q, p) = - wind t (p, q) := by
  by_cases h : p.y = q.y
  · rw [wind_flat h, wind_flat h.symm]; rfl
  · unfold wind
    dsimp only
    rw [xAt_swap h]; ring

theorem xAt_line {a b v : Point} (h0 : orient2 a b v = 0) (hab : a.y ≠ b.y) (hav : a.y ≠ v.y) (h : ℝ) : xAt a v h = xAt a b h := by
  have h1 : b.y - a.y ≠ 0 := sub_ne_zero.2 (Ne.symm hab)
  have h2 : v.y - a.y ≠ 0 := sub_ne_zero.2 (Ne.symm hav)
  unfold xAt
  rw [add_right_inj, div_eq_div_iff h2 h1]
  unfold orient2 at h0
  linear_combination (-(h - a.y)) * h0

/-- an edge may be cut -/
theorem wind_cut {t a b v : Point} (hv : OnSeg a b v.x v.y) : wind t (a, b) = wind t (a, v) + wind t (v, b) := by
  obtain ⟨s, hs0, hs1, hx, hy⟩ := hv
  have h0 : orient2 a b v = 0 := by unfold orient2; rw [hx, hy]; ring
  have h0' : orient2 b a v = 0 := by unfold orient2; rw [hx, hy]; ring
  by_cases hab : a.y = b.y
  · have hva : v.y = a.y := by rw [hy, ← hab]; ring
    rw [wind_flat hab, wind_flat hva.symm, wind_flat (hva.trans hab)]; rfl
  · have e1 : wind t (a, v) = (above t.y v - above t.y a) * (if t.x ≤ xAt a b t.y then 1 else 0) := by
      by_cases h : a.y = v.y
      · rw [wind_flat h]; unfold above; simp [h]
      · unfold wind; dsimp only; rw [xAt_line h0 hab h]
    have e2 : wind t (v, b) = (above t.y b - above t.y v) * (if t.x ≤ xAt a b t.y then 1 else 0) := by
      by_cases h : v.y = b.y
      · rw [wind_flat h]; unfold above; simp [h]
      · unfold wind; dsimp only; rw [xAt_swap h, xAt_line h0' (Ne.symm hab) (Ne.symm h), xAt_swap (Ne.symm hab)]
    rw [e1, e2]; unfold wind; ring

theorem wind_refines {t : Point} {L B : List (Point × Point)} (h : Refines L B) : (L.map (wind t)).sum = (B.map (wind t)).sum := by
  induction h with
  | same h => exact (h.map _).sum_eq
  | cut hv _ ih => rw [ih]; simp only [List.map_cons, List.sum_cons]; rw [wind_cut hv]; ring
  | order h _ ih => rw [ih]; exact ((h.map _).sum_eq).symm

open Classical in
theorem wind_cases (t p q : Point) : wind t (p, q) =
    if Up t.y (p, q) ∧ 0 ≤ orient2 t p q then 1 else if Down t.y (p, q) ∧ orient2 t p q ≤ 0 then -1 else 0 := by
  have ho : orient2 t p q = orient2 p q t := by unfold orient2; ring
  rw [ho]
  by_cases h : p.y = q.y
  · rw [wind_flat h, if_neg, if_neg]
    · rintro ⟨⟨h1, h2⟩, _⟩; dsimp only at h1 h2; linarith
    · rintro ⟨⟨h1, h2⟩, _⟩; dsimp only at h1 h2; linarith
  · rw [orient_xAt h]
    unfold wind above Up Down
    dsimp only
    by_cases h1 : t.y < p.y <;> by_cases h2 : t.y < q.y
    · simp [h1, h2, not_le.2 h1, not_le.2 h2]
    · have hd : q.y - p.y < 0 := by linarith [not_lt.1 h2]
      have : (xAt p q t.y - t.x) * (q.y - p.y) ≤ 0 ↔ t.x ≤ xAt p q t.y := by
        constructor
        · intro h3; by_contra h4
          have := mul_pos_of_neg_of_neg (sub_neg.2 (not_le.1 h4)) hd; linarith
        · intro h3; exact mul_nonpos_of_nonneg_of_nonpos (sub_nonneg.2 h3) hd.le
      simp [h1, h2, not_lt.1 h2, not_le.2 h1, this]; try (split <;> rfl)
    · have hd : 0 < q.y - p.y := by linarith [not_lt.1 h1]
      have : 0 ≤ (xAt p q t.y - t.x) * (q.y - p.y) ↔ t.x ≤ xAt p q t.y := by
        constructor
        · intro h3; by_contra h4
          have := mul_neg_of_neg_of_pos (sub_neg.2 (not_le.1 h4)) hd; linarith
        · intro h3; exact mul_nonneg (sub_nonneg.2 h3) hd.le
      simp [h1, h2, not_lt.1 h1, not_le.2 h2, this]
    · simp [h1, h2]

theorem wind_odd (t : Point) (e : Point × Point) : wind t e % 2 = if crosses t.x t.y e.1 e.2 = true then 1 else 0 := by
  obtain ⟨p, q⟩ := e
  rw [wind_cases]
  have := crosses_iff t (p, q)
  dsimp only at this ⊢
  by_cases h1 : Up t.y (p, q) ∧ 0 ≤ orient2 t p q
  · rw [if_pos h1, if_pos (this.2 (.inl h1))]; rfl
  · by_cases h2 : Down t.y (p, q) ∧ orient2 t p q ≤ 0
    · rw [if_neg h1, if_pos h2, if_pos (this.2 (.inr h2))]; rfl
    · rw [if_neg h1, if_neg h2, if_neg (fun h => (this.1 h).elim h1 h2)]; rfl

theorem wind_parity (t : Point) (L : List (Point × Point)) :
    (L.map (wind t)).sum % 2 = ((L.countP fun e => crosses t.x t.y e.1 e.2 : ℕ) : ℤ) % 2 := by
  induction L with
  | nil => rfl
  | cons e L ih =>
    have := wind_odd t e
    rw [List.map_cons, List.sum_cons, List.countP_cons]
    by_cases h : crosses t.x t.y e.1 e.2 = true
    · rw [if_pos h] at this ⊢; push_cast; omega
    · rw [if_neg h] at this ⊢; push_cast; omega

/-- the answer of the crossing test is whether the polygon goes around the point an odd number of times -/
theorem inPolygon_wind (t : Point) (l : List Point) : pointInPolygon t l = true ↔ ((polyEdges l).map (wind t)).sum % 2 = 1 := by
  rw [inPolygon_parity, wind_parity]; omega

open Classical in
theorem wind_counts (t : Point) (L : List (Point × Point)) : (L.map (wind t)).sum = (L.countP fun e => decide (Up t.y e ∧ 0 ≤ orient2 t e.1 e.2) : ℕ) -
      (L.countP fun e => decide (Down t.y e ∧ orient2 t e.1 e.2 ≤ 0) : ℕ) := by
  induction L with
  | nil => rfl
  | cons e L ih =>
    obtain ⟨p, q⟩ := e
    rw [List.map_cons, List.sum_cons, List.countP_cons, List.countP_cons, wind_cases, ih]
    by_cases h1 : Up t.y (p, q) ∧ 0 ≤ orient2 t p q
    · have h2 : ¬ (Down t.y (p, q) ∧ orient2 t p q ≤ 0) := fun h => up_not_down h1.1 h.1
      simp only [h1, h2, decide_true, decide_false, if_true]; push_cast; simp; ring
    · by_cases h2 : Down t.y (p, q) ∧ orient2 t p q ≤ 0
      · simp only [h1, h2, decide_true, decide_false, if_true, if_false]; push_cast; simp; ring
      · simp only [h1, h2, decide_false, if_false]; push_cast; simp

/-- a convex polygon goes around a point once or not at all -/
theorem wind_convex (t : Point) {l : List Point} (h : StrictlyConvex l) :
    ((polyEdges l).map (wind t)).sum = if pointInPolygon t l = true then 1 else 0 := by
  classical
  have hn := edges_nodup h.nodup
  have hc := wind_counts t (polyEdges l)
  have hu1 := countP_le_one (polyEdges l) (fun e => decide (Up t.y e ∧ 0 ≤ orient2 t e.1 e.2)) hn
    fun a ha b hb ua ub => up_unique h ha hb (of_decide_eq_true ua).1 (of_decide_eq_true ub).1
  have hU1 : (polyEdges l).countP (fun e => decide (Up t.y e)) ≤ 1 :=
    countP_le_one _ _ hn fun a ha b hb ua ub => up_unique h ha hb (of_decide_eq_true ua) (of_decide_eq_true ub)
  have hD1 : (polyEdges l).countP (fun e => decide (Down t.y e)) ≤ 1 := by rw [← up_eq_down]; exact hU1
  have hd1 : (polyEdges l).countP (fun e => decide (Down t.y e ∧ orient2 t e.1 e.2 ≤ 0)) ≤
      (polyEdges l).countP (fun e => decide (Down t.y e)) :=
    List.countP_mono_left fun e _ he => decide_eq_true (of_decide_eq_true he).1
  have key : 0 < (polyEdges l).countP (fun e => decide (Down t.y e ∧ orient2 t e.1 e.2 ≤ 0)) →
      0 < (polyEdges l).countP (fun e => decide (Up t.y e ∧ 0 ≤ orient2 t e.1 e.2)) := by
    intro hpos
    obtain ⟨w, hw, hdn⟩ := List.countP_pos_iff.1 hpos
    obtain ⟨⟨w1, w2⟩, w3⟩ := of_decide_eq_true hdn
    have hUpos : 0 < (polyEdges l).countP (fun e => decide (Up t.y e)) := by rw [up_eq_down]; omega
    obtain ⟨u, hu, hup⟩ := List.countP_pos_iff.1 hUpos
    obtain ⟨u1, u2⟩ := of_decide_eq_true hup
    refine List.countP_pos_iff.2 ⟨u, hu, decide_eq_true ⟨⟨u1, u2⟩, ?_⟩⟩
    by_contra hneg
    have mw := mem_edges_l hw
    have r2 : 0 ≤ (t.y - w.2.y) * orient2 u.1 u.2 w.1 + (w.1.y - t.y) * orient2 u.1 u.2 w.2 :=
      add_nonneg (mul_nonneg (by linarith) (convex_nonneg h hu mw.1)) (mul_nonneg (by linarith) (convex_nonneg h hu mw.2))
    have id : (t.y - w.2.y) * orient2 u.1 u.2 w.1 + (w.1.y - t.y) * orient2 u.1 u.2 w.2 =
        (w.1.y - w.2.y) * orient2 t u.1 u.2 + (u.2.y - u.1.y) * orient2 t w.1 w.2 := by
      simp only [orient2]; ring
    have n1 := mul_neg_of_pos_of_neg (show 0 < w.1.y - w.2.y by linarith) (not_le.1 hneg)
    have n2 := mul_nonpos_of_nonneg_of_nonpos (show 0 ≤ u.2.y - u.1.y by linarith) w3
    linarith
  have hp := inPolygon_wind t l
  split
  · rename_i hin
    have := hp.1 hin
    omega
  · rename_i hin
    have : ¬ (((polyEdges l).map (wind t)).sum % 2 = 1) := fun h => hin (hp.2 h)
    omega

theorem wind_outline (t : Point) {l : List Point} (h : ConvexOutline l) :
    ((polyEdges l).map (wind t)).sum = if pointInPolygon t l = true then 1 else 0 := by
  obtain ⟨B, hB, href⟩ := h
  have e := wind_refines (t := t) href
  have h1 := wind_convex t hB
  have h2 := inPolygon_wind t l
  rw [e] at h2 ⊢
  rw [h1] at h2 ⊢
  by_cases hb : pointInPolygon t B = true <;> by_cases hl : pointInPolygon t l = true <;> simp_all

/-- a polygon and a refinement of its outline contain the same points -/
theorem inPolygon_refines {t : Point} {l B : List Point} (h : Refines (polyEdges l) (polyEdges B)) :
    pointInPolygon t l = pointInPolygon t B := by
  rw [Bool.eq_iff_iff, inPolygon_wind, inPolygon_wind, wind_refines h]

end Jali.Geom
