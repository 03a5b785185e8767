import Verif.Proof.PointInPolygon
/-! Property theorems C52: the crossing test for points in polygons. -/
namespace Jali.Geom
open Spec Point

/-- **C52, invariance.** The answer depends neither on the starting vertex nor on the orientation of the polygon. -/
theorem point_in_polygon_invariant (t : Point) (coords : List Point) (k : Nat) :
    pointInPolygon t (coords.rotate k) = pointInPolygon t coords ∧ pointInPolygon t coords.reverse = pointInPolygon t coords := by
  constructor
  · rw [Bool.eq_iff_iff, inPolygon_parity, inPolygon_parity, (edges_rotate coords k).countP_eq]
  · rw [Bool.eq_iff_iff, inPolygon_parity, inPolygon_parity, (edges_reverse coords).countP_eq, List.countP_map]
    have : ∀ e : Point × Point, crosses t.x t.y e.2 e.1 = crosses t.x t.y e.1 e.2 := by
      intro e
      rw [Bool.eq_iff_iff, crosses_iff t (e.2, e.1), crosses_iff t e]
      simp only [Up, Down, orient2]
      constructor
      · rintro (⟨⟨h1, h2⟩, h3⟩ | ⟨⟨h1, h2⟩, h3⟩)
        · right; exact ⟨⟨h2, h1⟩, by linarith⟩
        · left; exact ⟨⟨h2, h1⟩, by linarith⟩
      · rintro (⟨⟨h1, h2⟩, h3⟩ | ⟨⟨h1, h2⟩, h3⟩)
        · right; exact ⟨⟨h2, h1⟩, by linarith⟩
        · left; exact ⟨⟨h2, h1⟩, by linarith⟩
    simp only [Function.comp_def, Prod.swap, this]

/-- **C52, outside of the bounding box.** A point that is below, above, to the right or to the left of all vertices is
outside. (On the lower and left sides of the bounding box itself, points of the boundary may count as inside.) -/
theorem point_in_polygon_outside (t : Point) (coords : List Point)
    (h : (∀ v ∈ coords, t.y < v.y) ∨ (∀ v ∈ coords, v.y ≤ t.y) ∨ (∀ v ∈ coords, v.x < t.x) ∨ (∀ v ∈ coords, t.x ≤ v.x)) :
    pointInPolygon t coords = false := by
  rw [← Bool.not_eq_true, inPolygon_parity]
  classical
  have hnone : (∀ e ∈ polyEdges coords, ¬ crosses t.x t.y e.1 e.2 = true) →
      ¬ (polyEdges coords).countP (fun e => crosses t.x t.y e.1 e.2) % 2 = 1 := by
    intro hc
    rw [List.countP_eq_zero.2 hc]; decide
  rcases h with h | h | h | h
  · apply hnone
    intro e he
    rw [crosses_iff]
    have h1 := h _ (mem_edges_l he).1
    have h2 := h _ (mem_edges_l he).2
    rintro (⟨⟨u1, u2⟩, _⟩ | ⟨⟨u1, u2⟩, _⟩) <;> linarith
  · apply hnone
    intro e he
    rw [crosses_iff]
    have h1 := h _ (mem_edges_l he).1
    have h2 := h _ (mem_edges_l he).2
    rintro (⟨⟨u1, u2⟩, _⟩ | ⟨⟨u1, u2⟩, _⟩) <;> linarith
  · apply hnone
    intro e he
    rw [crosses_iff]
    have h1 := h _ (mem_edges_l he).1
    have h2 := h _ (mem_edges_l he).2
    simp only [orient2]
    rintro (⟨⟨u1, u2⟩, h3⟩ | ⟨⟨u1, u2⟩, h3⟩)
    · have a1 := mul_neg_of_neg_of_pos (sub_neg.2 h1) (sub_pos.2 u2)
      have a2 := mul_nonneg_of_nonpos_of_nonpos (sub_neg.2 h2).le (sub_nonpos.2 u1)
      linarith
    · have a1 := mul_nonneg_of_nonpos_of_nonpos (sub_neg.2 h1).le (sub_nonpos.2 u2)
      have a2 := mul_neg_of_neg_of_pos (sub_neg.2 h2) (sub_pos.2 u1)
      linarith
  · -- every crossing edge counts, and their number is even
    have hs : (polyEdges coords).countP (fun e => crosses t.x t.y e.1 e.2) =
        (polyEdges coords).countP (fun e => decide (Up t.y e)) + (polyEdges coords).countP (fun e => decide (Down t.y e)) := by
      apply countP_split
      · intro e he
        rw [Bool.eq_iff_iff, crosses_iff, Bool.or_eq_true, decide_eq_true_eq, decide_eq_true_eq]
        have h1 := sub_nonneg.2 (h _ (mem_edges_l he).1)
        have h2 := sub_nonneg.2 (h _ (mem_edges_l he).2)
        simp only [orient2]
        constructor
        · rintro (⟨u, _⟩ | ⟨u, _⟩)
          · exact .inl u
          · exact .inr u
        · rintro (u | u)
          · left
            have a1 := mul_nonneg h1 (sub_pos.2 u.2).le
            have a2 := mul_nonneg h2 (sub_nonneg.2 u.1)
            exact ⟨u, by nlinarith⟩
          · right
            have a1 := mul_nonneg h1 (sub_nonneg.2 u.2)
            have a2 := mul_nonneg h2 (sub_pos.2 u.1).le
            exact ⟨u, by nlinarith⟩
      · intro e _ ⟨u, v⟩
        exact up_not_down (of_decide_eq_true u) (of_decide_eq_true v)
    rw [hs, up_eq_down]
    omega

/-- **C52, convex polygons.** For strictly convex polygons, given in counter-clockwise order, every point strictly inside is
reported inside, and every point reported inside is inside or on the boundary. By `point_in_polygon_invariant` the same holds
for clockwise order. -/
theorem point_in_polygon_convex (t : Point) (coords : List Point) (h : StrictlyConvex coords) (hne : coords ≠ []) :
    ((∀ e ∈ polyEdges coords, 0 < orient2 t e.1 e.2) → pointInPolygon t coords = true) ∧
    (pointInPolygon t coords = true → ∀ e ∈ polyEdges coords, 0 ≤ orient2 t e.1 e.2) := by
  classical
  have hn := edges_nodup h.nodup
  have hU1 : (polyEdges coords).countP (fun e => decide (Up t.y e)) ≤ 1 :=
    countP_le_one _ _ hn fun a ha b hb ua ub => up_unique h ha hb (of_decide_eq_true ua) (of_decide_eq_true ub)
  constructor
  · intro hin
    rw [inPolygon_parity]
    have hc : (polyEdges coords).countP (fun e => crosses t.x t.y e.1 e.2) =
        (polyEdges coords).countP (fun e => decide (Up t.y e)) := by
      apply List.countP_congr
      intro e he
      rw [crosses_iff, decide_eq_true_eq]
      have := hin e he
      constructor
      · rintro (⟨u, _⟩ | ⟨_, u⟩)
        · exact u
        · linarith
      · intro u; exact .inl ⟨u, this.le⟩
    obtain ⟨e, he, hu⟩ := inside_has_up t hne hin
    have : 0 < (polyEdges coords).countP (fun e => decide (Up t.y e)) :=
      List.countP_pos_iff.2 ⟨e, he, decide_eq_true hu⟩
    rw [hc]; omega
  · intro htrue
    rw [inPolygon_parity] at htrue
    have hsum : (polyEdges coords).countP (fun e => crosses t.x t.y e.1 e.2) =
        (polyEdges coords).countP (fun e => decide (Up t.y e ∧ 0 ≤ orient2 t e.1 e.2)) +
        (polyEdges coords).countP (fun e => decide (Down t.y e ∧ orient2 t e.1 e.2 ≤ 0)) := by
      apply countP_split
      · intro e _
        rw [Bool.eq_iff_iff, crosses_iff, Bool.or_eq_true, decide_eq_true_eq, decide_eq_true_eq]
      · intro e _ ⟨u, v⟩
        exact up_not_down (of_decide_eq_true u).1 (of_decide_eq_true v).1
    -- there is an upward edge u and a downward edge w
    have hUpos : 0 < (polyEdges coords).countP (fun e => decide (Up t.y e)) := by
      by_contra h0
      have hU0 : (polyEdges coords).countP (fun e => decide (Up t.y e)) = 0 := by omega
      have hD0 := (up_eq_down t.y coords).symm.trans hU0
      rw [List.countP_eq_zero] at hU0 hD0
      have : (polyEdges coords).countP (fun e => crosses t.x t.y e.1 e.2) = 0 := by
        rw [List.countP_eq_zero]
        intro e he
        rw [crosses_iff]
        rintro (⟨u, _⟩ | ⟨u, _⟩)
        · exact hU0 e he (decide_eq_true u)
        · exact hD0 e he (decide_eq_true u)
      omega
    have hDpos : 0 < (polyEdges coords).countP (fun e => decide (Down t.y e)) := by rw [← up_eq_down]; exact hUpos
    have hD1 : (polyEdges coords).countP (fun e => decide (Down t.y e)) ≤ 1 := by rw [← up_eq_down]; exact hU1
    obtain ⟨u, hu, hup⟩ := List.countP_pos_iff.1 hUpos
    obtain ⟨w, hw, hdn⟩ := List.countP_pos_iff.1 hDpos
    have hup := of_decide_eq_true hup
    have hdn := of_decide_eq_true hdn
    have hwu : ∀ e ∈ polyEdges coords, Down t.y e → e = w := by
      intro e he hd
      by_contra hne'
      have : 2 ≤ (polyEdges coords).countP (fun e => decide (Down t.y e)) := by
        rw [List.countP_eq_length_filter]
        have hsub : [e, w] ⊆ (polyEdges coords).filter fun e => decide (Down t.y e) := by
          intro x hx
          simp only [List.mem_cons, List.not_mem_nil, or_false] at hx
          rcases hx with rfl | rfl
          · exact List.mem_filter.2 ⟨he, decide_eq_true hd⟩
          · exact List.mem_filter.2 ⟨hw, decide_eq_true hdn⟩
        exact (List.subperm_of_subset (by simp [hne']) hsub).length_le
      omega
    have cU : (polyEdges coords).countP (fun e => decide (Up t.y e ∧ 0 ≤ orient2 t e.1 e.2)) =
        if 0 ≤ orient2 t u.1 u.2 then 1 else 0 := by
      split
      · rename_i hge
        have hle := countP_le_one (polyEdges coords) (fun e => decide (Up t.y e ∧ 0 ≤ orient2 t e.1 e.2)) hn
          fun a ha b hb ua ub => up_unique h ha hb (of_decide_eq_true ua).1 (of_decide_eq_true ub).1
        have hpos : 0 < (polyEdges coords).countP (fun e => decide (Up t.y e ∧ 0 ≤ orient2 t e.1 e.2)) :=
          List.countP_pos_iff.2 ⟨u, hu, decide_eq_true ⟨hup, hge⟩⟩
        omega
      · rename_i hlt
        rw [List.countP_eq_zero]
        intro e he hx
        obtain ⟨h1, h2⟩ := of_decide_eq_true hx
        rw [up_unique h he hu h1 hup] at h2
        exact hlt h2
    have cD : (polyEdges coords).countP (fun e => decide (Down t.y e ∧ orient2 t e.1 e.2 ≤ 0)) =
        if orient2 t w.1 w.2 ≤ 0 then 1 else 0 := by
      split
      · rename_i hle0
        have hle := countP_le_one (polyEdges coords) (fun e => decide (Down t.y e ∧ orient2 t e.1 e.2 ≤ 0)) hn
          fun a ha b hb ua ub => (hwu a ha (of_decide_eq_true ua).1).trans (hwu b hb (of_decide_eq_true ub).1).symm
        have hpos : 0 < (polyEdges coords).countP (fun e => decide (Down t.y e ∧ orient2 t e.1 e.2 ≤ 0)) :=
          List.countP_pos_iff.2 ⟨w, hw, decide_eq_true ⟨hdn, hle0⟩⟩
        omega
      · rename_i hgt
        rw [List.countP_eq_zero]
        intro e he hx
        obtain ⟨h1, h2⟩ := of_decide_eq_true hx
        rw [hwu e he h1] at h2
        exact hgt h2
    rw [hsum, cU, cD] at htrue
    have mu := mem_edges_l hu
    have mw := mem_edges_l hw
    obtain ⟨u1, u2⟩ := hup
    obtain ⟨w1, w2⟩ := hdn
    by_cases hPu : 0 ≤ orient2 t u.1 u.2
    · have hPw : 0 < orient2 t w.1 w.2 := by
        by_contra hh
        rw [if_pos hPu, if_pos (not_lt.1 hh)] at htrue
        omega
      intro e he
      have sw : 0 ≤ orient2 t u.1 u.2 * (w.1.y - w.2.y) := mul_nonneg hPu (by linarith)
      have su : 0 < orient2 t w.1 w.2 * (u.2.y - u.1.y) := mul_pos hPw (by linarith)
      have r1 : 0 ≤ (u.2.y - t.y) * orient2 e.1 e.2 u.1 + (t.y - u.1.y) * orient2 e.1 e.2 u.2 :=
        add_nonneg (mul_nonneg (by linarith) (convex_nonneg h he mu.1)) (mul_nonneg (by linarith) (convex_nonneg h he mu.2))
      have r2 : 0 ≤ (t.y - w.2.y) * orient2 e.1 e.2 w.1 + (w.1.y - t.y) * orient2 e.1 e.2 w.2 :=
        add_nonneg (mul_nonneg (by linarith) (convex_nonneg h he mw.1)) (mul_nonneg (by linarith) (convex_nonneg h he mw.2))
      have id : (orient2 t u.1 u.2 * (w.1.y - w.2.y) + orient2 t w.1 w.2 * (u.2.y - u.1.y)) * orient2 t e.1 e.2 =
          orient2 t w.1 w.2 * ((u.2.y - t.y) * orient2 e.1 e.2 u.1 + (t.y - u.1.y) * orient2 e.1 e.2 u.2) +
          orient2 t u.1 u.2 * ((t.y - w.2.y) * orient2 e.1 e.2 w.1 + (w.1.y - t.y) * orient2 e.1 e.2 w.2) := by
        simp only [orient2]; ring
      have q1 := mul_nonneg hPw.le r1
      have q2 := mul_nonneg hPu r2
      by_contra hneg
      have := mul_neg_of_pos_of_neg (show 0 < orient2 t u.1 u.2 * (w.1.y - w.2.y) + orient2 t w.1 w.2 * (u.2.y - u.1.y) by linarith)
        (not_le.1 hneg)
      linarith
    · exfalso
      have hPw : orient2 t w.1 w.2 ≤ 0 := by
        by_contra hh
        rw [if_neg hPu, if_neg hh] at htrue
        omega
      have r2 : 0 ≤ (t.y - w.2.y) * orient2 u.1 u.2 w.1 + (w.1.y - t.y) * orient2 u.1 u.2 w.2 :=
        add_nonneg (mul_nonneg (by linarith) (convex_nonneg h hu mw.1)) (mul_nonneg (by linarith) (convex_nonneg h hu mw.2))
      have id : (t.y - w.2.y) * orient2 u.1 u.2 w.1 + (w.1.y - t.y) * orient2 u.1 u.2 w.2 =
          orient2 t u.1 u.2 * (w.1.y - w.2.y) + orient2 t w.1 w.2 * (u.2.y - u.1.y) := by
        simp only [orient2]; ring
      have q1 := mul_neg_of_neg_of_pos (not_le.1 hPu) (show 0 < w.1.y - w.2.y by linarith)
      have q3 : orient2 t w.1 w.2 * (u.2.y - u.1.y) ≤ 0 := mul_nonpos_of_nonpos_of_nonneg hPw (by linarith)
      linarith

/-- a convex quadrilateral, and a point in it -/
noncomputable def quad : List Point := [mk2 0 0, mk2 4 1, mk2 3 5, mk2 (-1) 2]

theorem quad_convex : StrictlyConvex quad := by
  constructor
  · simp [quad, mk2]
  · intro e he v hv
    simp only [quad, polyEdges, List.rotate_cons_succ, List.rotate_zero, List.zip_cons_cons, List.cons_append,
      List.nil_append, List.zip_nil_right, List.mem_cons, List.not_mem_nil, or_false] at he hv
    rcases he with rfl | rfl | rfl | rfl <;> rcases hv with rfl | rfl | rfl | rfl <;>
      first
      | exact .inl rfl
      | exact .inr (.inl rfl)
      | (right; right; simp only [orient2, mk2]; norm_num)

example : pointInPolygon (mk2 1 2) quad = true := by
  apply (point_in_polygon_convex _ quad quad_convex (by simp [quad])).1
  intro e he
  simp only [quad, polyEdges, List.rotate_cons_succ, List.rotate_zero, List.zip_cons_cons, List.cons_append,
      List.nil_append, List.zip_nil_right, List.mem_cons, List.not_mem_nil, or_false] at he
  rcases he with rfl | rfl | rfl | rfl <;> simp only [orient2, mk2] <;> norm_num

/-- a point in the bounding box but outside of the quadrilateral -/
example : pointInPolygon (mk2 (-1) 4) quad = false := by
  rw [← Bool.not_eq_true]
  intro h
  have := (point_in_polygon_convex _ quad quad_convex (by simp [quad])).2 h (mk2 3 5, mk2 (-1) 2)
    (by simp [quad, polyEdges, List.rotate_cons_succ])
  simp only [orient2, mk2] at this
  norm_num at this

example : pointInPolygon (mk2 5 2) quad = false :=
  point_in_polygon_outside _ _ (.inr (.inr (.inl (by simp [quad, mk2]; norm_num))))

end Jali.Geom
