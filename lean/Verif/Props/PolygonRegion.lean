import Verif.Proof.PolygonRegion2
/-! Property theorems C50, C90, C91: polygon regions. -/
namespace Jali.Geom
open Spec Point

/-- **C91, no point is missed.** A polygon region made of the vertices of a strictly convex plane polygon in space, in either
order and with any first vertex, contains all points strictly inside of the polygon. -/
theorem polygon_region_contains (name : String) (id : Nat) (lc : LifeCycle) (n p : Point) (l l' : List Point)
    (h : ConvexInSpace n l) (hp : InteriorInSpace n l p) (k : Nat) (hl' : l' = l.rotate k ∨ l' = l.reverse.rotate k) :
    ∃ r, mkPolygon name id l'.length l' lc = .value r ∧ r.inside p = .value true := by
  rcases hl' with rfl | rfl
  · refine ⟨_, mkPolygon_convex name id lc (convex_rotate h k), ?_⟩
    rw [rotate_inside name id lc h k p]
    exact interior_contained name id lc h hp
  · refine ⟨_, mkPolygon_convex name id lc (convex_rotate (convex_reverse h) k), ?_⟩
    rw [rotate_inside name id lc (convex_reverse h) k p]
    exact interior_contained name id lc (convex_reverse h) (interior_reverse hp)

/-- **C91, partial: nothing else is contained.** `n` is a normal of the polygon, on the side from which the vertices run
counter-clockwise. If its largest component is positive (or all are negative), the region contains only points that are
close to the polygon: within 1e-12 of its plane, and within 1.8e-8 |n| / max n_i of some point of the polygon; this is at most
3.1e-8 if the largest component in magnitude is positive. Missing: the case that the largest component is zero, in which the
region is unbounded (`polygon_region_unbounded`), and polygons that are not convex. -/
theorem polygon_region_bounded_partial (name : String) (id : Nat) (lc : LifeCycle) (n p : Point) (l : List Point)
    (h : ConvexInSpace n l) (hM : max (max n.x n.y) n.z ≠ 0) (hd : p.d = 3) :
    ∃ r, mkPolygon name id l.length l lc = .value r ∧
      (r.inside p = .value true →
        (∀ v ∈ l, inner3 n (vec v p) ^ 2 ≤ 1 / 10 ^ 24 * inner3 n n) ∧
        ∃ q, InPolygonInSpace n l q ∧ dist2 p q * (max (max n.x n.y) n.z) ^ 2 ≤ 3 / 10 ^ 16 * inner3 n n ∧
          ((∀ i, i < 3 → |n.coord i| ≤ max (max n.x n.y) n.z) → dist2 p q ≤ 9 / 10 ^ 16)) := by
  refine ⟨_, mkPolygon_convex name id lc h, ?_⟩
  intro hin
  obtain ⟨h1, q, hq, hqd⟩ := contained_near name id lc h hM hd hin
  refine ⟨h1, q, hq, hqd, ?_⟩
  intro hbig
  unfold maxComp at hqd
  generalize max (max n.x n.y) n.z = M at *
  have b0 := hbig 0 (by omega)
  have b1 := hbig 1 (by omega)
  have b2 := hbig 2 (by omega)
  have sqle : ∀ x : ℝ, |x| ≤ M → x * x ≤ M ^ 2 := by
    intro x hx
    have := mul_self_le_mul_self (abs_nonneg x) hx
    rw [abs_mul_abs_self] at this
    rw [sq]; exact this
  have hn : inner3 n n ≤ 3 * M ^ 2 := by
    have c0 := sqle n.x b0
    have c1 := sqle n.y b1
    have c2 := sqle n.z b2
    unfold inner3; linarith
  have hMpos : 0 < M ^ 2 := by positivity
  have : dist2 p q * M ^ 2 ≤ 9 / 10 ^ 16 * M ^ 2 := by
    have : (3 : ℝ) / 10 ^ 16 * inner3 n n ≤ 3 / 10 ^ 16 * (3 * M ^ 2) := mul_le_mul_of_nonneg_left hn (by norm_num)
    linarith
  exact le_of_mul_le_mul_right this hMpos

/-- **C91 does not hold**: if the largest component of the normal is zero, the region contains, with every point inside of the
polygon, the whole line through it in one of the coordinate directions. -/
theorem polygon_region_unbounded (name : String) (id : Nat) (lc : LifeCycle) (n p : Point) (l : List Point)
    (h : ConvexInSpace n l) (hM : max (max n.x n.y) n.z = 0) (hp : InteriorInSpace n l p) :
    ∃ r e, mkPolygon name id l.length l lc = .value r ∧ e < 3 ∧ ∀ δ, r.inside (shift e p δ) = .value true := by
  obtain ⟨he, hMe⟩ := elim_max (inner3_pos h)
  refine ⟨_, elimLoop (some (unit3 n)), mkPolygon_convex name id lc h, he, ?_⟩
  intro δ
  have h3 := h.three
  rw [convexRegion_inside name id lc h _ rfl]
  have hn : n.coord (elimLoop (some (unit3 n))) = 0 := hMe.trans hM
  generalize elimLoop (some (unit3 n)) = e at *
  obtain ⟨f1, _, f3⟩ := shift_facts e he p δ
  have m0 : pt l 0 ∈ l := by
    match l with
    | a :: l => simp [pt]
  have hpl : onPlane (some (unit3 n)) (pt l 0) (shift e p δ) = true := by
    rw [onPlane_iff _ _ _ rfl, unit3_inner, f3, hp.2.1 _ m0, hn]
    norm_num
  obtain ⟨ed, hed, hs⟩ := degenerate_proj h hp e he hn
  rw [hpl, f1, Bool.true_and, (List.any_eq_true (l := polyEdges l)).2 ⟨ed, hed, hs⟩, Bool.or_true]

/-- the unit square in the plane z = 0 -/
noncomputable def unitSq : List Point := [mk3 0 0 0, mk3 1 0 0, mk3 1 1 0, mk3 0 1 0]

theorem unitSq_convex : ConvexInSpace (mk3 0 0 1) unitSq := by
  refine ⟨by simp [unitSq], ?_, ?_, ?_, ?_⟩
  · simp [unitSq, mk3]
  · simp [unitSq, mk3]
  · simp [unitSq, mk3, inner3, vec]
  · intro e he v hv
    simp only [unitSq, polyEdges, List.rotate_cons_succ, List.rotate_zero, List.zip_cons_cons, List.cons_append,
      List.nil_append, List.zip_nil_right, List.mem_cons, List.not_mem_nil, or_false] at he hv
    rcases he with rfl | rfl | rfl | rfl <;> rcases hv with rfl | rfl | rfl | rfl <;>
      first
      | exact .inl rfl
      | exact .inr (.inl rfl)
      | (right; right; simp only [det3, vec, mk3]; norm_num)

theorem unitSq_center : InteriorInSpace (mk3 0 0 1) unitSq (mk3 (1 / 2) (1 / 2) 0) := by
  refine ⟨rfl, ?_, ?_⟩
  · simp [unitSq, mk3, inner3, vec]
  · intro e he
    simp only [unitSq, polyEdges, List.rotate_cons_succ, List.rotate_zero, List.zip_cons_cons, List.cons_append,
      List.nil_append, List.zip_nil_right, List.mem_cons, List.not_mem_nil, or_false] at he
    rcases he with rfl | rfl | rfl | rfl <;> (simp only [det3, vec, mk3]; norm_num)

/-- the clockwise square: the centre is found, starting from any vertex -/
example : ∃ r, mkPolygon "S" 1 4 (unitSq.reverse.rotate 2) .PERMANENT = .value r ∧ r.inside (mk3 (1 / 2) (1 / 2) 0) = .value true :=
  polygon_region_contains "S" 1 .PERMANENT _ _ _ _ unitSq_convex unitSq_center 2 (.inr rfl)

/-- a point next to the square is not contained in the counter-clockwise square -/
theorem unitSq_bounded (p : Point) (hd : p.d = 3) (hfar : 2 < p.x ∨ 2 < p.y ∨ 1 < p.z) (r : AnyRegion)
    (hr : mkPolygon "S" 1 4 unitSq .PERMANENT = .value r) : r.inside p ≠ .value true := by
  intro hin
  obtain ⟨r', hr', hb⟩ := polygon_region_bounded_partial "S" 1 .PERMANENT (mk3 0 0 1) p unitSq unitSq_convex (by simp [mk3]) hd
  have hr'' : mkPolygon "S" 1 4 unitSq .PERMANENT = .value r' := hr'
  rw [hr] at hr''
  cases hr''
  obtain ⟨h1, q, ⟨_, h2, h3⟩, _, h4⟩ := hb hin
  have h4 := h4 (by
    intro i hi
    rcases (by omega : i = 0 ∨ i = 1 ∨ i = 2) with rfl | rfl | rfl <;> simp [Point.coord, mk3])
  have z1 := h2 (mk3 0 0 0) (by simp [unitSq])
  have b1 := h3 (mk3 1 0 0, mk3 1 1 0) (by simp [unitSq, polyEdges, List.rotate_cons_succ])
  have b2 := h3 (mk3 1 1 0, mk3 0 1 0) (by simp [unitSq, polyEdges, List.rotate_cons_succ])
  simp only [inner3, vec, mk3, det3, dist2] at z1 b1 b2 h4
  norm_num at z1 b1 b2 h4
  rcases hfar with hf | hf | hf <;>
    nlinarith [mul_self_nonneg (q.x - p.x), mul_self_nonneg (q.y - p.y), mul_self_nonneg (q.z - p.z)]

/-- **C50, partial.** The order of the vertices does not matter for points that are in the polygon, and if the largest component
is not zero for either orientation, regions of both orientations contain only points close to the polygon. Which vertex comes
first never matters. Missing: orientations whose normal has zero as largest component (`polygon_region_orientation_false`),
exact agreement within the tolerances, and polygons that are not convex. -/
theorem polygon_region_orientation_partial (name : String) (id : Nat) (lc : LifeCycle) (n : Point) (l : List Point)
    (h : ConvexInSpace n l) :
    ∃ r r', mkPolygon name id l.length l lc = .value r ∧ mkPolygon name id l.reverse.length l.reverse lc = .value r' ∧
      (∀ p, InteriorInSpace n l p → r.inside p = .value true ∧ r'.inside p = .value true) ∧
      (max (max n.x n.y) n.z ≠ 0 → min (min n.x n.y) n.z ≠ 0 → ∀ p, p.d = 3 → (r.inside p = .value true ∨ r'.inside p = .value true) →
        ∃ q, InPolygonInSpace n l q ∧
          dist2 p q * min ((max (max n.x n.y) n.z) ^ 2) ((min (min n.x n.y) n.z) ^ 2) ≤ 3 / 10 ^ 16 * inner3 n n) ∧
      (∀ k, ∃ rk, mkPolygon name id (l.rotate k).length (l.rotate k) lc = .value rk ∧ ∀ p, rk.inside p = r.inside p) := by
  have h' := convex_reverse h
  refine ⟨_, _, mkPolygon_convex name id lc h, mkPolygon_convex name id lc h', ?_, ?_, ?_⟩
  · intro p hp
    exact ⟨interior_contained name id lc h hp, interior_contained name id lc h' (interior_reverse hp)⟩
  · intro hM hm p hd hin
    have hmo : max (max (opp n).x (opp n).y) (opp n).z = -min (min n.x n.y) n.z := by
      simp only [opp]
      rw [max_neg_neg, max_neg_neg]
    have hio : inner3 (opp n) (opp n) = inner3 n n := by simp only [inner3, opp]; ring
    rcases hin with hin | hin
    · obtain ⟨_, q, hq, hqd⟩ := contained_near name id lc h hM hd hin
      refine ⟨q, hq, le_trans ?_ hqd⟩
      exact mul_le_mul_of_nonneg_left (min_le_left _ _) (by simp only [dist2, inner3]; nlinarith [mul_self_nonneg (vec p q).x, mul_self_nonneg (vec p q).y, mul_self_nonneg (vec p q).z])
    · obtain ⟨_, q, hq, hqd⟩ := contained_near name id lc h' (by unfold maxComp; rw [hmo]; simpa using hm) hd hin
      unfold maxComp at hqd
      rw [hmo, hio, neg_sq] at hqd
      refine ⟨q, ?_, le_trans ?_ hqd⟩
      · refine ⟨hq.1, ?_, ?_⟩
        · intro v hv
          have := hq.2.1 v (List.mem_reverse.2 hv)
          simp only [inner3, opp] at this ⊢
          linarith
        · intro e he
          have := hq.2.2 (e.2, e.1) ((edges_reverse l).mem_iff.2 (List.mem_map.2 ⟨e, he, rfl⟩))
          have p1 := hq.2.1 e.1 (List.mem_reverse.2 (mem_edges_l he).1)
          have p2 := hq.2.1 e.2 (List.mem_reverse.2 (mem_edges_l he).2)
          simp only [det3, vec, opp, inner3] at this p1 p2 ⊢
          linarith
      · exact mul_le_mul_of_nonneg_left (min_le_right _ _) (by simp only [dist2, inner3]; nlinarith [mul_self_nonneg (vec p q).x, mul_self_nonneg (vec p q).y, mul_self_nonneg (vec p q).z])
  · intro k
    exact ⟨_, mkPolygon_convex name id lc (convex_rotate h k), fun p => rotate_inside name id lc h k p⟩

/-- **C50 does not hold.** A point far from the unit square is outside if the square is given counter-clockwise, and inside if the
same square is given clockwise. -/
theorem polygon_region_orientation_false : ∃ (l : List Point) (p : Point) (r r' : AnyRegion),
    mkPolygon "S" 1 l.length l .PERMANENT = .value r ∧ mkPolygon "S" 1 l.reverse.length l.reverse .PERMANENT = .value r' ∧
    r.inside p ≠ .value true ∧ r'.inside p = .value true := by
  obtain ⟨r', e, hr', he, hall⟩ := polygon_region_unbounded "S" 1 .PERMANENT _ _ _ (convex_reverse unitSq_convex)
    (by simp [opp, mk3]) (interior_reverse unitSq_center)
  refine ⟨unitSq, shift e (mk3 (1 / 2) (1 / 2) 0) (-100), _, r', mkPolygon_convex "S" 1 .PERMANENT unitSq_convex, hr', ?_, hall _⟩
  apply unitSq_bounded _ rfl ?_ _ (mkPolygon_convex "S" 1 .PERMANENT unitSq_convex)
  rcases (by omega : e = 0 ∨ e = 1 ∨ e = 2) with rfl | rfl | rfl <;> simp [shift, mk3] <;> norm_num

/-- **C91 does not hold** either if the first three vertices are on a line: then the plane is not tested at all. A square with an
extra vertex on its first side contains a point far above it. -/
theorem polygon_region_collinear_false : ∃ r,
    mkPolygon "S" 1 5 [mk3 0 0 0, mk3 1 0 0, mk3 2 0 0, mk3 2 2 0, mk3 0 2 0] .PERMANENT = .value r ∧
    r.inside (mk3 1 1 5) = .value true := by
  have hz : normalize (cross (mk3 2 0 0 - mk3 1 0 0) (mk3 0 0 0 - mk3 1 0 0)) = none := by
    rw [sub3 (mk3 1 0 0) (show (mk3 2 0 0).d = 3 from rfl), sub3 (mk3 1 0 0) (show (mk3 0 0 0).d = 3 from rfl), cross3]
    simp [normalize, Point.norm, mk3, dot]
  refine ⟨.polygon ⟨"S", 1, 3, .PERMANENT⟩ 5 [mk3 0 0 0, mk3 1 0 0, mk3 2 0 0, mk3 2 2 0, mk3 0 2 0] none 4294967295, ?_, ?_⟩
  · unfold mkPolygon
    dsimp only
    rw [if_neg (by simp [mk3]), if_neg (by simp [mk3]), if_pos (show (mk3 0 0 0).d = 3 from rfl), hz]
    rfl
  · show insidePolygon 3 5 _ none 4294967295 _ = _
    unfold insidePolygon
    rw [if_neg (by simp [mk3, pt]), if_neg (by simp [onPlane]), if_neg (by omega)]
    dsimp only
    have : pointInPolygon (projElim 4294967295 (mk3 1 1 5))
        ((List.take 5 [mk3 0 0 0, mk3 1 0 0, mk3 2 0 0, mk3 2 2 0, mk3 0 2 0]).map (projElim 4294967295)) = true := by
      rw [inPolygon_parity]
      simp only [List.take_succ_cons, List.take_nil, List.take_zero, List.map_cons, List.map_nil, polyEdges, List.rotate_cons_succ,
        List.rotate_zero, List.nil_append, List.cons_append, List.zip_cons_cons, List.zip_nil_right, List.countP_cons, List.countP_nil]
      simp [crosses, projElim, mk2, mk3, Point.coord]
      norm_num
    rw [this, Bool.true_or]

/-! ### C90: polygon regions in two dimensions -/

/-- **C90.** In two dimensions a polygon region is the segment between its first two points: it contains exactly the points
whose projection to the line falls into the segment and that are within 1e-12 of the line. If the two points coincide it
contains nothing. Further points are ignored. -/
theorem polygon_region_2d (name : String) (id np : Nat) (lc : LifeCycle) (p0 p1 p : Point) (rest : List Point)
    (h0 : p0.d = 2) (h1 : p1.d = 2) (hp : p.d = 2) (hnp : 2 ≤ np) (hle : np ≤ rest.length + 2) :
    ∃ r b, mkPolygon name id np (p0 :: p1 :: rest) lc = .value r ∧ r.inside p = .value b ∧
      (b = true ↔ (p1.x ≠ p0.x ∨ p1.y ≠ p0.y) ∧ ∃ s : ℝ, 0 ≤ s ∧ s ≤ 1 ∧
        (p.x - p0.x - s * (p1.x - p0.x)) * (p1.x - p0.x) + (p.y - p0.y - s * (p1.y - p0.y)) * (p1.y - p0.y) = 0 ∧
        (p.x - p0.x - s * (p1.x - p0.x)) ^ 2 + (p.y - p0.y - s * (p1.y - p0.y)) ^ 2 ≤ 1 / 10 ^ 24) := by
  have hseg := onSegment_iff p p0 p1 hp h0 h1
  generalize hux : p1.x - p0.x = ux at hseg ⊢
  generalize huy : p1.y - p0.y = uy at hseg ⊢
  have hnn : 0 ≤ ux * ux + uy * uy := add_nonneg (mul_self_nonneg _) (mul_self_nonneg _)
  obtain ⟨L, hL⟩ : ∃ L, L = Real.sqrt (ux * ux + uy * uy) := ⟨_, rfl⟩
  have hLL : L * L = ux * ux + uy * uy := by rw [hL]; exact Real.mul_self_sqrt hnn
  have hL0 : 0 ≤ L := by rw [hL]; exact Real.sqrt_nonneg _
  have hnorm : Point.norm (p1 - p0) = L := by
    rw [sub2 p0 h1, hux, huy, hL]
    unfold Point.norm dot; simp
  by_cases hz : L = 0
  · have hx : ux = 0 := mul_self_eq_zero.1 (by rw [hz] at hLL; nlinarith [mul_self_nonneg ux, mul_self_nonneg uy])
    have hy : uy = 0 := mul_self_eq_zero.1 (by rw [hz] at hLL; nlinarith [mul_self_nonneg ux, mul_self_nonneg uy])
    have hsame : ¬ (p1.x ≠ p0.x ∨ p1.y ≠ p0.y) := by
      rintro (h | h)
      · exact h (by linarith)
      · exact h (by linarith)
    refine ⟨.polygon ⟨name, id, 2, lc⟩ np (p0 :: p1 :: rest) none 1, false, ?_, ?_, ?_⟩
    · unfold mkPolygon normalize
      dsimp only
      rw [if_neg (by omega), if_pos h0, hnorm, if_pos hz]
    · show insidePolygon 2 np (p0 :: p1 :: rest) none 1 p = _
      unfold insidePolygon
      rw [if_neg (by simp [pt, h0, hp]; omega), if_neg (by simp [onPlane]), if_pos rfl]
      congr 1
      rw [← Bool.not_eq_true]
      intro hs
      exact hsame (hseg.1 hs).1
    · exact ⟨(fun h => by cases h), fun h => absurd h.1 hsame⟩
  · have hLpos : 0 < L := lt_of_le_of_ne hL0 (Ne.symm hz)
    have hdiff : p1.x ≠ p0.x ∨ p1.y ≠ p0.y := by
      by_contra hh
      push Not at hh
      rw [← hux, ← huy, hh.1, hh.2] at hLL
      simp at hLL
      exact hz hLL
    have hin : (AnyRegion.polygon ⟨name, id, 2, lc⟩ np (p0 :: p1 :: rest) (some (mk2 (uy / L) (-(ux / L)))) (if ux / L < uy / L then 0 else 1)).inside p =
        .value (onPlane (some (mk2 (uy / L) (-(ux / L)))) p0 p && onSegment p p0 p1) := by
      show insidePolygon 2 np (p0 :: p1 :: rest) _ _ p = _
      unfold insidePolygon
      rw [if_neg (by simp [pt, h0, hp]; omega)]
      have e0 : pt (p0 :: p1 :: rest) 0 = p0 := rfl
      have e1 : pt (p0 :: p1 :: rest) 1 = p1 := rfl
      rw [e0, e1, if_pos rfl]
      cases onPlane (some (mk2 (uy / L) (-(ux / L)))) p0 p <;> simp
    refine ⟨.polygon ⟨name, id, 2, lc⟩ np (p0 :: p1 :: rest) (some (mk2 (uy / L) (-(ux / L)))) (if ux / L < uy / L then 0 else 1), _, ?_, hin, ?_⟩
    · unfold mkPolygon normalize
      dsimp only
      rw [if_neg (by omega), if_pos h0, hnorm, if_neg hz]
      dsimp only
      rw [sub2 p0 h1, hux, huy]
      simp [divAssign]
    · have hpl : onPlane (some (mk2 (uy / L) (-(ux / L)))) p0 p = true ↔
          (uy * (p.x - p0.x) - ux * (p.y - p0.y)) ^ 2 ≤ 1 / 10 ^ 24 * (L * L) := by
        unfold onPlane
        dsimp only
        rw [foldl_sum_sub, hp]
        simp only [List.range_succ, List.range_zero, List.nil_append, List.cons_append, List.map_cons, List.map_nil, List.sum_cons,
          List.sum_nil, Point.coord, mk2]
        have : uy / L * (p.x - p0.x) + (-(ux / L) * (p.y - p0.y) + 0) = (uy * (p.x - p0.x) - ux * (p.y - p0.y)) / L := by ring
        rw [this, abs_div, abs_of_pos hLpos, Bool.not_eq_true', decide_eq_false_iff_not, not_lt, div_le_iff₀ hLpos]
        generalize uy * (p.x - p0.x) - ux * (p.y - p0.y) = K
        have h2 : (1 : ℝ) / 10 ^ 24 * (L * L) = (1 / 10 ^ 12 * L) ^ 2 := by ring
        rw [h2, sq_le_sq, abs_of_nonneg (mul_nonneg (by norm_num) hL0 : (0 : ℝ) ≤ 1 / 10 ^ 12 * L)]
      have key : ∀ s : ℝ, (p.x - p0.x - s * ux) * ux + (p.y - p0.y - s * uy) * uy = 0 →
          (uy * (p.x - p0.x) - ux * (p.y - p0.y)) ^ 2 = ((p.x - p0.x - s * ux) ^ 2 + (p.y - p0.y - s * uy) ^ 2) * (L * L) := by
        intro s hs
        rw [hLL]
        linear_combination (-((p.x - p0.x - s * ux) * ux + (p.y - p0.y - s * uy) * uy)) * hs
      have hLLpos := mul_pos hLpos hLpos
      rw [Bool.and_eq_true, hpl, hseg]
      constructor
      · rintro ⟨hK, hd, s, s0, s1, hs, _⟩
        refine ⟨hd, s, s0, s1, hs, ?_⟩
        rw [key s hs] at hK
        exact le_of_mul_le_mul_right hK hLLpos
      · rintro ⟨hd, s, s0, s1, hs, hlt⟩
        refine ⟨?_, hd, s, s0, s1, hs, lt_of_le_of_lt hlt (by norm_num)⟩
        rw [key s hs]
        exact mul_le_mul_of_nonneg_right hlt hLLpos.le

/-- **C90, order of the end points.** Exchanging the two points changes no answer. -/
theorem polygon_region_2d_swap (name : String) (id : Nat) (lc : LifeCycle) (p0 p1 p : Point)
    (h0 : p0.d = 2) (h1 : p1.d = 2) (hp : p.d = 2) :
    ∃ r r', mkPolygon name id 2 [p0, p1] lc = .value r ∧ mkPolygon name id 2 [p1, p0] lc = .value r' ∧ r.inside p = r'.inside p := by
  obtain ⟨r, b, hr, hb, ib⟩ := polygon_region_2d name id 2 lc p0 p1 p [] h0 h1 hp (by omega) (by simp)
  obtain ⟨r', b', hr', hb', ib'⟩ := polygon_region_2d name id 2 lc p1 p0 p [] h1 h0 hp (by omega) (by simp)
  refine ⟨r, r', hr, hr', ?_⟩
  rw [hb, hb']
  congr 1
  rw [Bool.eq_iff_iff, ib, ib']
  constructor
  · rintro ⟨hd, s, s0, s1, e1, e2⟩
    refine ⟨hd.imp Ne.symm Ne.symm, 1 - s, by linarith, by linarith, by linear_combination -e1, ?_⟩
    convert e2 using 2 <;> ring
  · rintro ⟨hd, s, s0, s1, e1, e2⟩
    refine ⟨hd.imp Ne.symm Ne.symm, 1 - s, by linarith, by linarith, by linear_combination -e1, ?_⟩
    convert e2 using 2 <;> ring

/-- a slanted segment contains its midpoint and not the continuation of the segment -/
example : ∃ r, mkPolygon "S" 1 2 [mk2 0 0, mk2 4 2] .PERMANENT = .value r ∧ r.inside (mk2 2 1) = .value true ∧
    r.inside (mk2 6 3) = .value false := by
  obtain ⟨r, b, hr, hb, ib⟩ := polygon_region_2d "S" 1 2 .PERMANENT (mk2 0 0) (mk2 4 2) (mk2 2 1) [] rfl rfl rfl (by omega) (by simp)
  obtain ⟨r', b', hr', hb', ib'⟩ := polygon_region_2d "S" 1 2 .PERMANENT (mk2 0 0) (mk2 4 2) (mk2 6 3) [] rfl rfl rfl (by omega) (by simp)
  rw [hr] at hr'
  cases hr'
  refine ⟨r, hr, ?_, ?_⟩
  · rw [hb, ib.2]
    refine ⟨.inl (by simp [mk2]), 1 / 2, by norm_num, by norm_num, ?_, ?_⟩ <;> simp only [mk2] <;> norm_num
  · rw [hb']
    congr 1
    rw [← Bool.not_eq_true, ib']
    rintro ⟨_, s, s0, s1, e1, _⟩
    simp only [mk2] at e1
    linarith

end Jali.Geom
