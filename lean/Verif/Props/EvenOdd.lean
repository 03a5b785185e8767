import Verif.Proof.EvenOdd2
import Verif.Props.PointInPolygon
/-! Property theorems C145: the crossing test follows the even-odd rule for all polygons, convex or not. -/
namespace Jali.Geom
open Spec Point

open Classical in
/-- **C145, even-odd rule.** Let a segment cross some edges of a polygon and not meet the others. The answers at its two ends
differ if and only if the number of edges crossed is odd. -/
theorem point_in_polygon_even_odd (t t' : Point) (coords : List Point)
    (h : ∀ e ∈ polyEdges coords, Apart t t' e.1 e.2 ∨ Cross t t' e.1 e.2) :
    pointInPolygon t coords ≠ pointInPolygon t' coords ↔
      (polyEdges coords).countP (fun e => decide (Cross t t' e.1 e.2)) % 2 = 1 := by
  have hc : (polyEdges coords).countP (fun e => decide (Cross t t' e.1 e.2)) =
      (polyEdges coords).countP (fun e => flips t t' e.1 e.2) := by
    apply List.countP_congr
    intro e he
    rw [decide_eq_true_eq]
    rcases h e he with h | h
    · rw [flips_apart h]
      constructor
      · intro hc
        have := flips_cross hc
        rw [flips_apart h] at this
        exact this
      · intro hf; cases hf
    · rw [flips_cross h]
      exact ⟨fun _ => rfl, fun _ => h⟩
  rw [hc, ← inPolygon_flips]
  cases pointInPolygon t coords <;> cases pointInPolygon t' coords <;> simp

/-- **C145, components.** The answer is the same at all points of a connected part of the plane that does not meet the edges of
the polygon, and it is "outside" if this part is unbounded. -/
theorem point_in_polygon_component (coords : List Point) (S : Set (ℝ × ℝ)) (hS : IsPreconnected S)
    (hb : ∀ z ∈ S, ∀ e ∈ polyEdges coords, ¬ OnSeg e.1 e.2 z.1 z.2) :
    (∀ z ∈ S, ∀ w ∈ S, pointInPolygon (mk2 z.1 z.2) coords = pointInPolygon (mk2 w.1 w.2) coords) ∧
    (¬ Bornology.IsBounded S → ∀ z ∈ S, pointInPolygon (mk2 z.1 z.2) coords = false) := by
  have hb' : ∀ z ∈ S, ¬ ∃ e ∈ polyEdges coords, OnSeg e.1 e.2 z.1 z.2 := by
    rintro z hz ⟨e, he, ho⟩
    exact hb z hz e he ho
  have hall : ∀ z ∈ S, ∀ w ∈ S, pointInPolygon (mk2 z.1 z.2) coords = pointInPolygon (mk2 w.1 w.2) coords :=
    fun z hz w hw => same_component coords S hS hb' hz hw
  refine ⟨hall, ?_⟩
  intro hub z hz
  -- a bound for the coordinates of the vertices
  obtain ⟨B, hB⟩ : ∃ B : ℝ, ∀ v ∈ coords, |v.x| ≤ B ∧ |v.y| ≤ B := by
    clear hb hb' hall
    induction coords with
    | nil => exact ⟨0, by simp⟩
    | cons a l ih =>
      obtain ⟨B, hB⟩ := ih
      refine ⟨max B (max |a.x| |a.y|), ?_⟩
      intro v hv
      rcases List.mem_cons.1 hv with rfl | hv
      · exact ⟨le_trans (le_max_left _ _) (le_max_right _ _), le_trans (le_max_right _ _) (le_max_right _ _)⟩
      · exact ⟨(hB v hv).1.trans (le_max_left _ _), (hB v hv).2.trans (le_max_left _ _)⟩
  have : ∃ w ∈ S, B < |w.1| ∨ B < |w.2| := by
    by_contra hno
    push Not at hno
    apply hub
    refine (Metric.isBounded_closedBall (x := ((0 : ℝ), (0 : ℝ))) (r := B)).subset ?_
    intro w hw
    rw [Metric.mem_closedBall, Prod.dist_eq]
    simp only [Real.dist_eq, sub_zero]
    exact max_le (hno w hw).1 (hno w hw).2
  obtain ⟨w, hw, hfar⟩ := this
  rw [hall z hz w hw]
  apply point_in_polygon_outside
  rcases hfar with hf | hf
  · rcases lt_abs.1 hf with hf | hf
    · exact .inr (.inr (.inl fun v hv => lt_of_le_of_lt (le_trans (le_abs_self _) (hB v hv).1) hf))
    · refine .inr (.inr (.inr fun v hv => ?_))
      have := (abs_le.1 (hB v hv).1).1
      show w.1 ≤ v.x
      linarith
  · rcases lt_abs.1 hf with hf | hf
    · exact .inr (.inl fun v hv => le_trans (le_trans (le_abs_self _) (hB v hv).2) hf.le)
    · refine .inl fun v hv => ?_
      have := (abs_le.1 (hB v hv).2).1
      show w.2 < v.y
      linarith

/-- **C145, convex hull.** A point is outside if all vertices are strictly on one side of some line through it. -/
theorem point_in_polygon_half_plane (t : Point) (coords : List Point) (ux uy : ℝ)
    (h : ∀ v ∈ coords, 0 < ux * (v.x - t.x) + uy * (v.y - t.y)) : pointInPolygon t coords = false := by
  rcases coords with _ | ⟨a, l⟩
  · exact point_in_polygon_outside t [] (.inl (by simp))
  have hu : 0 < ux * ux + uy * uy := by
    have ha := h a (by simp)
    by_contra hn
    have hx : ux = 0 := mul_self_eq_zero.1 (by nlinarith [mul_self_nonneg ux, mul_self_nonneg uy])
    have hy : uy = 0 := mul_self_eq_zero.1 (by nlinarith [mul_self_nonneg ux, mul_self_nonneg uy])
    rw [hx, hy] at ha
    linarith
  generalize a :: l = coords at h
  -- the half plane on the other side is connected and unbounded, and meets no edge
  refine (point_in_polygon_component coords {z | ux * z.1 + uy * z.2 ≤ ux * t.x + uy * t.y} ?_ ?_).2 ?_ (t.x, t.y) ?_
  · refine (convex_halfSpace_le (f := fun z : ℝ × ℝ => ux * z.1 + uy * z.2) ⟨fun a b => ?_, fun c a => ?_⟩ _).isPreconnected
    · simp only [Prod.fst_add, Prod.snd_add]; ring
    · simp only [Prod.smul_fst, Prod.smul_snd, smul_eq_mul]; ring
  · rintro z hz e he ⟨s, h0, h1, h2, h3⟩
    have hz : ux * z.1 + uy * z.2 ≤ ux * t.x + uy * t.y := hz
    have m := mem_edges_l he
    have k1 := h _ m.1
    have k2 := h _ m.2
    rw [h2, h3] at hz
    have q1 := mul_nonneg h0 k2.le
    have q2 := mul_nonneg (sub_nonneg.2 h1) k1.le
    rcases lt_or_eq_of_le h0 with hs | hs
    · have := mul_pos hs k2; nlinarith
    · subst hs; simp at hz; linarith
  · intro hb
    obtain ⟨R, hR⟩ := hb.exists_norm_le
    -- far away in direction -u
    obtain ⟨c, hc⟩ : ∃ c : ℝ, c = (|R| + |t.x| + |t.y| + 1) * (|ux| + |uy|) / (ux * ux + uy * uy) := ⟨_, rfl⟩
    have hpos : 0 < |R| + |t.x| + |t.y| + 1 := by positivity
    have hc0 : 0 ≤ c := by rw [hc]; positivity
    have hm := hR (t.x - c * ux, t.y - c * uy) (by
      show ux * (t.x - c * ux) + uy * (t.y - c * uy) ≤ ux * t.x + uy * t.y
      nlinarith [mul_nonneg hc0 hu.le])
    have n1 : |t.x - c * ux| ≤ R := le_trans (le_max_left _ _) hm
    have n2 : |t.y - c * uy| ≤ R := le_trans (le_max_right _ _) hm
    have e1 : c * |ux| ≤ R + |t.x| := by
      have := abs_sub_abs_le_abs_sub (c * ux) t.x
      rw [abs_mul, abs_of_nonneg hc0, abs_sub_comm] at this
      linarith
    have e2 : c * |uy| ≤ R + |t.y| := by
      have := abs_sub_abs_le_abs_sub (c * uy) t.y
      rw [abs_mul, abs_of_nonneg hc0, abs_sub_comm] at this
      linarith
    have hR' := le_abs_self R
    have hs : 0 < |ux| + |uy| := by
      by_contra hn
      have a1 := abs_nonneg ux
      have a2 := abs_nonneg uy
      have hx : ux = 0 := abs_eq_zero.1 (by linarith)
      have hy : uy = 0 := abs_eq_zero.1 (by linarith)
      rw [hx, hy] at hu
      linarith
    have hsq : (|ux| + |uy|) * (|ux| + |uy|) ≥ ux * ux + uy * uy := by
      have a1 := abs_mul_abs_self ux
      have a2 := abs_mul_abs_self uy
      have a3 := mul_nonneg (abs_nonneg ux) (abs_nonneg uy)
      nlinarith
    have e3 : c * (ux * ux + uy * uy) = (|R| + |t.x| + |t.y| + 1) * (|ux| + |uy|) := by
      rw [hc, div_mul_cancel₀ _ hu.ne']
    have e4 : |ux| * (c * |ux|) ≤ |ux| * (|R| + |t.x|) := mul_le_mul_of_nonneg_left (by linarith) (abs_nonneg _)
    have e5 : |uy| * (c * |uy|) ≤ |uy| * (|R| + |t.y|) := mul_le_mul_of_nonneg_left (by linarith) (abs_nonneg _)
    have a1 := abs_mul_abs_self ux
    have a2 := abs_mul_abs_self uy
    have e6 : c * (ux * ux + uy * uy) = |ux| * (c * |ux|) + |uy| * (c * |uy|) := by
      rw [← a1, ← a2]; ring
    have p1 := mul_nonneg (abs_nonneg ux) (abs_nonneg t.y)
    have p2 := mul_nonneg (abs_nonneg uy) (abs_nonneg t.x)
    nlinarith
  · show ux * t.x + uy * t.y ≤ ux * t.x + uy * t.y; exact le_rfl

open Classical in
/-- **C145, rays in any direction.** A point is inside if and only if a segment from it to some point outside crosses an odd number
of edges; which segment is taken does not matter as long as it does not touch a vertex or run along an edge. Outside here means
that all vertices are on one side of some line. -/
theorem point_in_polygon_any_ray (t t' : Point) (coords : List Point) (ux uy : ℝ)
    (hout : ∀ v ∈ coords, 0 < ux * (v.x - t'.x) + uy * (v.y - t'.y))
    (h : ∀ e ∈ polyEdges coords, Apart t t' e.1 e.2 ∨ Cross t t' e.1 e.2) :
    pointInPolygon t coords = true ↔ (polyEdges coords).countP (fun e => decide (Cross t t' e.1 e.2)) % 2 = 1 := by
  rw [← point_in_polygon_even_odd t t' coords h, point_in_polygon_half_plane t' coords ux uy hout]
  cases pointInPolygon t coords <;> simp

/-- **C145, gluing.** If a polygon is cut into pieces along inner edges (each of which is used once in either direction), the
point is inside if and only if it is inside of an odd number of pieces. -/
theorem point_in_polygon_glue (t : Point) (coords : List Point) (pieces : List (List Point)) (inner : List (Point × Point))
    (h : (polyEdges coords ++ (inner ++ inner.map Prod.swap)).Perm (pieces.flatMap polyEdges)) :
    pointInPolygon t coords = true ↔ pieces.countP (fun l => pointInPolygon t l) % 2 = 1 := by
  have h1 := h.countP_eq (fun e => crosses t.x t.y e.1 e.2)
  rw [List.countP_append, List.countP_append, List.countP_map] at h1
  have hsw : inner.countP ((fun e : Point × Point => crosses t.x t.y e.1 e.2) ∘ Prod.swap) =
      inner.countP (fun e => crosses t.x t.y e.1 e.2) := by
    apply List.countP_congr
    intro e _
    show crosses t.x t.y e.2 e.1 = true ↔ _
    rw [crosses_swap]
  rw [hsw] at h1
  have h2 : ∀ P : List (List Point), (P.flatMap polyEdges).countP (fun e => crosses t.x t.y e.1 e.2) % 2 =
      P.countP (fun l => pointInPolygon t l) % 2 := by
    intro P
    induction P with
    | nil => rfl
    | cons l P ih =>
      rw [List.flatMap_cons, List.countP_append, List.countP_cons]
      have := inPolygon_parity t l
      by_cases hl : pointInPolygon t l = true
      · rw [if_pos hl]; have := this.1 hl; omega
      · rw [if_neg hl]
        have : ¬ (polyEdges l).countP (fun e => crosses t.x t.y e.1 e.2) % 2 = 1 := fun hh => hl (this.2 hh)
        omega
  rw [inPolygon_parity]
  have := h2 pieces
  omega

/-- **C145, polygons made of convex pieces.** Let a polygon be cut into strictly convex pieces. Every point strictly inside of
one piece and outside of the others is reported inside, and a point reported inside is in some piece (or on its boundary). -/
theorem point_in_polygon_pieces (t : Point) (coords : List Point) (pieces : List (List Point)) (inner : List (Point × Point))
    (h : (polyEdges coords ++ (inner ++ inner.map Prod.swap)).Perm (pieces.flatMap polyEdges))
    (hc : ∀ l ∈ pieces, StrictlyConvex l ∧ l ≠ []) :
    (∀ a l b, pieces = a ++ l :: b → (∀ e ∈ polyEdges l, 0 < orient2 t e.1 e.2) →
      (∀ l' ∈ a ++ b, ∃ e ∈ polyEdges l', orient2 t e.1 e.2 < 0) → pointInPolygon t coords = true) ∧
    (pointInPolygon t coords = true → ∃ l ∈ pieces, ∀ e ∈ polyEdges l, 0 ≤ orient2 t e.1 e.2) := by
  have hg := point_in_polygon_glue t coords pieces inner h
  constructor
  · rintro a l b rfl hin hout
    rw [hg]
    have hz : ∀ l' ∈ a ++ b, ¬ pointInPolygon t l' = true := by
      intro l' hl' hp
      obtain ⟨e, he, hlt⟩ := hout l' hl'
      have hm : l' ∈ a ++ l :: b := by
        rcases List.mem_append.1 hl' with h | h
        · simp [h]
        · simp [h]
      have := (point_in_polygon_convex t l' (hc l' hm).1 (hc l' hm).2).2 hp e he
      linarith
    have hl : pointInPolygon t l = true :=
      (point_in_polygon_convex t l (hc l (by simp)).1 (hc l (by simp)).2).1 hin
    rw [List.countP_append, List.countP_cons, if_pos hl,
      List.countP_eq_zero.2 (fun x hx => hz x (List.mem_append_left _ hx)),
      List.countP_eq_zero.2 (fun x hx => hz x (List.mem_append_right _ hx))]
  · intro hp
    rw [hg] at hp
    have : 0 < pieces.countP (fun l => pointInPolygon t l) := by omega
    obtain ⟨l, hl, hpl⟩ := List.countP_pos_iff.1 this
    exact ⟨l, hl, (point_in_polygon_convex t l (hc l hl).1 (hc l hl).2).2 hpl⟩

/-! ### a polygon that is not convex -/

/-- a dart, with a notch at (1, 2) -/
noncomputable def dart : List Point := [mk2 0 0, mk2 4 2, mk2 0 4, mk2 1 2]

/-- a point in the notch is outside: the segment to the left crosses no edge -/
example : pointInPolygon (mk2 (1 / 2) 2) dart = false := by
  have h := point_in_polygon_any_ray (mk2 (1 / 2) 2) (mk2 (-1) 2) dart 1 0 (by simp [dart, mk2]; norm_num) (by
    intro e he
    simp only [dart, polyEdges, List.rotate_cons_succ, List.rotate_zero, List.zip_cons_cons, List.cons_append,
      List.nil_append, List.zip_nil_right, List.mem_cons, List.not_mem_nil, or_false] at he
    left
    rintro x y ⟨s, h0, h1, h2, h3⟩ ⟨r, h4, h5, h6, h7⟩
    rcases he with rfl | rfl | rfl | rfl <;> simp only [mk2] at h2 h3 h6 h7 <;> nlinarith)
  rw [← Bool.not_eq_true, h, List.countP_eq_zero.2]
  · simp
  · intro e he
    simp only [dart, polyEdges, List.rotate_cons_succ, List.rotate_zero, List.zip_cons_cons, List.cons_append,
      List.nil_append, List.zip_nil_right, List.mem_cons, List.not_mem_nil, or_false] at he
    intro hc
    obtain ⟨h1, h2⟩ := @of_decide_eq_true _ (Classical.propDecidable _) hc
    rcases he with rfl | rfl | rfl | rfl <;> simp only [orient2, mk2] at h1 h2 <;> first | (norm_num at h1; done) | (norm_num at h2; done)

/-- the two triangles of the dart -/
theorem dart_pieces : (polyEdges dart ++ ([(mk2 1 2, mk2 4 2)] ++ [(mk2 1 2, mk2 4 2)].map Prod.swap)).Perm
    ([[mk2 0 0, mk2 4 2, mk2 1 2], [mk2 1 2, mk2 4 2, mk2 0 4]].flatMap polyEdges) := by
  simp only [dart, polyEdges, List.rotate_cons_succ, List.rotate_zero, List.zip_cons_cons, List.cons_append,
    List.nil_append, List.zip_nil_right, List.flatMap_cons, List.flatMap_nil, List.append_nil, List.map_cons, List.map_nil, Prod.swap]
  classical
  rw [List.perm_iff_count]
  intro a
  simp only [List.count_cons, List.count_nil]
  omega

/-- a point right of the notch is inside -/
example : pointInPolygon (mk2 2 (5 / 2)) dart = true := by
  refine (point_in_polygon_pieces _ dart _ _ dart_pieces ?_).1 [[mk2 0 0, mk2 4 2, mk2 1 2]] [mk2 1 2, mk2 4 2, mk2 0 4] [] rfl ?_ ?_
  · intro l hl
    simp only [List.mem_cons, List.not_mem_nil, or_false] at hl
    rcases hl with rfl | rfl
    · refine ⟨⟨by simp [mk2], ?_⟩, by simp⟩
      intro e he v hv
      simp only [polyEdges, List.rotate_cons_succ, List.rotate_zero, List.zip_cons_cons, List.cons_append,
        List.nil_append, List.zip_nil_right, List.mem_cons, List.not_mem_nil, or_false] at he hv
      rcases he with rfl | rfl | rfl <;> rcases hv with rfl | rfl | rfl <;>
        first
        | exact .inl rfl
        | exact .inr (.inl rfl)
        | (right; right; simp only [orient2, mk2]; norm_num)
    · refine ⟨⟨by simp [mk2], ?_⟩, by simp⟩
      intro e he v hv
      simp only [polyEdges, List.rotate_cons_succ, List.rotate_zero, List.zip_cons_cons, List.cons_append,
        List.nil_append, List.zip_nil_right, List.mem_cons, List.not_mem_nil, or_false] at he hv
      rcases he with rfl | rfl | rfl <;> rcases hv with rfl | rfl | rfl <;>
        first
        | exact .inl rfl
        | exact .inr (.inl rfl)
        | (right; right; simp only [orient2, mk2]; norm_num)
  · intro e he
    simp only [polyEdges, List.rotate_cons_succ, List.rotate_zero, List.zip_cons_cons, List.cons_append,
      List.nil_append, List.zip_nil_right, List.mem_cons, List.not_mem_nil, or_false] at he
    rcases he with rfl | rfl | rfl <;> simp only [orient2, mk2] <;> norm_num
  · intro l' hl'
    simp only [List.append_nil, List.mem_cons, List.not_mem_nil, or_false] at hl'
    subst hl'
    exact ⟨(mk2 4 2, mk2 1 2), by simp [polyEdges, List.rotate_cons_succ], by simp only [orient2, mk2]; norm_num⟩

/-- all points far above the dart are outside: the open half plane above it is connected and unbounded, and misses the edges -/
example (z : ℝ × ℝ) (hz : 4 < z.2) : pointInPolygon (mk2 z.1 z.2) dart = false := by
  refine (point_in_polygon_component dart {z | 4 < z.2} ?_ ?_).2 ?_ z hz
  · exact (convex_halfSpace_gt (f := fun z : ℝ × ℝ => z.2) ⟨fun _ _ => rfl, fun _ _ => rfl⟩ 4).isPreconnected
  · rintro z hz e he ⟨s, h0, h1, _, h3⟩
    have hz : 4 < z.2 := hz
    simp only [dart, polyEdges, List.rotate_cons_succ, List.rotate_zero, List.zip_cons_cons, List.cons_append,
      List.nil_append, List.zip_nil_right, List.mem_cons, List.not_mem_nil, or_false] at he
    rcases he with rfl | rfl | rfl | rfl <;> simp only [mk2] at h3 <;> linarith
  · intro hb
    obtain ⟨R, hR⟩ := hb.exists_norm_le
    have h5 := hR ((0 : ℝ), |R| + 5) (by show (4 : ℝ) < |R| + 5; have := abs_nonneg R; linarith)
    have h6 : |(|R| + 5)| ≤ ‖((0 : ℝ), |R| + 5)‖ := le_max_right _ _
    have h7 := le_abs_self (|R| + 5)
    have h8 := le_abs_self R
    linarith

end Jali.Geom
