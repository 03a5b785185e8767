import Verif.Proof.EvenOdd3
import Verif.Props.PolygonRegion
/-! Property theorems C146: polygon regions in space whose polygon need not be convex. -/
namespace Jali.Geom
open Spec Point

open Classical in
/-- **C146, partial: points of the plane of the polygon.** `n` is the normal on the side from which the second vertex is a left
turn; its largest component is not zero. Let `p` and `p'` be points in the plane of the polygon, all vertices strictly on one side
of a plane through `p'` (it is outside), and let the segment from `p` to `p'` cross some edges and not meet the others. If the
number of edges crossed is odd, the region contains `p`; if it is even, the region contains `p` only if `p` is within
1e-8 |n| / max n_i of an edge. Missing: the case that the largest component is zero, in which the region is unbounded
(`polygon_region_unbounded`, `polygon_region_start_false`), and three vertices on a line (`polygon_region_collinear_false`). -/
theorem polygon_region_even_odd_partial (name : String) (id : Nat) (lc : LifeCycle) (n p p' u : Point) (l : List Point)
    (h : PlanarPolygon n l) (hM : max (max n.x n.y) n.z ≠ 0) (hp : InPlaneOf n l p) (hp' : InPlaneOf n l p')
    (hu : ∀ v ∈ l, 0 < inner3 u (vec p' v))
    (hx : ∀ e ∈ polyEdges l, Apart3 p p' e.1 e.2 ∨ Cross3 n p p' e.1 e.2) :
    ∃ r, mkPolygon name id l.length l lc = .value r ∧
      ((polyEdges l).countP (fun e => decide (Cross3 n p p' e.1 e.2)) % 2 = 1 → r.inside p = .value true) ∧
      (r.inside p = .value true → (polyEdges l).countP (fun e => decide (Cross3 n p p' e.1 e.2)) % 2 = 1 ∨
        ∃ e ∈ polyEdges l, ∃ s : ℝ, 0 ≤ s ∧ s ≤ 1 ∧
          dist2 p (along e.1 e.2 s) * (max (max n.x n.y) n.z) ^ 2 ≤ 1 / 10 ^ 16 * inner3 n n) := by
  refine ⟨_, mkPolygon_planar name id lc h, ?_⟩
  have hN := planar_pos h
  obtain ⟨he, hMe⟩ := elim_max hN
  have h3 := h.three
  rw [planarRegion_inside name id lc h p hp.1]
  have hMM : maxComp n = max (max n.x n.y) n.z := rfl
  rw [← hMM, ← hMe] at hM ⊢
  generalize elimLoop (some (unit3 n)) = e at *
  have h0 : pt l 0 ∈ l := by
    match l with
    | a :: l => simp [pt]
  have hpl : onPlane (some (unit3 n)) (pt l 0) p = true := by
    rw [onPlane_iff _ _ _ hp.1, unit3_inner, hp.2 _ h0]
    norm_num
  have inp : ∀ v ∈ l, inner3 n (vec p v) = 0 := by
    intro v hv
    have := hp.2 v hv
    simp only [inner3, vec] at this ⊢
    linarith
  have inp' : ∀ v ∈ l, inner3 n (vec p' v) = 0 := by
    intro v hv
    have := hp'.2 v hv
    simp only [inner3, vec] at this ⊢
    linarith
  have hpp : inner3 n (vec p p') = 0 := by
    have a1 := hp.2 _ h0
    have a2 := hp'.2 _ h0
    simp only [inner3, vec] at a1 a2 ⊢
    linarith
  obtain ⟨ux, uy, huu⟩ := proj_half e he hM u p'
  have hray := point_in_polygon_any_ray (projElim e p) (projElim e p') (l.map (projElim e)) ux uy (by
    intro v hv
    obtain ⟨w, hw, rfl⟩ := List.mem_map.1 hv
    rw [← huu w (inp' w hw)]
    exact hu w hw) (by
    intro ed hed
    rw [edges_map] at hed
    obtain ⟨⟨a, b⟩, hab, rfl⟩ := List.mem_map.1 hed
    have m := mem_edges_l hab
    rcases hx _ hab with hh | hh
    · exact .inl (proj_apart e he hM hpp (inp _ m.1) (inp _ m.2) hh)
    · exact .inr ((proj_cross e he hN hM hpp (inp _ m.1) (inp _ m.2)).2 hh))
  have hcount : (polyEdges (l.map (projElim e))).countP (fun x => decide (Cross (projElim e p) (projElim e p') x.1 x.2)) =
      (polyEdges l).countP (fun x => decide (Cross3 n p p' x.1 x.2)) := by
    rw [edges_map, List.countP_map]
    apply List.countP_congr
    intro ed hed
    have m := mem_edges_l hed
    show decide (Cross (projElim e p) (projElim e p') (projElim e ed.1) (projElim e ed.2)) = true ↔ _
    rw [decide_eq_true_eq, decide_eq_true_eq, proj_cross e he hN hM hpp (inp _ m.1) (inp _ m.2)]
  rw [hcount] at hray
  rw [hpl, Bool.true_and]
  constructor
  · intro hodd
    rw [hray.2 hodd, Bool.true_or]
  · intro hin
    have hin := Res.value.inj hin
    rw [Bool.or_eq_true] at hin
    rcases hin with hin | hin
    · exact .inl (hray.1 hin)
    · right
      obtain ⟨⟨a, b⟩, hab, hon⟩ := List.any_eq_true.1 hin
      have hm := mem_edges_l hab
      rw [onSegment_iff _ _ _ rfl rfl rfl] at hon
      obtain ⟨_, s, hs0, hs1, _, hlt⟩ := hon
      exact ⟨(a, b), hab, s, hs0, hs1, near_segment e he s (inp _ hm.1) (inp _ hm.2) hlt⟩

/-- **C146, partial: points beside the plane of the polygon.** If the largest component of the normal is not zero, a point in the
region is within 1e-12 of the plane of the polygon, and there is a point of the plane in the region no farther from it than
1e-12 |n| / max n_i. -/
theorem polygon_region_off_plane_partial (name : String) (id : Nat) (lc : LifeCycle) (n p : Point) (l : List Point)
    (h : PlanarPolygon n l) (hM : max (max n.x n.y) n.z ≠ 0) (hd : p.d = 3) :
    ∃ r, mkPolygon name id l.length l lc = .value r ∧ (r.inside p = .value true →
      (∀ v ∈ l, inner3 n (vec v p) ^ 2 ≤ 1 / 10 ^ 24 * inner3 n n) ∧
      ∃ q, InPlaneOf n l q ∧ r.inside q = .value true ∧ dist2 p q * (max (max n.x n.y) n.z) ^ 2 ≤ 1 / 10 ^ 24 * inner3 n n) := by
  refine ⟨_, mkPolygon_planar name id lc h, ?_⟩
  have hN := planar_pos h
  obtain ⟨he, hMe⟩ := elim_max hN
  have h3 := h.three
  have hMM : maxComp n = max (max n.x n.y) n.z := rfl
  have hins := planarRegion_inside name id lc h
  rw [hins p hd]
  rw [← hMM, ← hMe] at hM ⊢
  generalize elimLoop (some (unit3 n)) = e at *
  intro hin
  have hin := Res.value.inj hin
  rw [Bool.and_eq_true, onPlane_iff _ _ _ hd, unit3_inner] at hin
  obtain ⟨hpl, hb⟩ := hin
  have h0 : pt l 0 ∈ l := by
    match l with
    | a :: l => simp [pt]
  have hs := Real.sqrt_pos.2 hN
  have hsame : ∀ v ∈ l, inner3 n (vec v p) = inner3 n (vec (pt l 0) p) := by
    intro v hv
    have := h.planar v hv _ h0
    simp only [inner3, vec] at this ⊢
    linarith
  obtain ⟨η, hη⟩ : ∃ η, η = inner3 n (vec (pt l 0) p) := ⟨_, rfl⟩
  rw [← hη] at hpl hsame
  have hη2 : η ^ 2 ≤ 1 / 10 ^ 24 * inner3 n n := by
    rw [abs_div, abs_of_pos hs, div_le_iff₀ hs] at hpl
    have h1 := mul_self_le_mul_self (abs_nonneg _) hpl
    rw [abs_mul_abs_self] at h1
    have h2 := Real.mul_self_sqrt hN.le
    have h3 : (1 / 10 ^ 12 * Real.sqrt (inner3 n n)) * (1 / 10 ^ 12 * Real.sqrt (inner3 n n)) =
      1 / 10 ^ 24 * (Real.sqrt (inner3 n n) * Real.sqrt (inner3 n n)) := by ring
    rw [h3, h2] at h1
    rw [sq]; exact h1
  refine ⟨fun v hv => by rw [hsame v hv]; exact hη2, ?_⟩
  obtain ⟨f1, f2, f3⟩ := shift_facts e he p (η / n.coord e)
  have hpl' : ∀ v ∈ l, inner3 n (vec v (shift e p (η / n.coord e))) = 0 := by
    intro v hv
    rw [f3, hsame v hv]
    field_simp
    ring
  refine ⟨shift e p (η / n.coord e), ⟨rfl, hpl'⟩, ?_, ?_⟩
  · rw [hins _ rfl, f1, hb, Bool.and_true]
    congr 1
    rw [onPlane_iff _ _ _ rfl, unit3_inner, hpl' _ h0]
    norm_num
  · rw [f2]
    have : (η / n.coord e) ^ 2 * n.coord e ^ 2 = η ^ 2 := by field_simp
    rw [this]
    exact hη2

/-! ### a polygon that is not convex -/

/-- the dart in the plane z = 0 -/
noncomputable def dart3 : List Point := [mk3 0 0 0, mk3 4 2 0, mk3 0 4 0, mk3 1 2 0]

theorem dart3_planar : PlanarPolygon (mk3 0 0 1) dart3 := by
  refine ⟨by simp [dart3], by simp [dart3, mk3], by simp [dart3, mk3, inner3, vec], ?_⟩
  rintro p0 p1 p2 rest hl
  cases hl
  simp only [det3, vec, mk3]
  norm_num

/-- the same polygon starting with another vertex: the second vertex is the notch, the normal points down -/
theorem dart3_planar' : PlanarPolygon (mk3 0 0 (-1)) (dart3.rotate 2) := by
  refine ⟨by simp [dart3], ?_, ?_, ?_⟩
  · intro v hv
    rw [List.mem_rotate] at hv
    exact dart3_planar.dim v hv
  · intro v hv w hw
    rw [List.mem_rotate] at hv hw
    have := dart3_planar.planar v hv w hw
    simp only [inner3, mk3] at this ⊢
    linarith
  · rintro p0 p1 p2 rest hl
    simp only [dart3, List.rotate_cons_succ, List.rotate_zero, List.cons_append, List.nil_append] at hl
    cases hl
    simp only [det3, vec, mk3]
    norm_num

/-- the segment from (1/2, 2) in the notch to the left crosses no edge; the point is not in the region -/
theorem dart3_notch (r : AnyRegion) (hr : mkPolygon "D" 1 4 dart3 .PERMANENT = .value r) : r.inside (mk3 (1 / 2) 2 0) ≠ .value true := by
  classical
  intro hin
  obtain ⟨r', hr', _, hb⟩ := polygon_region_even_odd_partial "D" 1 .PERMANENT (mk3 0 0 1) (mk3 (1 / 2) 2 0) (mk3 (-1) 2 0)
    (mk3 1 0 0) dart3 dart3_planar (by simp [mk3]) ⟨rfl, by simp [dart3, mk3, inner3, vec]⟩ ⟨rfl, by simp [dart3, mk3, inner3, vec]⟩
    (by simp [dart3, mk3, inner3, vec]; norm_num) (by
      intro e he
      simp only [dart3, polyEdges, List.rotate_cons_succ, List.rotate_zero, List.zip_cons_cons, List.cons_append,
        List.nil_append, List.zip_nil_right, List.mem_cons, List.not_mem_nil, or_false] at he
      left
      intro s t s0 s1 t0 t1 heq
      have hx := congrArg Point.x heq
      have hy := congrArg Point.y heq
      simp only [along] at hx hy
      rcases he with rfl | rfl | rfl | rfl <;> simp only [mk3] at hx hy <;> nlinarith)
  have hr'' : mkPolygon "D" 1 4 dart3 .PERMANENT = .value r' := hr'
  rw [hr] at hr''
  cases hr''
  rcases hb hin with h1 | ⟨e, he, s, s0, s1, h1⟩
  · rw [List.countP_eq_zero.2] at h1
    · simp at h1
    · intro e he
      simp only [dart3, polyEdges, List.rotate_cons_succ, List.rotate_zero, List.zip_cons_cons, List.cons_append,
        List.nil_append, List.zip_nil_right, List.mem_cons, List.not_mem_nil, or_false] at he
      rw [decide_eq_true_eq]
      rintro ⟨h1, h2⟩
      rcases he with rfl | rfl | rfl | rfl <;> simp only [det3, vec, mk3] at h1 h2 <;>
        first | (norm_num at h1; done) | (norm_num at h2; done)
  · simp only [dart3, polyEdges, List.rotate_cons_succ, List.rotate_zero, List.zip_cons_cons, List.cons_append,
      List.nil_append, List.zip_nil_right, List.mem_cons, List.not_mem_nil, or_false] at he
    have hm : max (max (mk3 0 0 1).x (mk3 0 0 1).y) (mk3 0 0 1).z = 1 := by simp [mk3]
    rw [hm] at h1
    rcases he with rfl | rfl | rfl | rfl <;> simp only [dist2, inner3, vec, along, mk3] at h1 <;> norm_num at h1 <;>
      nlinarith [sq_nonneg (s - 1 / 2), sq_nonneg s, sq_nonneg (s - 1)]

/-- from a point right of the notch, the segment upwards crosses one edge: the point is in the region -/
example : ∃ r, mkPolygon "D" 1 4 dart3 .PERMANENT = .value r ∧ r.inside (mk3 2 (5 / 2) 0) = .value true := by
  classical
  have c1 : Cross3 (mk3 0 0 1) (mk3 2 (5 / 2) 0) (mk3 2 5 0) (mk3 4 2 0) (mk3 0 4 0) := by
    constructor <;> simp only [det3, vec, mk3] <;> norm_num
  have c2 : ∀ e ∈ [(mk3 0 0 0, mk3 4 2 0), (mk3 0 4 0, mk3 1 2 0), (mk3 1 2 0, mk3 0 0 0)],
      ¬ Cross3 (mk3 0 0 1) (mk3 2 (5 / 2) 0) (mk3 2 5 0) e.1 e.2 := by
    rintro e he ⟨h1, h2⟩
    simp only [List.mem_cons, List.not_mem_nil, or_false] at he
    rcases he with rfl | rfl | rfl <;> simp only [det3, vec, mk3] at h1 h2 <;>
      first | (norm_num at h1; done) | (norm_num at h2; done)
  obtain ⟨r, hr, ha, _⟩ := polygon_region_even_odd_partial "D" 1 .PERMANENT (mk3 0 0 1) (mk3 2 (5 / 2) 0) (mk3 2 5 0)
    (mk3 0 (-1) 0) dart3 dart3_planar (by simp [mk3]) ⟨rfl, by simp [dart3, mk3, inner3, vec]⟩ ⟨rfl, by simp [dart3, mk3, inner3, vec]⟩
    (by simp [dart3, mk3, inner3, vec]; norm_num) (by
      intro e he
      simp only [dart3, polyEdges, List.rotate_cons_succ, List.rotate_zero, List.zip_cons_cons, List.cons_append,
        List.nil_append, List.zip_nil_right, List.mem_cons, List.not_mem_nil, or_false] at he
      rcases he with rfl | rfl | rfl | rfl
      · left
        intro s t s0 s1 t0 t1 heq
        have hx := congrArg Point.x heq
        have hy := congrArg Point.y heq
        simp only [along, mk3] at hx hy
        linarith
      · exact .inr c1
      · left
        intro s t s0 s1 t0 t1 heq
        have hx := congrArg Point.x heq
        simp only [along, mk3] at hx
        linarith
      · left
        intro s t s0 s1 t0 t1 heq
        have hx := congrArg Point.x heq
        simp only [along, mk3] at hx
        linarith)
  refine ⟨r, hr, ha ?_⟩
  have n1 := c2 (mk3 0 0 0, mk3 4 2 0) (by simp)
  have n2 := c2 (mk3 0 4 0, mk3 1 2 0) (by simp)
  have n3 := c2 (mk3 1 2 0, mk3 0 0 0) (by simp)
  simp only [dart3, polyEdges, List.rotate_cons_succ, List.rotate_zero, List.zip_cons_cons, List.cons_append,
    List.nil_append, List.zip_nil_right, List.countP_cons, List.countP_nil]
  simp [c1, n1, n2, n3]

/-- **C146 does not hold in general**: for polygons that are not convex even the first vertex matters. The dart, given
counter-clockwise, does not contain a point in its notch; starting with another vertex the same polygon, in the same order,
contains it, and also points far away. -/
theorem polygon_region_start_false : ∃ (l : List Point) (k : Nat) (p : Point) (r r' : AnyRegion),
    mkPolygon "D" 1 l.length l .PERMANENT = .value r ∧ mkPolygon "D" 1 (l.rotate k).length (l.rotate k) .PERMANENT = .value r' ∧
    r.inside p ≠ .value true ∧ r'.inside p = .value true ∧ r'.inside (mk3 100 2 0) = .value true := by
  have hpos := planar_pos dart3_planar'
  obtain ⟨he, hMe⟩ := elim_max hpos
  have hs : Real.sqrt (inner3 (mk3 0 0 (-1)) (mk3 0 0 (-1))) = 1 := by
    rw [show inner3 (mk3 0 0 (-1)) (mk3 0 0 (-1)) = 1 by simp [inner3, mk3]]; exact Real.sqrt_one
  have hu : unit3 (mk3 0 0 (-1)) = mk3 0 0 (-1) := by
    unfold unit3; rw [hs]; simp [mk3]
  have hel : elimLoop (some (unit3 (mk3 0 0 (-1)))) = 0 := by
    rw [hu]
    simp only [elimLoop, List.range_succ, List.range_zero, List.nil_append, List.cons_append, List.foldl_cons, List.foldl_nil,
      Point.coord, mk3]
    norm_num
  have hin : ∀ x : ℝ, (convexRegion "D" 1 .PERMANENT (mk3 0 0 (-1)) (dart3.rotate 2)).inside (mk3 x 2 0) = .value true := by
    intro x
    rw [planarRegion_inside "D" 1 .PERMANENT dart3_planar' _ rfl, hel]
    have hpl : onPlane (some (unit3 (mk3 0 0 (-1)))) (pt (dart3.rotate 2) 0) (mk3 x 2 0) = true := by
      rw [onPlane_iff _ _ _ rfl, hu]
      simp [dart3, List.rotate_cons_succ, pt, inner3, vec, mk3]
    rw [hpl, Bool.true_and]
    congr 1
    rw [Bool.or_eq_true]
    right
    rw [List.any_eq_true]
    refine ⟨(mk3 0 4 0, mk3 1 2 0), by simp [dart3, polyEdges, List.rotate_cons_succ], ?_⟩
    rw [onSegment_iff _ _ _ rfl rfl rfl]
    refine ⟨?_, 1, by norm_num, le_rfl, ?_, ?_⟩
    · left; simp [projElim, mk2, mk3, Point.coord]
    · simp [projElim, mk2, mk3, Point.coord]
    · simp [projElim, mk2, mk3, Point.coord]
  exact ⟨dart3, 2, mk3 (1 / 2) 2 0, _, _, mkPolygon_planar "D" 1 .PERMANENT dart3_planar, mkPolygon_planar "D" 1 .PERMANENT dart3_planar',
    dart3_notch _ (mkPolygon_planar "D" 1 .PERMANENT dart3_planar), hin _, hin _⟩

end Jali.Geom
