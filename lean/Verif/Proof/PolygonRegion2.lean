import Verif.Proof.PolygonRegion
/-! The membership test of polygon regions in space, for convex polygons. -/
namespace Jali.Geom
open Spec Point

/-- the region made of a convex polygon -/
noncomputable def convexRegion (name : String) (id : Nat) (lc : LifeCycle) (n : Point) (l : List Point) : AnyRegion :=
  .polygon ⟨name, id, 3, lc⟩ l.length l (some (unit3 n)) (elimLoop (some (unit3 n)))

theorem mkPolygon_convex (name : String) (id : Nat) (lc : LifeCycle) {n : Point} {l : List Point} (h : ConvexInSpace n l) :
    mkPolygon name id l.length l lc = .value (convexRegion name id lc n l) := by
  have h3 := h.three
  match l, h with
  | p0 :: p1 :: p2 :: rest, h =>
    have hd := h.dim p0 (by simp)
    unfold mkPolygon convexRegion
    dsimp only
    rw [if_neg (by rw [hd]; omega), if_neg (by rw [hd]; omega), if_pos hd, corner_normal h]

theorem onPlane_iff (u q p : Point) (hp : p.d = 3) : onPlane (some u) q p = true ↔ |inner3 u (vec q p)| ≤ 1 / 10 ^ 12 := by
  unfold onPlane
  dsimp only
  rw [foldl_sum_sub, hp]
  simp only [List.range_succ, List.range_zero, List.nil_append, List.cons_append, List.map_cons, List.map_nil, List.sum_cons, List.sum_nil]
  have : u.coord 0 * (p.coord 0 - q.coord 0) + (u.coord 1 * (p.coord 1 - q.coord 1) + (u.coord 2 * (p.coord 2 - q.coord 2) + 0)) =
      inner3 u (vec q p) := by simp only [Point.coord, inner3, vec]; ring
  rw [this]
  simp

theorem convexRegion_inside (name : String) (id : Nat) (lc : LifeCycle) {n : Point} {l : List Point} (h : ConvexInSpace n l) (p : Point)
    (hp : p.d = 3) : (convexRegion name id lc n l).inside p = .value (onPlane (some (unit3 n)) (pt l 0) p &&
      (pointInPolygon (projElim (elimLoop (some (unit3 n))) p) (l.map (projElim (elimLoop (some (unit3 n))))) ||
        (polyEdges l).any fun ed => onSegment (projElim (elimLoop (some (unit3 n))) p)
          (projElim (elimLoop (some (unit3 n))) ed.1) (projElim (elimLoop (some (unit3 n))) ed.2))) := by
  have h3 := h.three
  have hd : (pt l 0).d = 3 := by
    match l, h with
    | a :: l, h => exact h.dim a (by simp)
  show insidePolygon 3 l.length l _ _ p = _
  unfold insidePolygon
  rw [if_neg (by rw [hp, hd]; simp)]
  generalize elimLoop (some (unit3 n)) = e
  by_cases ho : onPlane (some (unit3 n)) (pt l 0) p = true
  · rw [ho, if_neg (by simp), if_neg (by omega)]
    dsimp only
    rw [Bool.true_and, List.take_length]
    congr 2
    have := range_edges (l.map (projElim e)) (zero 0)
    rw [edges_map] at this
    have h2 : (polyEdges l).any (fun ed => onSegment (projElim e p) (projElim e ed.1) (projElim e ed.2)) =
        ((polyEdges l).map fun ed => (projElim e ed.1, projElim e ed.2)).any fun x => onSegment (projElim e p) x.1 x.2 := by
      rw [List.any_map]; rfl
    rw [h2, ← this, List.any_map, List.length_map]
    rfl
  · rw [Bool.not_eq_true] at ho
    rw [ho]
    rfl

/-- the largest component -/
noncomputable def maxComp (n : Point) : ℝ := max (max n.x n.y) n.z

theorem elim_max {n : Point} (hN : 0 < inner3 n n) :
    elimLoop (some (unit3 n)) < 3 ∧ n.coord (elimLoop (some (unit3 n))) = maxComp n := by
  obtain ⟨h1, h2⟩ := elim_spec (unit3_unit hN)
  refine ⟨h1, ?_⟩
  have hs := Real.sqrt_pos.2 hN
  generalize elimLoop (some (unit3 n)) = e at *
  have h3 : ∀ i, i < 3 → n.coord i ≤ n.coord e := by
    intro i hi
    have := h2 i hi
    rw [unit3_coord, unit3_coord] at this
    exact (div_le_div_iff_of_pos_right hs).1 this
  have a0 := h3 0 (by omega)
  have a1 := h3 1 (by omega)
  have a2 := h3 2 (by omega)
  apply le_antisymm
  · unfold maxComp
    rcases (by omega : e = 0 ∨ e = 1 ∨ e = 2) with rfl | rfl | rfl
    · exact (le_max_left _ _).trans (le_max_left _ _)
    · exact (le_max_right _ _).trans (le_max_left _ _)
    · exact le_max_right _ _
  · exact max_le (max_le a0 a1) a2

theorem unit3_inner (n w : Point) : inner3 (unit3 n) w = inner3 n w / Real.sqrt (inner3 n n) := by
  unfold unit3
  generalize Real.sqrt (inner3 n n) = s
  simp only [inner3]
  ring

theorem interior_contained (name : String) (id : Nat) (lc : LifeCycle) {n p : Point} {l : List Point} (h : ConvexInSpace n l)
    (hp : InteriorInSpace n l p) : (convexRegion name id lc n l).inside p = .value true := by
  have hN := inner3_pos h
  obtain ⟨he, hM⟩ := elim_max hN
  have h3 := h.three
  rw [convexRegion_inside name id lc h p hp.1]
  generalize elimLoop (some (unit3 n)) = e at *
  have hpl : onPlane (some (unit3 n)) (pt l 0) p = true := by
    rw [onPlane_iff _ _ _ hp.1, unit3_inner]
    have : pt l 0 ∈ l := by
      match l with
      | a :: l => simp [pt]
    rw [hp.2.1 _ this]
    norm_num
  rw [hpl, Bool.true_and]
  congr 1
  rw [Bool.or_eq_true]
  by_cases hn : n.coord e = 0
  · right
    obtain ⟨ed, hed, hs⟩ := degenerate_proj h hp e he hn
    exact List.any_eq_true.2 ⟨ed, hed, hs⟩
  · left
    apply (proj_inside h e he hn _).1
    intro ed hed
    have hm := mem_edges_l hed
    have h1 := proj_orient e he n ed.1 ed.2 p (h.planar _ hm.1 _ hm.2) (hp.2.1 _ hm.1)
    have h2 := hp.2.2 ed hed
    have h3 : orient2 (projElim e p) (projElim e ed.1) (projElim e ed.2) = orient2 (projElim e ed.1) (projElim e ed.2) (projElim e p) := by
      simp only [orient2]; ring
    rw [h3]
    have h4 : (n.coord e * orient2 (projElim e ed.1) (projElim e ed.2) (projElim e p)) * inner3 n n =
        (n.coord e * n.coord e) * det3 (vec ed.1 ed.2) (vec ed.1 p) n := by rw [mul_assoc, h1]; ring
    have h5 := mul_pos (mul_self_pos.2 hn) h2
    rw [← h4] at h5
    exact pos_of_mul_pos_left h5 hN.le

/-- `p` moved along coordinate direction `e` -/
noncomputable def shift (e : Nat) (p : Point) (δ : ℝ) : Point :=
  ⟨3, p.x - (if e = 0 then δ else 0), p.y - (if e = 1 then δ else 0), p.z - (if e = 2 then δ else 0)⟩

theorem shift_facts (e : Nat) (he : e < 3) (p : Point) (δ : ℝ) :
    projElim e (shift e p δ) = projElim e p ∧ dist2 p (shift e p δ) = δ ^ 2 ∧
    ∀ n v : Point, inner3 n (vec v (shift e p δ)) = inner3 n (vec v p) - n.coord e * δ := by
  rcases (by omega : e = 0 ∨ e = 1 ∨ e = 2) with rfl | rfl | rfl
  · refine ⟨?_, ?_, ?_⟩
    · simp [projElim, shift, Point.coord]
    · simp [dist2, inner3, vec, shift]; ring
    · intro n v; simp [inner3, vec, shift, Point.coord]; ring
  · refine ⟨?_, ?_, ?_⟩
    · simp [projElim, shift, Point.coord]
    · simp [dist2, inner3, vec, shift]; ring
    · intro n v; simp [inner3, vec, shift, Point.coord]; ring
  · refine ⟨?_, ?_, ?_⟩
    · simp [projElim, shift, Point.coord]
    · simp [dist2, inner3, vec, shift]; ring
    · intro n v; simp [inner3, vec, shift, Point.coord]; ring

theorem contained_near (name : String) (id : Nat) (lc : LifeCycle) {n p : Point} {l : List Point} (h : ConvexInSpace n l)
    (hM : maxComp n ≠ 0) (hd : p.d = 3) (hin : (convexRegion name id lc n l).inside p = .value true) :
    (∀ v ∈ l, inner3 n (vec v p) ^ 2 ≤ 1 / 10 ^ 24 * inner3 n n) ∧
    ∃ q, InPolygonInSpace n l q ∧ dist2 p q * maxComp n ^ 2 ≤ 3 / 10 ^ 16 * inner3 n n := by
  have hN := inner3_pos h
  obtain ⟨he, hMe⟩ := elim_max hN
  have h3 := h.three
  rw [convexRegion_inside name id lc h p hd] at hin
  rw [← hMe] at hM ⊢
  generalize elimLoop (some (unit3 n)) = e at *
  have hb := Res.value.inj hin
  rw [Bool.and_eq_true, onPlane_iff _ _ _ hd, unit3_inner, Bool.or_eq_true] at hb
  obtain ⟨hpl, hb⟩ := hb
  have h0 : pt l 0 ∈ l := by
    match l with
    | a :: l => simp [pt]
  have hs := Real.sqrt_pos.2 hN
  have hsame : ∀ v ∈ l, inner3 n (vec v p) = inner3 n (vec (pt l 0) p) := by
    intro v hv
    have := h.planar v hv _ h0
    simp only [inner3, vec] at this ⊢
    linarith
  obtain ⟨η, hη⟩ : ∃ η, η = inner3 n (vec (pt l 0) p) := ⟨_, rfl⟩
  rw [← hη] at hpl hsame
  have hη2 : η ^ 2 ≤ 1 / 10 ^ 24 * inner3 n n := by
    rw [abs_div, abs_of_pos hs, div_le_iff₀ hs] at hpl
    have h1 := mul_self_le_mul_self (abs_nonneg _) hpl
    rw [abs_mul_abs_self] at h1
    have h2 := Real.mul_self_sqrt hN.le
    have h3 : (1 / 10 ^ 12 * Real.sqrt (inner3 n n)) * (1 / 10 ^ 12 * Real.sqrt (inner3 n n)) =
      1 / 10 ^ 24 * (Real.sqrt (inner3 n n) * Real.sqrt (inner3 n n)) := by ring
    rw [h3, h2] at h1
    rw [sq]; exact h1
  refine ⟨fun v hv => by rw [hsame v hv]; exact hη2, ?_⟩
  rcases hb with hb | hb
  · -- the crossing test succeeded
    have hpos := (proj_inside h e he hM _).2 hb
    obtain ⟨f1, f2, f3⟩ := shift_facts e he p (η / n.coord e)
    have hpl' : ∀ v ∈ l, inner3 n (vec v (shift e p (η / n.coord e))) = 0 := by
      intro v hv
      rw [f3, hsame v hv]
      field_simp
      ring
    refine ⟨shift e p (η / n.coord e), ⟨rfl, hpl', ?_⟩, ?_⟩
    · intro ed hed
      have hm := mem_edges_l hed
      have h1 := proj_orient e he n ed.1 ed.2 (shift e p (η / n.coord e)) (h.planar _ hm.1 _ hm.2) (hpl' _ hm.1)
      rw [f1] at h1
      have h2 := hpos ed hed
      have h3 : orient2 (projElim e p) (projElim e ed.1) (projElim e ed.2) = orient2 (projElim e ed.1) (projElim e ed.2) (projElim e p) := by
        simp only [orient2]; ring
      rw [h3] at h2
      have h4 : (n.coord e * orient2 (projElim e ed.1) (projElim e ed.2) (projElim e p)) * inner3 n n =
          (n.coord e * n.coord e) * det3 (vec ed.1 ed.2) (vec ed.1 (shift e p (η / n.coord e))) n := by rw [mul_assoc, h1]; ring
      have h5 := mul_nonneg h2 hN.le
      rw [h4] at h5
      exact nonneg_of_mul_nonneg_right h5 (mul_self_pos.2 hM)
    · rw [f2]
      have : (η / n.coord e) ^ 2 * n.coord e ^ 2 = η ^ 2 := by field_simp
      rw [this]
      have : (1 : ℝ) / 10 ^ 24 * inner3 n n ≤ 3 / 10 ^ 16 * inner3 n n := mul_le_mul_of_nonneg_right (by norm_num) hN.le
      linarith
  · -- the point is near the projection of an edge
    obtain ⟨⟨a, b⟩, hab, hon⟩ := List.any_eq_true.1 hb
    have hm := mem_edges_l hab
    rw [onSegment_iff _ _ _ rfl rfl rfl] at hon
    obtain ⟨_, s, hs0, hs1, _, hlt⟩ := hon
    dsimp only at hlt hm
    obtain ⟨q, hq⟩ : ∃ q : Point, q = ⟨3, a.x + s * (b.x - a.x), a.y + s * (b.y - a.y), a.z + s * (b.z - a.z)⟩ := ⟨_, rfl⟩
    refine ⟨q, ⟨by rw [hq], ?_, ?_⟩, ?_⟩
    · intro v hv
      have k1 := h.planar v hv a hm.1
      have k2 := h.planar v hv b hm.2
      rw [hq]
      simp only [inner3, vec] at k1 k2 ⊢
      linear_combination (1 - s) * k1 + s * k2
    · intro ed hed
      have k : ∀ v ∈ l, 0 ≤ det3 (vec ed.1 ed.2) (vec ed.1 v) n := by
        intro v hv
        rcases h.left ed hed v hv with rfl | rfl | hh
        · simp [det3, vec]
        · apply le_of_eq; simp only [det3, vec]; ring
        · exact hh.le
      have k1 := mul_nonneg (by linarith : 0 ≤ 1 - s) (k a hm.1)
      have k2 := mul_nonneg hs0 (k b hm.2)
      have : det3 (vec ed.1 ed.2) (vec ed.1 q) n =
          (1 - s) * det3 (vec ed.1 ed.2) (vec ed.1 a) n + s * det3 (vec ed.1 ed.2) (vec ed.1 b) n := by
        rw [hq]; simp only [det3, vec]; ring
      rw [this]; linarith
    · have hw : inner3 n (vec q p) = η := by
        have k1 := hsame a hm.1
        have k2 := hsame b hm.2
        rw [hq]
        simp only [inner3, vec] at k1 k2 ⊢
        linear_combination (1 - s) * k1 + s * k2
      have gen : ∀ α β γ ne n0 n1 : ℝ, α ^ 2 + β ^ 2 < 1 / 10 ^ 16 → ne * γ + n0 * α + n1 * β = η →
          η ^ 2 ≤ 1 / 10 ^ 24 * (ne * ne + n0 * n0 + n1 * n1) →
          (α ^ 2 + β ^ 2 + γ ^ 2) * ne ^ 2 ≤ 3 / 10 ^ 16 * (ne * ne + n0 * n0 + n1 * n1) := by
        intro α β γ ne n0 n1 h1 h2 h3
        have c1 : (n0 * α + n1 * β) ^ 2 ≤ (n0 * n0 + n1 * n1) * (α ^ 2 + β ^ 2) := by nlinarith [sq_nonneg (n0 * β - n1 * α)]
        have c2 : (ne * γ) ^ 2 ≤ 2 * η ^ 2 + 2 * (n0 * α + n1 * β) ^ 2 := by
          have : ne * γ = η - (n0 * α + n1 * β) := by linarith
          rw [this]; nlinarith [sq_nonneg (η + (n0 * α + n1 * β))]
        have c3 : (n0 * n0 + n1 * n1) * (α ^ 2 + β ^ 2) ≤ (n0 * n0 + n1 * n1) * (1 / 10 ^ 16) :=
          mul_le_mul_of_nonneg_left h1.le (add_nonneg (mul_self_nonneg _) (mul_self_nonneg _))
        have c4 : (α ^ 2 + β ^ 2) * ne ^ 2 ≤ 1 / 10 ^ 16 * ne ^ 2 := mul_le_mul_of_nonneg_right h1.le (sq_nonneg _)
        have c5 := mul_self_nonneg ne
        have c6 := mul_self_nonneg n0
        have c7 := mul_self_nonneg n1
        have c8 : (α ^ 2 + β ^ 2 + γ ^ 2) * ne ^ 2 = (α ^ 2 + β ^ 2) * ne ^ 2 + (ne * γ) ^ 2 := by ring
        rw [c8]
        have c9 : ne ^ 2 = ne * ne := sq ne
        rw [c9] at c4
        rw [c9]
        norm_num at *
        linarith
      have hqx : q.x = a.x + s * (b.x - a.x) := by rw [hq]
      have hqy : q.y = a.y + s * (b.y - a.y) := by rw [hq]
      have hqz : q.z = a.z + s * (b.z - a.z) := by rw [hq]
      have e0 : dist2 p q = (p.x - q.x) ^ 2 + (p.y - q.y) ^ 2 + (p.z - q.z) ^ 2 := by
        simp only [dist2, inner3, vec]; ring
      simp only [inner3, vec] at hw
      have hη3 : η ^ 2 ≤ 1 / 10 ^ 24 * (n.x * n.x + n.y * n.y + n.z * n.z) := hη2
      show dist2 p q * n.coord e ^ 2 ≤ 3 / 10 ^ 16 * (n.x * n.x + n.y * n.y + n.z * n.z)
      rw [e0]
      rcases (by omega : e = 0 ∨ e = 1 ∨ e = 2) with rfl | rfl | rfl
      · simp only [projElim, mk2, Point.coord] at hlt ⊢
        have hl' : (p.y - q.y) ^ 2 + (p.z - q.z) ^ 2 < 1 / 10 ^ 16 := by rw [hqy, hqz]; convert hlt using 2 <;> ring
        have := gen (p.y - q.y) (p.z - q.z) (p.x - q.x) n.x n.y n.z hl' (by linarith) (by linarith)
        linarith
      · simp only [projElim, mk2, Point.coord] at hlt ⊢
        have hl' : (p.z - q.z) ^ 2 + (p.x - q.x) ^ 2 < 1 / 10 ^ 16 := by rw [hqx, hqz]; convert hlt using 2 <;> ring
        have := gen (p.z - q.z) (p.x - q.x) (p.y - q.y) n.y n.z n.x hl' (by linarith) (by linarith)
        linarith
      · simp only [projElim, mk2, Point.coord] at hlt ⊢
        have hl' : (p.x - q.x) ^ 2 + (p.y - q.y) ^ 2 < 1 / 10 ^ 16 := by rw [hqx, hqy]; convert hlt using 2 <;> ring
        have := gen (p.x - q.x) (p.y - q.y) (p.z - q.z) n.z n.x n.y hl' (by linarith) (by linarith)
        linarith

theorem rotate_inside (name : String) (id : Nat) (lc : LifeCycle) {n : Point} {l : List Point} (h : ConvexInSpace n l) (k : Nat) (p : Point) :
    (convexRegion name id lc n (l.rotate k)).inside p = (convexRegion name id lc n l).inside p := by
  have h' := convex_rotate h k
  have hl3 := h.three
  by_cases hp : p.d = 3
  · rw [convexRegion_inside name id lc h p hp, convexRegion_inside name id lc h' p hp]
    generalize elimLoop (some (unit3 n)) = e
    have m0 : pt l 0 ∈ l := by
      match l with
      | a :: l => simp [pt]
    have m1 : pt (l.rotate k) 0 ∈ l := by
      rw [← List.mem_rotate (n := k)]
      match hr : l.rotate k with
      | [] => have := h'.three; rw [hr] at this; simp at this
      | a :: _ => simp [pt]
    congr 1
    have ha : onPlane (some (unit3 n)) (pt (l.rotate k) 0) p = onPlane (some (unit3 n)) (pt l 0) p := by
      rw [Bool.eq_iff_iff, onPlane_iff _ _ _ hp, onPlane_iff _ _ _ hp, unit3_inner, unit3_inner]
      have := h.planar _ m0 _ m1
      have : inner3 n (vec (pt (l.rotate k) 0) p) = inner3 n (vec (pt l 0) p) := by
        simp only [inner3, vec] at this ⊢
        linarith
      rw [this]
    have hb : pointInPolygon (projElim e p) ((l.rotate k).map (projElim e)) = pointInPolygon (projElim e p) (l.map (projElim e)) := by
      rw [List.map_rotate, (point_in_polygon_invariant _ _ k).1]
    have hc : ∀ f : Point × Point → Bool, (polyEdges (l.rotate k)).any f = (polyEdges l).any f := by
      intro f
      rw [Bool.eq_iff_iff, List.any_eq_true, List.any_eq_true]
      constructor
      · rintro ⟨x, hx, hf⟩; exact ⟨x, (edges_rotate l k).mem_iff.1 hx, hf⟩
      · rintro ⟨x, hx, hf⟩; exact ⟨x, (edges_rotate l k).mem_iff.2 hx, hf⟩
    rw [ha, hb, hc]
  · have hx : ∀ l', ConvexInSpace n l' → (convexRegion name id lc n l').inside p = .undefined := by
      intro l' h'
      have hd : (pt l' 0).d = 3 := by
        have := h'.three
        match l', h' with
        | a :: l, h => exact h.dim a (by simp)
      show insidePolygon 3 l'.length l' _ _ p = _
      unfold insidePolygon
      rw [if_pos (.inl (by rw [hd]; exact hp))]
    rw [hx _ h, hx _ h']

end Jali.Geom
