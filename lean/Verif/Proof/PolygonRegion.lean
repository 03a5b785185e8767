import Verif.Proof.Regions
import Verif.Proof.PointInPolygon
import Verif.Props.PointInPolygon
import Mathlib.Tactic.FieldSimp
import Mathlib.Tactic.LinearCombination
/-! Projection of plane polygons in space to a coordinate plane. -/
namespace Jali.Geom
open Spec Point

theorem inner3_pos {l : List Point} {n : Point} (h : ConvexInSpace n l) : 0 < inner3 n n := by
  have h3 := h.three
  match l, h with
  | p0 :: p1 :: p2 :: rest, h =>
    have hnd := h.nodup
    simp only [List.nodup_cons, List.mem_cons, not_or] at hnd
    rcases h.left (p1, p2) (by simp [polyEdges, List.rotate_cons_succ]) p0 (by simp)
      with h1 | h1 | h1
    · exact absurd h1 hnd.1.1
    · exact absurd h1 hnd.1.2.1
    · by_contra hn
      have hx := mul_self_nonneg n.x
      have hy := mul_self_nonneg n.y
      have hz := mul_self_nonneg n.z
      unfold inner3 at hn
      have ex : n.x = 0 := mul_self_eq_zero.1 (by linarith)
      have ey : n.y = 0 := mul_self_eq_zero.1 (by linarith)
      have ez : n.z = 0 := mul_self_eq_zero.1 (by linarith)
      unfold det3 at h1
      rw [ex, ey, ez] at h1
      linarith

/-- the components of the cross product of two vectors perpendicular to `n` -/
theorem cross_parallel (n u w : Point) (hu : inner3 n u = 0) (hw : inner3 n w = 0) :
    (u.y * w.z - u.z * w.y) * inner3 n n = n.x * det3 u w n ∧
    (u.z * w.x - u.x * w.z) * inner3 n n = n.y * det3 u w n ∧
    (u.x * w.y - u.y * w.x) * inner3 n n = n.z * det3 u w n := by
  unfold inner3 at *
  unfold det3
  refine ⟨?_, ?_, ?_⟩
  · linear_combination (-(n.y * u.z - n.z * u.y)) * hw + (n.y * w.z - n.z * w.y) * hu
  · linear_combination (-(n.z * u.x - n.x * u.z)) * hw + (n.z * w.x - n.x * w.z) * hu
  · linear_combination (-(n.x * u.y - n.y * u.x)) * hw + (n.x * w.y - n.y * w.x) * hu

theorem proj_orient (e : Nat) (he : e < 3) (n a b c : Point) (hb : inner3 n (vec a b) = 0) (hc : inner3 n (vec a c) = 0) :
    orient2 (projElim e a) (projElim e b) (projElim e c) * inner3 n n = n.coord e * det3 (vec a b) (vec a c) n := by
  obtain ⟨h0, h1, h2⟩ := cross_parallel n (vec a b) (vec a c) hb hc
  rcases (by omega : e = 0 ∨ e = 1 ∨ e = 2) with rfl | rfl | rfl
  · rw [show n.coord 0 = n.x from rfl, ← h0]; simp only [orient2, projElim, mk2, vec, Point.coord]; ring
  · rw [show n.coord 1 = n.y from rfl, ← h1]; simp only [orient2, projElim, mk2, vec, Point.coord]; ring
  · rw [show n.coord 2 = n.z from rfl, ← h2]; simp only [orient2, projElim, mk2, vec, Point.coord]; ring

theorem proj_inj (e : Nat) (he : e < 3) (n a b : Point) (ha : a.d = 3) (hb : b.d = 3) (hp : inner3 n (vec a b) = 0)
    (hn : n.coord e ≠ 0) (h : projElim e a = projElim e b) : a = b := by
  unfold inner3 vec at hp
  rcases (by omega : e = 0 ∨ e = 1 ∨ e = 2) with rfl | rfl | rfl
  · have h1 : a.y = b.y := congrArg Point.x h
    have h2 : a.z = b.z := congrArg Point.y h
    have : b.x - a.x = 0 := by
      have : n.x * (b.x - a.x) = 0 := by simpa [h1, h2] using hp
      exact (mul_eq_zero.1 this).resolve_left hn
    exact Point.ext (ha.trans hb.symm) (by linarith) h1 h2
  · have h1 : a.z = b.z := congrArg Point.x h
    have h2 : a.x = b.x := congrArg Point.y h
    have : b.y - a.y = 0 := by
      have : n.y * (b.y - a.y) = 0 := by simpa [h1, h2] using hp
      exact (mul_eq_zero.1 this).resolve_left hn
    exact Point.ext (ha.trans hb.symm) h2 (by linarith) h1
  · have h1 : a.x = b.x := (congrArg Point.x h : (projElim 2 a).x = (projElim 2 b).x)
    have h2 : a.y = b.y := (congrArg Point.y h : (projElim 2 a).y = (projElim 2 b).y)
    have : b.z - a.z = 0 := by
      have : n.z * (b.z - a.z) = 0 := by simpa [h1, h2] using hp
      exact (mul_eq_zero.1 this).resolve_left hn
    exact Point.ext (ha.trans hb.symm) h1 h2 (by linarith)

theorem proj_nodup {l : List Point} {n : Point} (h : ConvexInSpace n l) (e : Nat) (he : e < 3) (hn : n.coord e ≠ 0) :
    (l.map (projElim e)).Nodup :=
  (List.nodup_map_iff_inj_on h.nodup).2 fun a ha b hb hab =>
    proj_inj e he n a b (h.dim a ha) (h.dim b hb) (h.planar a ha b hb) hn hab

/-- the projection of the polygon is convex if the normal has a positive component in the direction of projection -/
theorem proj_convex {l : List Point} {n : Point} (h : ConvexInSpace n l) (e : Nat) (he : e < 3) (hn : 0 < n.coord e) :
    StrictlyConvex (l.map (projElim e)) := by
  refine ⟨proj_nodup h e he hn.ne', ?_⟩
  intro ed hed v hv
  rw [edges_map] at hed
  obtain ⟨⟨a, b⟩, hab, rfl⟩ := List.mem_map.1 hed
  obtain ⟨c, hc, rfl⟩ := List.mem_map.1 hv
  have hm := mem_edges_l hab
  rcases h.left (a, b) hab c hc with rfl | rfl | hl
  · exact .inl rfl
  · exact .inr (.inl rfl)
  · right; right
    have := proj_orient e he n a b c (h.planar _ hm.1 _ hm.2) (h.planar _ hm.1 _ hc)
    have hp := mul_pos hn hl
    rw [← this] at hp
    exact pos_of_mul_pos_left hp (inner3_pos h).le

/-- the polygon seen from the other side -/
def opp (n : Point) : Point := ⟨n.d, -n.x, -n.y, -n.z⟩

theorem opp_coord (n : Point) (i : Nat) : (opp n).coord i = -n.coord i := by
  match i with
  | 0 | 1 | _ + 2 => rfl

theorem convex_reverse {l : List Point} {n : Point} (h : ConvexInSpace n l) : ConvexInSpace (opp n) l.reverse := by
  refine ⟨by simpa using h.three, fun v hv => h.dim v (List.mem_reverse.1 hv), List.nodup_reverse.2 h.nodup, ?_, ?_⟩
  · intro v hv w hw
    have := h.planar v (List.mem_reverse.1 hv) w (List.mem_reverse.1 hw)
    simp only [inner3, opp] at this ⊢
    linarith
  · intro e he v hv
    have he' := (edges_reverse l).mem_iff.1 he
    obtain ⟨⟨a, b⟩, hab, rfl⟩ := List.mem_map.1 he'
    rcases h.left (a, b) hab v (List.mem_reverse.1 hv) with h1 | h1 | h1
    · exact .inr (.inl h1)
    · exact .inl h1
    · right; right
      simp only [det3, vec, opp, Prod.swap] at h1 ⊢
      linarith

theorem convex_rotate {l : List Point} {n : Point} (h : ConvexInSpace n l) (k : Nat) : ConvexInSpace n (l.rotate k) := by
  refine ⟨by simpa using h.three, fun v hv => h.dim v (List.mem_rotate.1 hv), List.nodup_rotate.2 h.nodup, ?_, ?_⟩
  · intro v hv w hw
    exact h.planar v (List.mem_rotate.1 hv) w (List.mem_rotate.1 hw)
  · intro e he v hv
    exact h.left e ((edges_rotate l k).mem_iff.1 he) v (List.mem_rotate.1 hv)

theorem interior_reverse {l : List Point} {n p : Point} (h : InteriorInSpace n l p) : InteriorInSpace (opp n) l.reverse p := by
  refine ⟨h.1, ?_, ?_⟩
  · intro v hv
    have := h.2.1 v (List.mem_reverse.1 hv)
    simp only [inner3, opp] at this ⊢
    linarith
  · intro e he
    obtain ⟨⟨a, b⟩, hab, rfl⟩ := List.mem_map.1 ((edges_reverse l).mem_iff.1 he)
    have h1 := h.2.2 (a, b) hab
    have h2 := h.2.1 a (mem_edges_l hab).1
    simp only [det3, vec, opp, Prod.swap, inner3] at h1 h2 ⊢
    have h3 : n.x * (p.x - b.x) + n.y * (p.y - b.y) + n.z * (p.z - b.z) = 0 := h.2.1 b (mem_edges_l hab).2
    linarith

/-- the crossing test on the projected polygon, for polygons seen from either side -/
theorem proj_inside {l : List Point} {n : Point} (h : ConvexInSpace n l) (e : Nat) (he : e < 3) (hn : n.coord e ≠ 0) (t : Point) :
    ((∀ ed ∈ polyEdges l, 0 < n.coord e * orient2 t (projElim e ed.1) (projElim e ed.2)) → pointInPolygon t (l.map (projElim e)) = true) ∧
    (pointInPolygon t (l.map (projElim e)) = true → ∀ ed ∈ polyEdges l, 0 ≤ n.coord e * orient2 t (projElim e ed.1) (projElim e ed.2)) := by
  have hlen := h.three
  rcases lt_or_gt_of_ne hn with hneg | hpos
  · have hc := proj_convex (convex_reverse h) e he (by rw [opp_coord]; linarith)
    rw [List.map_reverse] at hc
    obtain ⟨h1, h2⟩ := point_in_polygon_convex t _ hc (by intro e0; have := congrArg List.length e0; simp at this; simp [this] at hlen)
    rw [(point_in_polygon_invariant t (l.map (projElim e)) 0).2] at h1 h2
    have hed : ∀ x y, (x, y) ∈ polyEdges l ↔ (y, x) ∈ polyEdges l.reverse := by
      intro x y
      rw [(edges_reverse l).mem_iff]
      constructor
      · intro hh; exact List.mem_map.2 ⟨(x, y), hh, rfl⟩
      · intro hh
        obtain ⟨⟨a, b⟩, hab, hq⟩ := List.mem_map.1 hh
        cases hq
        exact hab
    have ho : ∀ a b : Point, orient2 t b a = -orient2 t a b := by intro a b; simp only [orient2]; ring
    rw [← List.map_reverse, edges_map] at h1 h2
    constructor
    · intro hh
      apply h1
      intro ed hm
      obtain ⟨⟨a, b⟩, hab, rfl⟩ := List.mem_map.1 hm
      have := hh (b, a) ((hed b a).2 hab)
      dsimp only at this ⊢
      rw [ho] at this
      by_contra hcon
      have := mul_nonneg_of_nonpos_of_nonpos hneg.le (not_lt.1 hcon)
      linarith
    · intro hh ed hm
      have := h2 hh _ (List.mem_map.2 ⟨(ed.2, ed.1), (hed ed.1 ed.2).1 hm, rfl⟩)
      dsimp only at this
      rw [ho] at this
      exact mul_nonneg_of_nonpos_of_nonpos hneg.le (by linarith)
  · have hc := proj_convex h e he hpos
    obtain ⟨h1, h2⟩ := point_in_polygon_convex t _ hc (by intro e0; have := congrArg List.length e0; simp at this; simp [this] at hlen)
    rw [edges_map] at h1 h2
    constructor
    · intro hh
      apply h1
      intro ed hm
      obtain ⟨⟨a, b⟩, hab, rfl⟩ := List.mem_map.1 hm
      exact pos_of_mul_pos_right (hh _ hab) hpos.le
    · intro hh ed hm
      exact mul_nonneg hpos.le (h2 hh _ (List.mem_map.2 ⟨ed, hm, rfl⟩))

/-- the unit vector in the direction of `n` -/
noncomputable def unit3 (n : Point) : Point :=
  ⟨3, n.x / Real.sqrt (inner3 n n), n.y / Real.sqrt (inner3 n n), n.z / Real.sqrt (inner3 n n)⟩

theorem unit3_coord (n : Point) (i : Nat) : (unit3 n).coord i = n.coord i / Real.sqrt (inner3 n n) := by
  match i with
  | 0 | 1 | _ + 2 => rfl

/-- the normal computed at the second vertex -/
theorem corner_normal {n p0 p1 p2 : Point} {rest : List Point} (h : ConvexInSpace n (p0 :: p1 :: p2 :: rest)) :
    normalize (cross (p2 - p1) (p0 - p1)) = some (unit3 n) := by
  have hN := inner3_pos h
  have hnd := h.nodup
  simp only [List.nodup_cons, List.mem_cons, not_or] at hnd
  have hdet : 0 < det3 (vec p1 p2) (vec p1 p0) n := by
    rcases h.left (p1, p2) (by simp [polyEdges, List.rotate_cons_succ]) p0 (by simp)
      with h1 | h1 | h1
    · exact absurd h1 hnd.1.1
    · exact absurd h1 hnd.1.2.1
    · exact h1
  obtain ⟨hx, hy, hz⟩ := cross_parallel n (vec p1 p2) (vec p1 p0) (h.planar _ (by simp) _ (by simp)) (h.planar _ (by simp) _ (by simp))
  obtain ⟨c, hc⟩ : ∃ c, c = det3 (vec p1 p2) (vec p1 p0) n / inner3 n n := ⟨_, rfl⟩
  have hcpos : 0 < c := by rw [hc]; exact div_pos hdet hN
  have hcr : cross (p2 - p1) (p0 - p1) = ⟨3, c * n.x, c * n.y, c * n.z⟩ := by
    rw [sub3 p1 (h.dim p2 (by simp)), sub3 p1 (h.dim p0 (by simp)), cross3]
    simp only [vec] at hx hy hz hc
    refine Point.ext rfl ?_ ?_ ?_
    · rw [hc]; dsimp only; field_simp; linarith
    · rw [hc]; dsimp only; field_simp; linarith
    · rw [hc]; dsimp only; field_simp; linarith
  have hnorm : Point.norm ⟨3, c * n.x, c * n.y, c * n.z⟩ = c * Real.sqrt (inner3 n n) := by
    unfold Point.norm
    rw [dot3, show c * n.x * (c * n.x) + c * n.y * (c * n.y) + c * n.z * (c * n.z) = c ^ 2 * inner3 n n by unfold inner3; ring,
      Real.sqrt_mul (sq_nonneg c), Real.sqrt_sq hcpos.le]
  have hs := Real.sqrt_pos.2 hN
  unfold normalize
  rw [hcr, hnorm, if_neg (mul_pos hcpos hs).ne']
  congr 1
  unfold divAssign unit3
  refine Point.ext rfl ?_ ?_ ?_
  · simp; rw [mul_div_mul_left _ _ hcpos.ne']
  · simp; rw [mul_div_mul_left _ _ hcpos.ne']
  · simp; rw [mul_div_mul_left _ _ hcpos.ne']

theorem unit3_unit {n : Point} (h : 0 < inner3 n n) : inner3 (unit3 n) (unit3 n) = 1 := by
  have hs := Real.sqrt_pos.2 h
  unfold unit3
  simp only [inner3] at *
  have := Real.mul_self_sqrt h.le
  generalize Real.sqrt (n.x * n.x + n.y * n.y + n.z * n.z) = s at *
  have hs' := hs.ne'
  rw [div_mul_div_comm, div_mul_div_comm, div_mul_div_comm, ← add_div, ← add_div, this, div_self h.ne']

/-- the direction of elimination is a direction in which the normal is largest -/
theorem elim_spec {u : Point} (h : inner3 u u = 1) :
    elimLoop (some u) < 3 ∧ ∀ i, i < 3 → u.coord i ≤ u.coord (elimLoop (some u)) := by
  have hall : ¬ (u.x ≤ -1 ∧ u.y ≤ -1 ∧ u.z ≤ -1) := by
    rintro ⟨h1, h2, h3⟩
    unfold inner3 at h
    nlinarith
  have hi : ∀ i, i < 3 → (i = 0 ∨ i = 1 ∨ i = 2) := by intro i hi; omega
  have hx : -1 ≤ u.x := by unfold inner3 at h; nlinarith [mul_self_nonneg u.y, mul_self_nonneg u.z, mul_self_nonneg u.x]
  have hy : -1 ≤ u.y := by unfold inner3 at h; nlinarith [mul_self_nonneg u.y, mul_self_nonneg u.z, mul_self_nonneg u.x]
  have hz : -1 ≤ u.z := by unfold inner3 at h; nlinarith [mul_self_nonneg u.y, mul_self_nonneg u.z, mul_self_nonneg u.x]
  unfold elimLoop
  simp only [List.range_succ, List.range_zero, List.nil_append, List.cons_append, List.foldl_cons, List.foldl_nil]
  simp only [Point.coord]
  split_ifs <;> dsimp only at * <;> first
    | (refine ⟨by omega, fun i h3 => ?_⟩; rcases hi i h3 with rfl | rfl | rfl <;> simp only [Point.coord] <;> linarith)
    | (exfalso; apply hall; refine ⟨?_, ?_, ?_⟩ <;> linarith)

/-! ### Points on segments -/

theorem onSegment_iff (t a b : Point) (ht : t.d = 2) (ha : a.d = 2) (hb : b.d = 2) :
    onSegment t a b = true ↔ (b.x ≠ a.x ∨ b.y ≠ a.y) ∧ ∃ s : ℝ, 0 ≤ s ∧ s ≤ 1 ∧
      (t.x - a.x - s * (b.x - a.x)) * (b.x - a.x) + (t.y - a.y - s * (b.y - a.y)) * (b.y - a.y) = 0 ∧
      (t.x - a.x - s * (b.x - a.x)) ^ 2 + (t.y - a.y - s * (b.y - a.y)) ^ 2 < 1 / 10 ^ 16 := by
  unfold onSegment
  rw [sub2 a hb, sub2 a ht]
  generalize hux : b.x - a.x = ux
  generalize huy : b.y - a.y = uy
  have hnorm : Point.norm ⟨2, ux, uy, 0⟩ = Real.sqrt (ux * ux + uy * uy) := by
    unfold Point.norm dot; simp
  dsimp only
  rw [hnorm]
  have hne : (b.x ≠ a.x ∨ b.y ≠ a.y) ↔ ux * ux + uy * uy ≠ 0 := by
    rw [← hux, ← huy]
    constructor
    · rintro (h | h) h0
      · have := mul_self_pos.2 (sub_ne_zero.2 h)
        have := mul_self_nonneg (b.y - a.y)
        linarith
      · have := mul_self_pos.2 (sub_ne_zero.2 h)
        have := mul_self_nonneg (b.x - a.x)
        linarith
    · intro h
      by_contra hh
      push Not at hh
      rw [hh.1, hh.2] at h
      simp at h
  rw [hne]
  have hnn : 0 ≤ ux * ux + uy * uy := add_nonneg (mul_self_nonneg _) (mul_self_nonneg _)
  generalize hL : Real.sqrt (ux * ux + uy * uy) = L
  have hLL : L * L = ux * ux + uy * uy := by rw [← hL]; exact Real.mul_self_sqrt hnn
  have hL0 : 0 ≤ L := by rw [← hL]; exact Real.sqrt_nonneg _
  by_cases h0 : L = 0
  · rw [if_pos h0]
    have : ux * ux + uy * uy = 0 := by rw [← hLL, h0, mul_zero]
    simp [this]
  · rw [if_neg h0]
    have hLpos : 0 < L := lt_of_le_of_ne hL0 (Ne.symm h0)
    have hn0 : ux * ux + uy * uy ≠ 0 := by rw [← hLL]; exact (mul_pos hLpos hLpos).ne'
    have hdiv : divAssign ⟨2, ux, uy, 0⟩ L = ⟨2, ux / L, uy / L, 0⟩ := by unfold divAssign; simp
    rw [hdiv]
    have hdot : dot ⟨2, t.x - a.x, t.y - a.y, 0⟩ ⟨2, ux / L, uy / L, 0⟩ = ((t.x - a.x) * ux + (t.y - a.y) * uy) / L := by
      unfold dot; simp; ring
    rw [hdot]
    generalize hs : ((t.x - a.x) * ux + (t.y - a.y) * uy) / L / L = s
    have hdp : ((t.x - a.x) * ux + (t.y - a.y) * uy) / L = s * L := by rw [← hs]; field_simp
    have hsn : s * (ux * ux + uy * uy) = (t.x - a.x) * ux + (t.y - a.y) * uy := by
      rw [← hLL, ← hs]; field_simp
    rw [hdp]
    have hrange : (0 ≤ s * L ∧ s * L ≤ L) ↔ (0 ≤ s ∧ s ≤ 1) := by
      constructor
      · rintro ⟨h1, h2⟩
        refine ⟨nonneg_of_mul_nonneg_left h1 hLpos, ?_⟩
        by_contra h3
        have := mul_pos (sub_pos.2 (not_le.1 h3)) hLpos
        linarith
      · rintro ⟨h1, h2⟩
        exact ⟨mul_nonneg h1 hL0, by have := mul_le_mul_of_nonneg_right h2 hL0; linarith⟩
    have hfoot : L22 (t - (a + smul (s * L) ⟨2, ux / L, uy / L, 0⟩)) =
        (t.x - a.x - s * ux) ^ 2 + (t.y - a.y - s * uy) ^ 2 := by
      rw [smul2, add2 _ ha, sub2 _ ht]
      unfold L22 dot
      simp
      have e1 : s * L * (ux / L) = s * ux := by field_simp
      have e2 : s * L * (uy / L) = s * uy := by field_simp
      rw [e1, e2]; ring
    rw [hfoot]
    by_cases hr : 0 ≤ s * L ∧ s * L ≤ L
    · rw [if_pos hr, decide_eq_true_eq]
      constructor
      · intro hlt
        exact ⟨hn0, s, (hrange.1 hr).1, (hrange.1 hr).2, by linear_combination -hsn, hlt⟩
      · rintro ⟨_, s', _, _, h3, h4⟩
        have : s' = s := by
          apply mul_right_cancel₀ hn0
          linear_combination -h3 - hsn
        rw [← this]; exact h4
    · rw [if_neg hr]
      constructor
      · intro h; cases h
      · rintro ⟨_, s', h1, h2, h3, _⟩
        exfalso
        have : s' = s := by
          apply mul_right_cancel₀ hn0
          linear_combination -h3 - hsn
        rw [this] at h1 h2
        exact hr (hrange.2 ⟨h1, h2⟩)

/-- some edge reaches from below the interior point to above it, in whatever coordinates -/
theorem straddle (l : List Point) (hne : l ≠ []) (p : Point) (g : Point → Point) (σ : ℝ)
    (hor : ∀ ed ∈ polyEdges l, 0 < σ * orient2 (g p) (g ed.1) (g ed.2)) :
    ∃ ed ∈ polyEdges l, ((g ed.1).y ≤ (g p).y ∧ (g p).y < (g ed.2).y) ∨ ((g ed.2).y ≤ (g p).y ∧ (g p).y < (g ed.1).y) := by
  have hσ : σ ≠ 0 := by
    rintro rfl
    match l, hne with
    | a :: l, _ =>
      have hl : (polyEdges (a :: l)).length = (a :: l).length := edges_length _
      match hE : polyEdges (a :: l) with
      | [] => rw [hE] at hl; simp at hl
      | ed :: _ => have := hor ed (by rw [hE]; simp); linarith
  rcases lt_or_gt_of_ne hσ with hneg | hpos
  · obtain ⟨ed, hed, hup⟩ := inside_has_up (l := (l.map g).reverse) (g p) (by simpa using hne) (by
      intro e he
      obtain ⟨⟨a', b'⟩, hab', rfl⟩ := List.mem_map.1 ((edges_reverse (l.map g)).mem_iff.1 he)
      rw [edges_map] at hab'
      obtain ⟨⟨a, b⟩, hab, hq⟩ := List.mem_map.1 hab'
      cases hq
      have h1 := hor (a, b) hab
      have : orient2 (g p) (g b) (g a) = - orient2 (g p) (g a) (g b) := by simp only [orient2]; ring
      show 0 < orient2 (g p) (g b) (g a)
      rw [this]
      dsimp only at h1
      by_contra hc
      have := mul_nonneg_of_nonpos_of_nonpos hneg.le (by linarith : -orient2 (g p) (g a) (g b) ≤ 0)
      linarith)
    obtain ⟨⟨a', b'⟩, hab', rfl⟩ := List.mem_map.1 ((edges_reverse (l.map g)).mem_iff.1 hed)
    rw [edges_map] at hab'
    obtain ⟨⟨a, b⟩, hab, hq⟩ := List.mem_map.1 hab'
    cases hq
    exact ⟨(a, b), hab, .inr hup⟩
  · obtain ⟨ed, hed, hup⟩ := inside_has_up (l := l.map g) (g p) (by simpa using hne) (by
      intro e he
      rw [edges_map] at he
      obtain ⟨⟨a, b⟩, hab, rfl⟩ := List.mem_map.1 he
      exact pos_of_mul_pos_right (hor (a, b) hab) hpos.le)
    rw [edges_map] at hed
    obtain ⟨⟨a, b⟩, hab, rfl⟩ := List.mem_map.1 hed
    exact ⟨(a, b), hab, .inl hup⟩

/-- a point between two others on a line, in coordinates where the second is a multiple of the first -/
theorem on_line (t a b : Point) (ht : t.d = 2) (ha : a.d = 2) (hb : b.d = 2) (f g : Point → ℝ)
    (hfg : (f = Point.x ∧ g = Point.y) ∨ (f = Point.y ∧ g = Point.x)) (c : ℝ)
    (h1 : g b - g a = c * (f b - f a)) (h2 : g t - g a = c * (f t - f a))
    (hst : (f a ≤ f t ∧ f t < f b) ∨ (f b ≤ f t ∧ f t < f a)) : onSegment t a b = true := by
  have hD : f b - f a ≠ 0 := by rcases hst with ⟨_, _⟩ | ⟨_, _⟩ <;> intro h0 <;> linarith
  rw [onSegment_iff t a b ht ha hb]
  generalize hs : (f t - f a) / (f b - f a) = s
  have hsD : s * (f b - f a) = f t - f a := by rw [← hs]; field_simp
  have hs0 : 0 ≤ s ∧ s ≤ 1 := by
    rw [← hs]
    rcases hst with ⟨h3, h4⟩ | ⟨h3, h4⟩
    · exact ⟨div_nonneg (by linarith) (by linarith), (div_le_one (by linarith)).2 (by linarith)⟩
    · exact ⟨div_nonneg_of_nonpos (by linarith) (by linarith), (div_le_one_of_neg (by linarith)).2 (by linarith)⟩
  have ef : f t - f a - s * (f b - f a) = 0 := by linarith
  have eg : g t - g a - s * (g b - g a) = 0 := by rw [h1, h2]; linear_combination -c * hsD
  rcases hfg with ⟨rfl, rfl⟩ | ⟨rfl, rfl⟩
  · refine ⟨.inl fun h => hD (by rw [h]; ring), s, hs0.1, hs0.2, ?_, ?_⟩
    · rw [ef, eg]; ring
    · rw [ef, eg]; norm_num
  · refine ⟨.inr fun h => hD (by rw [h]; ring), s, hs0.1, hs0.2, ?_, ?_⟩
    · rw [ef, eg]; ring
    · rw [ef, eg]; norm_num

/-- the projection in a direction parallel to the plane of the polygon: the interior points lie on the projection of an edge -/
theorem degenerate_proj {l : List Point} {n p : Point} (h : ConvexInSpace n l) (hp : InteriorInSpace n l p) (e : Nat) (he : e < 3)
    (hn : n.coord e = 0) : ∃ ed ∈ polyEdges l, onSegment (projElim e p) (projElim e ed.1) (projElim e ed.2) = true := by
  have hl3 := h.three
  have hne : l ≠ [] := by rintro rfl; simp at hl3
  have hN := inner3_pos h
  have hor : ∀ k, k < 3 → n.coord k ≠ 0 → ∀ ed ∈ polyEdges l, 0 < n.coord k * orient2 (projElim k p) (projElim k ed.1) (projElim k ed.2) := by
    intro k hk hk0 ed hed
    have hm := mem_edges_l hed
    have h1 := proj_orient k hk n ed.1 ed.2 p (h.planar _ hm.1 _ hm.2) (hp.2.1 _ hm.1)
    have h2 := hp.2.2 ed hed
    have h3 : orient2 (projElim k p) (projElim k ed.1) (projElim k ed.2) = orient2 (projElim k ed.1) (projElim k ed.2) (projElim k p) := by
      simp only [orient2]; ring
    rw [h3]
    have h4 : (n.coord k * orient2 (projElim k ed.1) (projElim k ed.2) (projElim k p)) * inner3 n n =
        (n.coord k * n.coord k) * det3 (vec ed.1 ed.2) (vec ed.1 p) n := by rw [mul_assoc, h1]; ring
    have h5 := mul_pos (mul_self_pos.2 hk0) h2
    rw [← h4] at h5
    exact pos_of_mul_pos_left h5 hN.le
  have hpl : ∀ ed ∈ polyEdges l, inner3 n (vec ed.1 ed.2) = 0 ∧ inner3 n (vec ed.1 p) = 0 := fun ed hed =>
    ⟨h.planar _ (mem_edges_l hed).1 _ (mem_edges_l hed).2, hp.2.1 _ (mem_edges_l hed).1⟩
  -- the two other directions
  have key : ∀ (d0 d1 : Nat), d0 < 3 → d1 < 3 → (∀ q, projElim e q = mk2 (q.coord d0) (q.coord d1)) →
      (∀ q, projElim d1 q = mk2 (q.coord e) (q.coord d0)) → (∀ q, projElim d0 q = mk2 (q.coord d1) (q.coord e)) →
      (∀ w, inner3 n w = n.coord e * w.coord e + n.coord d0 * w.coord d0 + n.coord d1 * w.coord d1) →
      (∀ a b i, (vec a b).coord i = b.coord i - a.coord i) → inner3 n n = n.coord e * n.coord e + n.coord d0 * n.coord d0 + n.coord d1 * n.coord d1 →
      ∃ ed ∈ polyEdges l, onSegment (projElim e p) (projElim e ed.1) (projElim e ed.2) = true := by
    intro d0 d1 hd0 hd1 pe pd1 pd0 hin hv hnn
    by_cases h1 : n.coord d1 = 0
    · have h0 : n.coord d0 ≠ 0 := by
        intro h0; rw [hn, h0, h1] at hnn; simp at hnn; linarith
      obtain ⟨ed, hed, hst⟩ := straddle l hne p (fun q => mk2 (q.coord e) (q.coord d1)) (-(n.coord d0)) (by
        intro ed hed
        have := hor d0 hd0 h0 ed hed
        rw [pd0, pd0, pd0] at this
        simp only [orient2, mk2] at this ⊢
        linarith)
      refine ⟨ed, hed, ?_⟩
      obtain ⟨k1, k2⟩ := hpl ed hed
      rw [hin, hn, h1, hv, hv, hv] at k1 k2
      rw [pe, pe, pe]
      refine on_line _ _ _ rfl rfl rfl Point.y Point.x (.inr ⟨rfl, rfl⟩) 0 ?_ ?_ hst
      · simp only [mk2, zero_mul]
        have : n.coord d0 * (ed.2.coord d0 - ed.1.coord d0) = 0 := by linarith
        exact (mul_eq_zero.1 this).resolve_left h0
      · simp only [mk2, zero_mul]
        have : n.coord d0 * (p.coord d0 - ed.1.coord d0) = 0 := by linarith
        exact (mul_eq_zero.1 this).resolve_left h0
    · obtain ⟨ed, hed, hst⟩ := straddle l hne p (fun q => mk2 (q.coord e) (q.coord d0)) (n.coord d1) (by
        intro ed hed
        have := hor d1 hd1 h1 ed hed
        rw [pd1, pd1, pd1] at this
        exact this)
      refine ⟨ed, hed, ?_⟩
      obtain ⟨k1, k2⟩ := hpl ed hed
      rw [hin, hn, hv, hv, hv] at k1 k2
      rw [pe, pe, pe]
      refine on_line _ _ _ rfl rfl rfl Point.x Point.y (.inl ⟨rfl, rfl⟩) (-(n.coord d0) / n.coord d1) ?_ ?_ hst
      · simp only [mk2]; field_simp; linarith
      · simp only [mk2]; field_simp; linarith
  have hv : ∀ a b i, (vec a b).coord i = b.coord i - a.coord i := by
    intro a b i
    match i with
    | 0 | 1 | _ + 2 => rfl
  rcases (by omega : e = 0 ∨ e = 1 ∨ e = 2) with rfl | rfl | rfl
  · exact key 1 2 (by omega) (by omega) (fun _ => rfl) (fun _ => rfl) (fun _ => rfl)
      (fun w => by simp only [inner3, Point.coord]) hv (by simp only [inner3, Point.coord])
  · exact key 2 0 (by omega) (by omega) (fun _ => rfl) (fun _ => rfl) (fun _ => rfl)
      (fun w => by simp only [inner3, Point.coord]; ring) hv (by simp only [inner3, Point.coord]; ring)
  · exact key 0 1 (by omega) (by omega) (fun _ => rfl) (fun _ => rfl) (fun _ => rfl)
      (fun w => by simp only [inner3, Point.coord]; ring) hv (by simp only [inner3, Point.coord]; ring)

end Jali.Geom
