import Verif.Props.EvenOdd
import Verif.Proof.PolygonRegion2
/-! The membership test of polygon regions in space, for polygons that need not be convex. -/
namespace Jali.Geom
open Spec Point

theorem planar_pos {l : List Point} {n : Point} (h : PlanarPolygon n l) : 0 < inner3 n n := by
  have h3 := h.three
  match l, h with
  | p0 :: p1 :: p2 :: rest, h =>
    have h1 := h.corner p0 p1 p2 rest rfl
    by_contra hn
    have hx := mul_self_nonneg n.x
    have hy := mul_self_nonneg n.y
    have hz := mul_self_nonneg n.z
    unfold inner3 at hn
    have ex : n.x = 0 := mul_self_eq_zero.1 (by linarith)
    have ey : n.y = 0 := mul_self_eq_zero.1 (by linarith)
    have ez : n.z = 0 := mul_self_eq_zero.1 (by linarith)
    unfold det3 at h1
    rw [ex, ey, ez] at h1
    linarith

theorem planar_normal {n p0 p1 p2 : Point} {rest : List Point} (h : PlanarPolygon n (p0 :: p1 :: p2 :: rest)) :
    normalize (cross (p2 - p1) (p0 - p1)) = some (unit3 n) := by
  have hN := planar_pos h
  have hdet : 0 < det3 (vec p1 p2) (vec p1 p0) n := h.corner p0 p1 p2 rest rfl
  obtain ⟨hx, hy, hz⟩ := cross_parallel n (vec p1 p2) (vec p1 p0) (h.planar _ (by simp) _ (by simp)) (h.planar _ (by simp) _ (by simp))
  obtain ⟨c, hc⟩ : ∃ c, c = det3 (vec p1 p2) (vec p1 p0) n / inner3 n n := ⟨_, rfl⟩
  have hcpos : 0 < c := by rw [hc]; exact div_pos hdet hN
  have hcr : cross (p2 - p1) (p0 - p1) = ⟨3, c * n.x, c * n.y, c * n.z⟩ := by
    rw [sub3 p1 (h.dim p2 (by simp)), sub3 p1 (h.dim p0 (by simp)), cross3]
    simp only [vec] at hx hy hz hc
    refine Point.ext rfl ?_ ?_ ?_
    · rw [hc]; dsimp only; field_simp; linarith
    · rw [hc]; dsimp only; field_simp; linarith
    · rw [hc]; dsimp only; field_simp; linarith
  have hnorm : Point.norm ⟨3, c * n.x, c * n.y, c * n.z⟩ = c * Real.sqrt (inner3 n n) := by
    unfold Point.norm
    rw [dot3, show c * n.x * (c * n.x) + c * n.y * (c * n.y) + c * n.z * (c * n.z) = c ^ 2 * inner3 n n by unfold inner3; ring,
      Real.sqrt_mul (sq_nonneg c), Real.sqrt_sq hcpos.le]
  have hs := Real.sqrt_pos.2 hN
  unfold normalize
  rw [hcr, hnorm, if_neg (mul_pos hcpos hs).ne']
  congr 1
  unfold divAssign unit3
  refine Point.ext rfl ?_ ?_ ?_
  · simp; rw [mul_div_mul_left _ _ hcpos.ne']
  · simp; rw [mul_div_mul_left _ _ hcpos.ne']
  · simp; rw [mul_div_mul_left _ _ hcpos.ne']

theorem mkPolygon_planar (name : String) (id : Nat) (lc : LifeCycle) {n : Point} {l : List Point} (h : PlanarPolygon n l) :
    mkPolygon name id l.length l lc = .value (convexRegion name id lc n l) := by
  have h3 := h.three
  match l, h with
  | p0 :: p1 :: p2 :: rest, h =>
    have hd := h.dim p0 (by simp)
    unfold mkPolygon convexRegion
    dsimp only
    rw [if_neg (by rw [hd]; omega), if_neg (by rw [hd]; omega), if_pos hd, planar_normal h]

theorem planarRegion_inside (name : String) (id : Nat) (lc : LifeCycle) {n : Point} {l : List Point} (h : PlanarPolygon n l) (p : Point)
    (hp : p.d = 3) : (convexRegion name id lc n l).inside p = .value (onPlane (some (unit3 n)) (pt l 0) p &&
      (pointInPolygon (projElim (elimLoop (some (unit3 n))) p) (l.map (projElim (elimLoop (some (unit3 n))))) ||
        (polyEdges l).any fun ed => onSegment (projElim (elimLoop (some (unit3 n))) p)
          (projElim (elimLoop (some (unit3 n))) ed.1) (projElim (elimLoop (some (unit3 n))) ed.2))) := by
  have h3 := h.three
  have hd : (pt l 0).d = 3 := by
    match l, h with
    | a :: l, h => exact h.dim a (by simp)
  show insidePolygon 3 l.length l _ _ p = _
  unfold insidePolygon
  rw [if_neg (by rw [hp, hd]; simp)]
  generalize elimLoop (some (unit3 n)) = e
  by_cases ho : onPlane (some (unit3 n)) (pt l 0) p = true
  · rw [ho, if_neg (by simp), if_neg (by omega)]
    dsimp only
    rw [Bool.true_and, List.take_length]
    congr 2
    have := range_edges (l.map (projElim e)) (zero 0)
    rw [edges_map] at this
    have h2 : (polyEdges l).any (fun ed => onSegment (projElim e p) (projElim e ed.1) (projElim e ed.2)) =
        ((polyEdges l).map fun ed => (projElim e ed.1, projElim e ed.2)).any fun x => onSegment (projElim e p) x.1 x.2 := by
      rw [List.any_map]; rfl
    rw [h2, ← this, List.any_map, List.length_map]
    rfl
  · rw [Bool.not_eq_true] at ho
    rw [ho]
    rfl

/-! ### segments in the plane of the polygon, and their projections -/

theorem proj_cross (e : Nat) (he : e < 3) {n a b p q : Point} (hN : 0 < inner3 n n) (hne : n.coord e ≠ 0)
    (hb : inner3 n (vec a b) = 0) (hp : inner3 n (vec a p) = 0) (hq : inner3 n (vec a q) = 0) :
    Cross (projElim e a) (projElim e b) (projElim e p) (projElim e q) ↔ Cross3 n a b p q := by
  have hpq : inner3 n (vec p q) = 0 := by simp only [inner3, vec] at *; linarith
  have hpa : inner3 n (vec p a) = 0 := by simp only [inner3, vec] at *; linarith
  have hpb : inner3 n (vec p b) = 0 := by simp only [inner3, vec] at *; linarith
  have o1 := proj_orient e he n a b p hb hp
  have o2 := proj_orient e he n a b q hb hq
  have o3 := proj_orient e he n p q a hpq hpa
  have o4 := proj_orient e he n p q b hpq hpb
  have key : ∀ x y X Y : ℝ, x * inner3 n n = n.coord e * X → y * inner3 n n = n.coord e * Y → (x * y < 0 ↔ X * Y < 0) := by
    intro x y X Y h1 h2
    have hm : x * y * (inner3 n n * inner3 n n) = X * Y * (n.coord e * n.coord e) := by
      linear_combination (y * inner3 n n) * h1 + (n.coord e * X) * h2
    have c1 := mul_pos hN hN
    have c2 : 0 < n.coord e * n.coord e := mul_self_pos.2 hne
    constructor
    · intro h
      by_contra hn
      have := mul_nonneg (not_lt.1 hn) c2.le
      have := mul_neg_of_neg_of_pos h c1
      linarith
    · intro h
      by_contra hn
      have := mul_nonneg (not_lt.1 hn) c1.le
      have := mul_neg_of_neg_of_pos h c2
      linarith
  unfold Cross Cross3
  rw [key _ _ _ _ o1 o2, key _ _ _ _ o3 o4]

theorem along_plane {n v a b : Point} (s : ℝ) (ha : inner3 n (vec v a) = 0) (hb : inner3 n (vec v b) = 0) :
    inner3 n (vec v (along a b s)) = 0 := by
  simp only [inner3, vec, along] at *
  linear_combination (1 - s) * ha + s * hb

theorem along_proj (e : Nat) (he : e < 3) (a b : Point) (s : ℝ) : (projElim e (along a b s)).x = (projElim e a).x + s * ((projElim e b).x - (projElim e a).x) ∧
    (projElim e (along a b s)).y = (projElim e a).y + s * ((projElim e b).y - (projElim e a).y) := by
  rcases (by omega : e = 0 ∨ e = 1 ∨ e = 2) with rfl | rfl | rfl <;> exact ⟨rfl, rfl⟩

theorem proj_apart (e : Nat) (he : e < 3) {n a b p q : Point} (hne : n.coord e ≠ 0)
    (hb : inner3 n (vec a b) = 0) (hp : inner3 n (vec a p) = 0) (hq : inner3 n (vec a q) = 0) (h : Apart3 a b p q) :
    Apart (projElim e a) (projElim e b) (projElim e p) (projElim e q) := by
  rintro x y ⟨s, s0, s1, hx, hy⟩ ⟨r, r0, r1, hx', hy'⟩
  apply h s r s0 s1 r0 r1
  have ha : inner3 n (vec a a) = 0 := by simp [inner3, vec]
  have k1 := along_plane s ha hb
  have k2 := along_plane r hp hq
  refine proj_inj e he n _ _ rfl rfl ?_ hne ?_
  · simp only [inner3, vec] at k1 k2 ⊢
    linarith
  · obtain ⟨f1, f2⟩ := along_proj e he a b s
    obtain ⟨g1, g2⟩ := along_proj e he p q r
    refine Point.ext rfl ?_ ?_ rfl
    · rw [f1, g1, ← hx, ← hx']
    · rw [f2, g2, ← hy, ← hy']

/-- a half space cuts a half plane out of the projected plane -/
theorem proj_half (e : Nat) (he : e < 3) {n : Point} (hne : n.coord e ≠ 0) (u p : Point) :
    ∃ ux uy : ℝ, ∀ v, inner3 n (vec p v) = 0 → inner3 u (vec p v) =
      ux * ((projElim e v).x - (projElim e p).x) + uy * ((projElim e v).y - (projElim e p).y) := by
  rcases (by omega : e = 0 ∨ e = 1 ∨ e = 2) with rfl | rfl | rfl
  · refine ⟨u.y - u.x * n.y / n.x, u.z - u.x * n.z / n.x, ?_⟩
    intro v hv
    have hne : n.x ≠ 0 := hne
    simp only [inner3, vec, projElim, mk2, Point.coord] at *
    field_simp
    linear_combination u.x * hv
  · refine ⟨u.z - u.y * n.z / n.y, u.x - u.y * n.x / n.y, ?_⟩
    intro v hv
    have hne : n.y ≠ 0 := hne
    simp only [inner3, vec, projElim, mk2, Point.coord] at *
    field_simp
    linear_combination u.y * hv
  · refine ⟨u.x - u.z * n.x / n.z, u.y - u.z * n.y / n.z, ?_⟩
    intro v hv
    have hne : n.z ≠ 0 := hne
    simp only [inner3, vec, projElim, mk2, Point.coord] at *
    field_simp
    linear_combination u.z * hv

/-- a point of the plane whose projection is close to a projected segment is close to the segment -/
theorem near_segment (e : Nat) (he : e < 3) {n p a b : Point} (s : ℝ) (hpa : inner3 n (vec p a) = 0) (hpb : inner3 n (vec p b) = 0)
    (h : ((projElim e p).x - (projElim e a).x - s * ((projElim e b).x - (projElim e a).x)) ^ 2 +
      ((projElim e p).y - (projElim e a).y - s * ((projElim e b).y - (projElim e a).y)) ^ 2 < 1 / 10 ^ 16) :
    dist2 p (along a b s) * n.coord e ^ 2 ≤ 1 / 10 ^ 16 * inner3 n n := by
  have hw := along_plane s hpa hpb
  obtain ⟨q, hq⟩ : ∃ q, q = along a b s := ⟨_, rfl⟩
  have hqx : q.x = a.x + s * (b.x - a.x) := by rw [hq]; rfl
  have hqy : q.y = a.y + s * (b.y - a.y) := by rw [hq]; rfl
  have hqz : q.z = a.z + s * (b.z - a.z) := by rw [hq]; rfl
  rw [← hq] at hw ⊢
  have e0 : dist2 p q = (p.x - q.x) ^ 2 + (p.y - q.y) ^ 2 + (p.z - q.z) ^ 2 := by
    simp only [dist2, inner3, vec]; ring
  simp only [inner3, vec] at hw
  have gen : ∀ α β γ ne n0 n1 : ℝ, α ^ 2 + β ^ 2 < 1 / 10 ^ 16 → ne * γ + n0 * α + n1 * β = 0 →
      (α ^ 2 + β ^ 2 + γ ^ 2) * ne ^ 2 ≤ 1 / 10 ^ 16 * (ne * ne + n0 * n0 + n1 * n1) := by
    intro α β γ ne n0 n1 h1 h2
    have c1 : (n0 * α + n1 * β) ^ 2 ≤ (n0 * n0 + n1 * n1) * (α ^ 2 + β ^ 2) := by nlinarith [sq_nonneg (n0 * β - n1 * α)]
    have c2 : (ne * γ) ^ 2 = (n0 * α + n1 * β) ^ 2 := by
      have : ne * γ = -(n0 * α + n1 * β) := by linarith
      rw [this]; ring
    have c3 : (n0 * n0 + n1 * n1) * (α ^ 2 + β ^ 2) ≤ (n0 * n0 + n1 * n1) * (1 / 10 ^ 16) :=
      mul_le_mul_of_nonneg_left h1.le (add_nonneg (mul_self_nonneg _) (mul_self_nonneg _))
    have c4 : (α ^ 2 + β ^ 2) * ne ^ 2 ≤ 1 / 10 ^ 16 * ne ^ 2 := mul_le_mul_of_nonneg_right h1.le (sq_nonneg _)
    have c8 : (α ^ 2 + β ^ 2 + γ ^ 2) * ne ^ 2 = (α ^ 2 + β ^ 2) * ne ^ 2 + (ne * γ) ^ 2 := by ring
    have c9 : ne ^ 2 = ne * ne := sq ne
    rw [c8]
    rw [c9] at c4 ⊢
    linarith
  rw [e0]
  show _ ≤ 1 / 10 ^ 16 * (n.x * n.x + n.y * n.y + n.z * n.z)
  rcases (by omega : e = 0 ∨ e = 1 ∨ e = 2) with rfl | rfl | rfl
  · simp only [projElim, mk2, Point.coord] at h ⊢
    have hl' : (p.y - q.y) ^ 2 + (p.z - q.z) ^ 2 < 1 / 10 ^ 16 := by rw [hqy, hqz]; convert h using 2 <;> ring
    have := gen (p.y - q.y) (p.z - q.z) (p.x - q.x) n.x n.y n.z hl' (by linarith)
    linarith
  · simp only [projElim, mk2, Point.coord] at h ⊢
    have hl' : (p.z - q.z) ^ 2 + (p.x - q.x) ^ 2 < 1 / 10 ^ 16 := by rw [hqx, hqz]; convert h using 2 <;> ring
    have := gen (p.z - q.z) (p.x - q.x) (p.y - q.y) n.y n.z n.x hl' (by linarith)
    linarith
  · simp only [projElim, mk2, Point.coord] at h ⊢
    have hl' : (p.x - q.x) ^ 2 + (p.y - q.y) ^ 2 < 1 / 10 ^ 16 := by rw [hqx, hqy]; convert h using 2 <;> ring
    have := gen (p.x - q.x) (p.y - q.y) (p.z - q.z) n.z n.x n.y hl' (by linarith)
    linarith

end Jali.Geom
