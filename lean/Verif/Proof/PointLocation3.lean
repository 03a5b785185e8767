import Verif.Proof.PointLocation
import Verif.Proof.Polyhedron
import Verif.Proof.MstkGeometry
import Verif.Props.PointInPolygon
/-! Signed crossings of the vertical line upwards from a point with the triangles of a closed surface. -/
namespace Jali.Geom
open Spec Point

abbrev Tri := Point × Point × Point

/-- the sum over the three edges of a triangle -/
def round3 {β : Type} [Add β] (φ : Point × Point → β) (T : Tri) : β := φ (T.1, T.2.1) + φ (T.2.1, T.2.2) + φ (T.2.2, T.1)

/-- the vertical component of twice the area vector of a triangle -/
noncomputable def nz (T : Tri) : ℝ := orient2 T.1 T.2.1 T.2.2

/-- signed volume of the tetrahedron between a point and a triangle -/
noncomputable def vol (t : Point) (T : Tri) : ℝ := tetVol t T.1 T.2.1 T.2.2

/-- how often the triangle goes around the vertical line through `t` -/
noncomputable def turns (t : Point) (T : Tri) : ℤ := round3 (wind t) T

/-- the same if the triangle is above `t`, else 0 -/
noncomputable def hits (t : Point) (T : Tri) : ℤ := turns t T * (if 0 ≤ vol t T * nz T then 1 else 0)

theorem triEdges (a b c : Point) : polyEdges [a, b, c] = [(a, b), (b, c), (c, a)] := rfl

theorem turns_edges (t a b c : Point) : turns t (a, b, c) = ((polyEdges [a, b, c]).map (wind t)).sum := by
  rw [triEdges]; simp [turns, round3, add_assoc]

theorem tri_convex {a b c : Point} (h : 0 < nz (a, b, c)) : StrictlyConvex [a, b, c] := by
  unfold nz at h
  dsimp only at h
  have e1 : orient2 b c a = orient2 a b c := by unfold orient2; ring
  have e2 : orient2 c a b = orient2 a b c := by unfold orient2; ring
  constructor
  · have hab : a ≠ b := by rintro rfl; simp [orient2] at h
    have hac : a ≠ c := by rintro rfl; simp [orient2] at h
    have hbc : b ≠ c := by rintro rfl; simp [orient2, mul_comm] at h
    simp [hab, hac, hbc]
  · intro e he v hv
    rw [triEdges] at he
    simp only [List.mem_cons, List.not_mem_nil, or_false] at he hv
    rcases he with rfl | rfl | rfl <;> rcases hv with rfl | rfl | rfl <;>
      first
      | exact .inl rfl
      | exact .inr (.inl rfl)
      | (right; right; first | exact h | (dsimp only; rw [e1]; exact h) | (dsimp only; rw [e2]; exact h))

/-- a triangle that goes around counter-clockwise, seen from above -/
theorem turns_up {t : Point} {T : Tri} (h : 0 < nz T) : turns t T = 0 ∨ turns t T = 1 ∧
    0 ≤ orient2 t T.1 T.2.1 ∧ 0 ≤ orient2 t T.2.1 T.2.2 ∧ 0 ≤ orient2 t T.2.2 T.1 := by
  obtain ⟨a, b, c⟩ := T
  have hc := tri_convex h
  rw [turns_edges, wind_convex t hc]
  split
  · rename_i hin
    have := (point_in_polygon_convex t _ hc (by simp)).2 hin
    rw [triEdges] at this
    exact .inr ⟨rfl, this (a, b) (by simp), this (b, c) (by simp), this (c, a) (by simp)⟩
  · exact .inl rfl

theorem turns_reverse (t a b c : Point) : turns t (b, a, c) = - turns t (a, b, c) := by
  unfold turns round3
  dsimp only
  rw [wind_swap t a b, wind_swap t c a, wind_swap t b c]; ring

theorem nz_reverse (a b c : Point) : nz (b, a, c) = - nz (a, b, c) := by unfold nz orient2; ring
theorem vol_reverse (t a b c : Point) : vol t (b, a, c) = - vol t (a, b, c) := by simp only [vol, tetVol, det3, vec]; ring
theorem turns_cycle (t a b c : Point) : turns t (a, b, c) = turns t (b, c, a) := by unfold turns round3; dsimp only; ring
theorem nz_cycle (a b c : Point) : nz (a, b, c) = nz (b, c, a) := by unfold nz orient2; ring
theorem vol_cycle (t a b c : Point) : vol t (a, b, c) = vol t (b, c, a) := by simp only [vol, tetVol, det3, vec]; ring

theorem hits_cycle (t a b c : Point) : hits t (a, b, c) = hits t (b, c, a) := by
  unfold hits; rw [turns_cycle, nz_cycle, vol_cycle]
theorem hits_reverse (t a b c : Point) : hits t (b, a, c) = - hits t (a, b, c) := by
  unfold hits; rw [turns_reverse, nz_reverse, vol_reverse, neg_mul_neg]; ring

theorem wind_same {t p q p' q' : Point} (hp : p.x = p'.x ∧ p.y = p'.y) (hq : q.x = q'.x ∧ q.y = q'.y) : wind t (p, q) = wind t (p', q') := by
  unfold wind above xAt; dsimp only; rw [hp.1, hp.2, hq.1, hq.2]

/-- a triangle seen from the side is not gone around -/
theorem turns_vertical {t : Point} {T : Tri} (h : nz T = 0) : turns t T = 0 := by
  obtain ⟨a, b, c⟩ := T
  unfold nz at h; dsimp only at h
  have key : ∀ a b c : Point, orient2 a b c = 0 → a.y ≠ b.y → turns t (a, b, c) = 0 := by
    intro a b c h hab
    have h' : orient2 b a c = 0 := by unfold orient2 at h ⊢; linarith
    set K : ℤ := if t.x ≤ xAt a b t.y then 1 else 0 with hK
    have e1 : wind t (a, b) = (above t.y b - above t.y a) * K := rfl
    have e2 : wind t (b, c) = (above t.y c - above t.y b) * K := by
      by_cases hbc : b.y = c.y
      · rw [wind_flat hbc]; unfold above; simp [hbc]
      · unfold wind; dsimp only; rw [xAt_line h' (Ne.symm hab) hbc, ← xAt_swap hab]
    have e3 : wind t (c, a) = (above t.y a - above t.y c) * K := by
      by_cases hca : c.y = a.y
      · rw [wind_flat hca]; unfold above; simp [hca]
      · unfold wind; dsimp only; rw [xAt_swap hca, xAt_line h hab (Ne.symm hca)]
    unfold turns round3; dsimp only; rw [e1, e2, e3]; ring
  by_cases hab : a.y = b.y
  · by_cases hbc : b.y = c.y
    · unfold turns round3; dsimp only
      rw [wind_flat hab, wind_flat hbc, wind_flat (hab.trans hbc).symm]; rfl
    · rw [turns_cycle]
      exact key b c a (by rw [← h]; unfold orient2; ring) hbc
  · exact key a b c h hab

theorem turns_down {t : Point} {T : Tri} (h : nz T < 0) : turns t T = 0 ∨ turns t T = -1 ∧
    orient2 t T.1 T.2.1 ≤ 0 ∧ orient2 t T.2.1 T.2.2 ≤ 0 ∧ orient2 t T.2.2 T.1 ≤ 0 := by
  obtain ⟨a, b, c⟩ := T
  have h' : 0 < nz (b, a, c) := by rw [nz_reverse]; linarith
  have := turns_up (t := t) h'
  rw [turns_reverse] at this
  rcases this with e | ⟨e, h1, h2, h3⟩
  · left; omega
  · right
    dsimp only at h1 h2 h3 ⊢
    unfold orient2 at h1 h2 h3 ⊢
    refine ⟨by omega, by linarith, by linarith, by linarith⟩

/-- a triangle that is gone around meets the vertical line through `t` -/
theorem turns_meets {t : Point} {T : Tri} (h : turns t T ≠ 0) : nz T ≠ 0 ∧ ∃ α β γ : ℝ, 0 ≤ α ∧ 0 ≤ β ∧ 0 ≤ γ ∧ α + β + γ = 1 ∧
    α * T.1.x + β * T.2.1.x + γ * T.2.2.x = t.x ∧ α * T.1.y + β * T.2.1.y + γ * T.2.2.y = t.y ∧
    (α * T.1.z + β * T.2.1.z + γ * T.2.2.z - t.z) * nz T = 6 * vol t T := by
  obtain ⟨a, b, c⟩ := T
  have hne : nz (a, b, c) ≠ 0 := fun h0 => h (turns_vertical h0)
  refine ⟨hne, orient2 t b c / nz (a, b, c), orient2 t c a / nz (a, b, c), orient2 t a b / nz (a, b, c), ?_⟩
  have hs : (0 ≤ orient2 t b c / nz (a, b, c)) ∧ (0 ≤ orient2 t c a / nz (a, b, c)) ∧ (0 ≤ orient2 t a b / nz (a, b, c)) := by
    rcases lt_or_gt_of_ne hne with hn | hn
    · rcases turns_down (t := t) hn with e | ⟨_, h1, h2, h3⟩
      · exact absurd e h
      · exact ⟨div_nonneg_of_nonpos h2 hn.le, div_nonneg_of_nonpos h3 hn.le, div_nonneg_of_nonpos h1 hn.le⟩
    · rcases turns_up (t := t) hn with e | ⟨_, h1, h2, h3⟩
      · exact absurd e h
      · exact ⟨div_nonneg h2 hn.le, div_nonneg h3 hn.le, div_nonneg h1 hn.le⟩
  refine ⟨hs.1, hs.2.1, hs.2.2, ?_, ?_, ?_, ?_⟩
  · field_simp; unfold nz orient2; ring
  · field_simp; unfold nz orient2; ring
  · field_simp; unfold nz orient2; ring
  · field_simp; simp only [nz, orient2, vol, tetVol, det3, vec]; ring

/-! ### closed surfaces -/

/-- every function of directed edges that changes its sign with the direction adds up to zero over the triangles -/
def Balanced (L : List Tri) : Prop := ∀ φ : Point × Point → ℝ, (∀ p q, φ (q, p) = - φ (p, q)) → (L.map (round3 φ)).sum = 0

theorem round3_facets (φ : Point × Point → ℝ) (hφ : ∀ p q, φ (q, p) = - φ (p, q)) (f : List Point) :
    ((facets f).map (round3 φ)).sum = ((polyEdges f).map φ).sum := by
  by_cases hl : f.length = 3
  · obtain ⟨a, b, c, rfl⟩ := List.length_eq_three.mp hl
    rw [triEdges]; simp [facets, round3, add_assoc]
  · rw [facets_other f hl, List.map_map]
    have := edges_telescope f fun v => φ (v, vertexMean 3 f)
    rw [← add_zero ((polyEdges f).map φ).sum, ← this, ← sum_map_add]
    refine sum_map_congr _ _ _ fun e _ => ?_
    simp only [Function.comp, round3]
    rw [hφ e.1 (vertexMean 3 f)]; ring

theorem closed_balanced {fs : List (List Point)} (h : Closed fs) : Balanced (fs.flatMap facets) := by
  intro φ hφ
  rw [sum_flatMap]
  have e1 : (fs.map fun f => ((facets f).map (round3 φ)).sum).sum = ((fs.flatMap polyEdges).map φ).sum := by
    rw [sum_flatMap]; exact sum_map_congr _ _ _ fun f _ => round3_facets φ hφ f
  rw [e1]
  have e2 : ((fs.flatMap polyEdges).map φ).sum = - ((fs.flatMap polyEdges).map φ).sum := by
    conv_lhs => rw [← (h.map φ).sum_eq]
    rw [List.map_map, ← sum_map_neg]
    exact sum_map_congr _ _ _ fun e _ => hφ e.1 e.2
  linarith

theorem cast_sumZ (L : List ℤ) : ((L.sum : ℤ) : ℝ) = (L.map fun x : ℤ => (x : ℝ)).sum := by
  induction L with
  | nil => simp
  | cons a L ih => simp [ih]

theorem turns_balanced {L : List Tri} (h : Balanced L) (t : Point) : (L.map (turns t)).sum = 0 := by
  have := h (fun e => ((wind t e : ℤ) : ℝ)) fun p q => by rw [wind_swap]; push_cast; ring
  have e : (((L.map (turns t)).sum : ℤ) : ℝ) = 0 := by
    rw [cast_sumZ, List.map_map, ← this]
    refine sum_map_congr _ _ _ fun T _ => ?_
    simp only [Function.comp, turns, round3]; push_cast; ring
  exact_mod_cast e

/-- a point that a plane separates from the surface is not hit -/
theorem hits_separated {L : List Tri} (h : Balanced L) {t : Point} (A B C D : ℝ) (ht : A * t.x + B * t.y + C * t.z + D < 0)
    (hL : ∀ T ∈ L, 0 ≤ A * T.1.x + B * T.1.y + C * T.1.z + D ∧ 0 ≤ A * T.2.1.x + B * T.2.1.y + C * T.2.1.z + D ∧
      0 ≤ A * T.2.2.x + B * T.2.2.y + C * T.2.2.z + D) : (L.map (hits t)).sum = 0 := by
  -- where the line meets a triangle
  have meet : ∀ T ∈ L, turns t T ≠ 0 → ∃ z : ℝ, 0 ≤ A * t.x + B * t.y + C * z + D ∧ (z - t.z) * nz T = 6 * vol t T ∧ nz T ≠ 0 := by
    intro T hT hne
    obtain ⟨hn, α, β, γ, ha, hb, hc, hs, hx, hy, hz⟩ := turns_meets hne
    obtain ⟨l1, l2, l3⟩ := hL T hT
    refine ⟨_, ?_, hz, hn⟩
    have m1 := mul_nonneg ha l1
    have m2 := mul_nonneg hb l2
    have m3 := mul_nonneg hc l3
    have hD : D = (α + β + γ) * D := by rw [hs]; ring
    rw [← hx, ← hy, hD]
    linarith
  by_cases hup : ∃ T ∈ L, turns t T ≠ 0 ∧ 0 ≤ vol t T * nz T
  · obtain ⟨T, hT, hne, hv⟩ := hup
    obtain ⟨z, h1, h2, h3⟩ := meet T hT hne
    have hz : t.z ≤ z := by
      have h4 : 0 ≤ (z - t.z) * (nz T * nz T) := by
        rw [← mul_assoc, h2]; linarith
      have := mul_self_pos.2 h3
      by_contra hlt
      have := mul_neg_of_neg_of_pos (show z - t.z < 0 by linarith) this
      linarith
    rw [← turns_balanced h t]
    congr 1
    refine List.map_congr_left fun T' hT' => ?_
    by_cases hne' : turns t T' = 0
    · unfold hits; rw [hne']; ring
    · unfold hits
      rw [if_pos, mul_one]
      by_contra hv'
      obtain ⟨z', h1', h2', h3'⟩ := meet T' hT' hne'
      have hz' : z' < t.z := by
        have h4 : (z' - t.z) * (nz T' * nz T') < 0 := by rw [← mul_assoc, h2']; linarith
        have := mul_self_pos.2 h3'
        by_contra hge
        have := mul_nonneg (show 0 ≤ z' - t.z by linarith) this.le
        linarith
      -- t is between the two
      rcases le_total 0 C with hC | hC
      · have := mul_le_mul_of_nonneg_left hz'.le hC; linarith
      · have := mul_le_mul_of_nonpos_left hz hC; linarith
  · push Not at hup
    have : (L.map (hits t)) = L.map fun _ => 0 := by
      refine List.map_congr_left fun T hT => ?_
      unfold hits
      by_cases hne : turns t T = 0
      · rw [hne]; ring
      · rw [if_neg (not_le.2 (hup T hT hne))]; ring
    rw [this]; simp

end Jali.Geom
