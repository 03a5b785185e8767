import Verif.Proof.PointLocation3
/-! A closed surface around a point is hit by the vertical line upwards from it. -/
namespace Jali.Geom
open Spec Point

theorem sum_neg_of {α : Type} (L : List α) (f : α → ℝ) (h : ∀ a ∈ L, f a ≤ 0) (hx : ∃ a ∈ L, f a < 0) : (L.map f).sum < 0 := by
  induction L with
  | nil => obtain ⟨a, ha, _⟩ := hx; cases ha
  | cons a L ih =>
    rw [List.map_cons, List.sum_cons]
    have h0 := h a (by simp)
    have hle : (L.map f).sum ≤ 0 := by
      clear ih hx
      induction L with
      | nil => simp
      | cons b L ih =>
        rw [List.map_cons, List.sum_cons]
        have := h b (by simp)
        have := ih fun x hx => h x (by simp at hx ⊢; tauto)
        linarith
    obtain ⟨b, hb, hlt⟩ := hx
    rcases List.mem_cons.1 hb with rfl | hb
    · linarith
    · have := ih (fun x hx => h x (by simp [hx])) ⟨b, hb, hlt⟩
      linarith

/-- no corner is at the height `t.y`, and no edge goes through `t.x` there -/
structure Generic (t : Point) (T : Tri) : Prop where
  y1 : T.1.y ≠ t.y
  y2 : T.2.1.y ≠ t.y
  y3 : T.2.2.y ≠ t.y
  x12 : T.1.y ≠ T.2.1.y → xAt T.1 T.2.1 t.y ≠ t.x
  x23 : T.2.1.y ≠ T.2.2.y → xAt T.2.1 T.2.2 t.y ≠ t.x
  x31 : T.2.2.y ≠ T.1.y → xAt T.2.2 T.1 t.y ≠ t.x

theorem Generic.cycle {t a b c : Point} (h : Generic t (a, b, c)) : Generic t (b, c, a) :=
  ⟨h.y2, h.y3, h.y1, h.x23, h.x31, h.x12⟩

/-- some corners are above `t.y`, and some are not -/
def Crosses (t : Point) (T : Tri) : Prop := ¬ ((t.y < T.1.y ↔ t.y < T.2.1.y) ∧ (t.y < T.2.1.y ↔ t.y < T.2.2.y))

/-- the area between the origin and the central projections of two points from `t` to a plane perpendicular to y -/
noncomputable def proj (t : Point) (e : Point × Point) : ℝ :=
  ((e.1.x - t.x) * (e.2.z - t.z) - (e.2.x - t.x) * (e.1.z - t.z)) / ((e.1.y - t.y) * (e.2.y - t.y)) *
    (if t.y < e.1.y ∧ t.y < e.2.y then 1 else -1)

theorem proj_swap (t p q : Point) : proj t (q, p) = - proj t (p, q) := by
  unfold proj
  dsimp only
  simp only [and_comm (a := t.y < q.y), mul_comm (q.y - t.y)]
  rw [← neg_mul, ← neg_div]
  congr 2; ring

theorem proj_round {t : Point} {T : Tri} (hg : Generic t T) (hc : ¬ Crosses t T) (hv : 0 < vol t T) : round3 (proj t) T < 0 := by
  obtain ⟨a, b, c⟩ := T
  have h1 : a.y - t.y ≠ 0 := sub_ne_zero.2 hg.y1
  have h2 : b.y - t.y ≠ 0 := sub_ne_zero.2 hg.y2
  have h3 : c.y - t.y ≠ 0 := sub_ne_zero.2 hg.y3
  unfold Crosses at hc
  push Not at hc
  obtain ⟨hab, hbc⟩ := hc
  dsimp only at hab hbc
  have key : ∀ k : ℝ, ((a.x - t.x) * (b.z - t.z) - (b.x - t.x) * (a.z - t.z)) / ((a.y - t.y) * (b.y - t.y)) * k +
      ((b.x - t.x) * (c.z - t.z) - (c.x - t.x) * (b.z - t.z)) / ((b.y - t.y) * (c.y - t.y)) * k +
      ((c.x - t.x) * (a.z - t.z) - (a.x - t.x) * (c.z - t.z)) / ((c.y - t.y) * (a.y - t.y)) * k =
      - (6 * vol t (a, b, c)) / ((a.y - t.y) * (b.y - t.y) * (c.y - t.y)) * k := by
    intro k
    field_simp
    simp only [vol, tetVol, det3, vec]; ring
  unfold round3 proj
  dsimp only
  by_cases ha : t.y < a.y
  · have hb := hab.1 ha
    have hcc := hbc.1 hb
    rw [if_pos ⟨ha, hb⟩, if_pos ⟨hb, hcc⟩, if_pos ⟨hcc, ha⟩, key, mul_one]
    exact div_neg_of_neg_of_pos (by linarith) (mul_pos (mul_pos (by linarith) (by linarith)) (by linarith))
  · have hb : ¬ t.y < b.y := fun h => ha (hab.2 h)
    have hcc : ¬ t.y < c.y := fun h => hb (hbc.2 h)
    have ha' : a.y - t.y < 0 := lt_of_le_of_ne (by linarith [not_lt.1 ha]) h1
    have hb' : b.y - t.y < 0 := lt_of_le_of_ne (by linarith [not_lt.1 hb]) h2
    have hc' : c.y - t.y < 0 := lt_of_le_of_ne (by linarith [not_lt.1 hcc]) h3
    rw [if_neg fun h => ha h.1, if_neg fun h => hb h.1, if_neg fun h => hcc h.1, key]
    have : 0 < - (6 * vol t (a, b, c)) / ((a.y - t.y) * (b.y - t.y) * (c.y - t.y)) :=
      div_pos_of_neg_of_neg (by linarith) (mul_neg_of_pos_of_neg (mul_pos_of_neg_of_neg ha' hb') hc')
    linarith

/-- the height above `t` over the distance from `t`, where the edge meets the plane through `t` perpendicular to y -/
noncomputable def slope (t : Point) (e : Point × Point) : ℝ :=
  (e.1.z + (t.y - e.1.y) * (e.2.z - e.1.z) / (e.2.y - e.1.y) - t.z) / (xAt e.1 e.2 t.y - t.x)

noncomputable def slopes (t : Point) (e : Point × Point) : ℝ := ((above t.y e.2 : ℝ) - (above t.y e.1 : ℝ)) * slope t e

theorem slopes_same {t p q : Point} (h : t.y < p.y ↔ t.y < q.y) : slopes t (p, q) = 0 := by
  unfold slopes above; dsimp only; simp [h]

theorem slopes_swap (t p q : Point) : slopes t (q, p) = - slopes t (p, q) := by
  by_cases h : p.y = q.y
  · rw [slopes_same (by rw [h]), slopes_same (by rw [h]), neg_zero]
  · have h1 : q.y - p.y ≠ 0 := sub_ne_zero.2 (Ne.symm h)
    have h2 : p.y - q.y ≠ 0 := sub_ne_zero.2 h
    unfold slopes slope
    dsimp only
    rw [← xAt_swap h]
    have e : q.z + (t.y - q.y) * (p.z - q.z) / (p.y - q.y) = p.z + (t.y - p.y) * (q.z - p.z) / (q.y - p.y) := by
      field_simp; ring
    rw [e]; ring

theorem slopes_alone {t a b c : Point} (hg : Generic t (a, b, c)) (h1 : ¬ (t.y < a.y ↔ t.y < b.y)) (h2 : t.y < b.y ↔ t.y < c.y)
    (hv : 0 < vol t (a, b, c)) (h0 : turns t (a, b, c) = 0) : round3 (slopes t) (a, b, c) < 0 := by
  have h3 : ¬ (t.y < c.y ↔ t.y < a.y) := by rw [← h2]; exact fun h => h1 h.symm
  have hab : a.y ≠ b.y := fun h => h1 (by rw [h])
  have hca : c.y ≠ a.y := fun h => h3 (by rw [h])
  have x1 : xAt a b t.y - t.x ≠ 0 := sub_ne_zero.2 (hg.x12 hab)
  have x2 : xAt c a t.y - t.x ≠ 0 := sub_ne_zero.2 (hg.x31 hca)
  have d1 : b.y - a.y ≠ 0 := sub_ne_zero.2 (Ne.symm hab)
  have d2 : c.y - a.y ≠ 0 := sub_ne_zero.2 hca
  -- in terms of the edge from a to c
  have e3 : round3 (slopes t) (a, b, c) = ((above t.y b : ℝ) - (above t.y a : ℝ)) * (slope t (a, b) - slope t (a, c)) := by
    unfold round3
    dsimp only
    rw [slopes_same h2, slopes_swap t a c]
    have : above t.y c = above t.y b := by unfold above; simp [h2]
    unfold slopes
    dsimp only
    rw [this]; ring
  have x2' : xAt a c t.y - t.x ≠ 0 := by rw [xAt_swap (Ne.symm hca)]; exact x2
  have hw : (0 < xAt a b t.y - t.x ↔ 0 < xAt a c t.y - t.x) := by
    have ht : turns t (a, b, c) = (above t.y b - above t.y a) *
        ((if t.x ≤ xAt a b t.y then 1 else 0) - (if t.x ≤ xAt a c t.y then 1 else 0)) := by
      unfold turns round3
      dsimp only
      have : above t.y c = above t.y b := by unfold above; simp [h2]
      have hbc : wind t (b, c) = 0 := by unfold wind; dsimp only; rw [this]; ring
      rw [hbc, wind_swap t a c]
      unfold wind
      dsimp only
      rw [this]; ring
    rw [ht] at h0
    have hs : above t.y b - above t.y a ≠ 0 := by
      unfold above
      by_cases ha : t.y < a.y <;> by_cases hb : t.y < b.y <;> simp [ha, hb] at h1 ⊢
    rcases mul_eq_zero.1 h0 with h | h
    · exact absurd h hs
    · constructor
      · intro hp
        rw [if_pos (by linarith)] at h
        by_contra hn
        have : ¬ t.x ≤ xAt a c t.y := by
          intro hle; exact hn (lt_of_le_of_ne (by linarith) (Ne.symm x2'))
        rw [if_neg this] at h
        norm_num at h
      · intro hp
        rw [if_pos (show t.x ≤ xAt a c t.y by linarith)] at h
        by_contra hn
        have : ¬ t.x ≤ xAt a b t.y := by
          intro hle; exact hn (lt_of_le_of_ne (by linarith) (Ne.symm x1))
        rw [if_neg this] at h
        norm_num at h
  have hX : 0 < (xAt a b t.y - t.x) * (xAt a c t.y - t.x) := by
    by_cases hp : 0 < xAt a b t.y - t.x
    · exact mul_pos hp (hw.1 hp)
    · have hp2 : ¬ 0 < xAt a c t.y - t.x := fun h => hp (hw.2 h)
      exact mul_pos_of_neg_of_neg (lt_of_le_of_ne (not_lt.1 hp) x1) (lt_of_le_of_ne (not_lt.1 hp2) x2')
  have hdiff : (slope t (a, b) - slope t (a, c)) * ((xAt a b t.y - t.x) * (xAt a c t.y - t.x)) * ((b.y - a.y) * (c.y - a.y)) =
      (a.y - t.y) * (6 * vol t (a, b, c)) := by
    have s1 : slope t (a, b) * (xAt a b t.y - t.x) = a.z + (t.y - a.y) * (b.z - a.z) / (b.y - a.y) - t.z := by
      unfold slope; dsimp only; rw [div_mul_cancel₀ _ x1]
    have s2 : slope t (a, c) * (xAt a c t.y - t.x) = a.z + (t.y - a.y) * (c.z - a.z) / (c.y - a.y) - t.z := by
      unfold slope; dsimp only; rw [div_mul_cancel₀ _ x2']
    have : (slope t (a, b) - slope t (a, c)) * ((xAt a b t.y - t.x) * (xAt a c t.y - t.x)) =
        (slope t (a, b) * (xAt a b t.y - t.x)) * (xAt a c t.y - t.x) - (slope t (a, c) * (xAt a c t.y - t.x)) * (xAt a b t.y - t.x) := by
      ring
    rw [this, s1, s2]
    unfold xAt
    field_simp
    simp only [vol, tetVol, det3, vec]; ring
  have hD : 0 < (b.y - a.y) * (c.y - a.y) := by
    by_cases ha : t.y < a.y
    · have hb : ¬ t.y < b.y := fun h => h1 ⟨fun _ => h, fun _ => ha⟩
      have hcc : ¬ t.y < c.y := fun h => hb (h2.2 h)
      exact mul_pos_of_neg_of_neg (by linarith [not_lt.1 hb]) (by linarith [not_lt.1 hcc])
    · have hb : t.y < b.y := by by_contra h; exact h1 ⟨fun x => absurd x ha, fun x => absurd x h⟩
      have hcc := h2.1 hb
      exact mul_pos (by linarith [not_lt.1 ha]) (by linarith [not_lt.1 ha])
  rw [e3]
  have hP := mul_pos hX hD
  have hdiff' : (slope t (a, b) - slope t (a, c)) * (((xAt a b t.y - t.x) * (xAt a c t.y - t.x)) * ((b.y - a.y) * (c.y - a.y))) =
      (a.y - t.y) * (6 * vol t (a, b, c)) := by rw [← hdiff]; ring
  by_cases ha : t.y < a.y
  · have hb : ¬ t.y < b.y := fun h => h1 ⟨fun _ => h, fun _ => ha⟩
    have : 0 < slope t (a, b) - slope t (a, c) := by
      by_contra hn
      have h5 := mul_nonpos_of_nonpos_of_nonneg (not_lt.1 hn) hP.le
      have h6 : 0 < (a.y - t.y) * (6 * vol t (a, b, c)) := mul_pos (by linarith) (by linarith)
      linarith
    unfold above
    rw [if_pos ha, if_neg hb]
    push_cast
    linarith
  · have hb : t.y < b.y := by by_contra h; exact h1 ⟨fun x => absurd x ha, fun x => absurd x h⟩
    have hay : a.y - t.y < 0 := lt_of_le_of_ne (by linarith [not_lt.1 ha]) (sub_ne_zero.2 hg.y1)
    have : slope t (a, b) - slope t (a, c) < 0 := by
      by_contra hn
      have h5 := mul_nonneg (not_lt.1 hn) hP.le
      have h6 : (a.y - t.y) * (6 * vol t (a, b, c)) < 0 := mul_neg_of_neg_of_pos hay (by linarith)
      linarith
    unfold above
    rw [if_neg ha, if_pos hb]
    push_cast
    linarith

theorem round3_cycle (φ : Point × Point → ℝ) (a b c : Point) : round3 φ (a, b, c) = round3 φ (b, c, a) := by
  unfold round3; dsimp only; ring

theorem slopes_round {t : Point} {T : Tri} (hg : Generic t T) (hv : 0 < vol t T) (h0 : turns t T = 0) :
    round3 (slopes t) T ≤ 0 ∧ (Crosses t T → round3 (slopes t) T < 0) := by
  obtain ⟨a, b, c⟩ := T
  by_cases hab : t.y < a.y ↔ t.y < b.y
  · by_cases hbc : t.y < b.y ↔ t.y < c.y
    · refine ⟨?_, fun h => absurd ⟨hab, hbc⟩ h⟩
      unfold round3; dsimp only
      rw [slopes_same hab, slopes_same hbc, slopes_same (hbc.symm.trans hab.symm)]; simp
    · have := slopes_alone (a := c) (b := a) (c := b) hg.cycle.cycle (by rw [hab]; exact fun h => hbc h.symm) hab
        (by rw [← vol_cycle t b c a, ← vol_cycle t a b c]; exact hv) (by rw [← turns_cycle t b c a, ← turns_cycle t a b c]; exact h0)
      rw [← round3_cycle _ b c a, ← round3_cycle _ a b c] at this
      exact ⟨this.le, fun _ => this⟩
  · by_cases hbc : t.y < b.y ↔ t.y < c.y
    · have := slopes_alone hg hab hbc hv h0
      exact ⟨this.le, fun _ => this⟩
    · have := slopes_alone (a := b) (b := c) (c := a) hg.cycle hbc (by
          clear h0 hv hg
          by_cases h1 : t.y < a.y <;> by_cases h2 : t.y < b.y <;> by_cases h3 : t.y < c.y <;> tauto)
        (by rw [← vol_cycle t a b c]; exact hv) (by rw [← turns_cycle t a b c]; exact h0)
      rw [← round3_cycle _ a b c] at this
      exact ⟨this.le, fun _ => this⟩

/-- a closed surface all of whose triangles have their inner side towards `t` is hit -/
theorem surrounds_hit {L : List Tri} (hb : Balanced L) (hne : L ≠ []) {t : Point} (hg : ∀ T ∈ L, Generic t T) (hv : ∀ T ∈ L, 0 < vol t T) :
    0 < (L.map (hits t)).sum := by
  have hex : ∃ T ∈ L, turns t T ≠ 0 := by
    by_contra hno
    push Not at hno
    have hcr : ∃ T ∈ L, Crosses t T := by
      by_contra hnc
      push Not at hnc
      have h0 := hb (proj t) (proj_swap t)
      have hlt : ∀ T ∈ L, round3 (proj t) T < 0 := fun T hT => proj_round (hg T hT) (hnc T hT) (hv T hT)
      obtain ⟨T, hT⟩ := List.exists_mem_of_ne_nil _ hne
      have := sum_neg_of L (round3 (proj t)) (fun T hT => (hlt T hT).le) ⟨T, hT, hlt T hT⟩
      linarith
    obtain ⟨T, hT, hc⟩ := hcr
    have h0 := hb (slopes t) (slopes_swap t)
    have := sum_neg_of L (round3 (slopes t)) (fun T hT => (slopes_round (hg T hT) (hv T hT) (hno T hT)).1)
      ⟨T, hT, (slopes_round (hg T hT) (hv T hT) (hno T hT)).2 hc⟩
    linarith
  have hpos : ∃ T ∈ L, 0 < turns t T := by
    by_contra hno
    push Not at hno
    obtain ⟨T, hT, hn⟩ := hex
    have h0 := turns_balanced hb t
    have := sum_neg_of L (fun T => ((turns t T : ℤ) : ℝ)) (fun T hT => by have := hno T hT; exact_mod_cast this)
      ⟨T, hT, by have := lt_of_le_of_ne (hno T hT) hn; exact_mod_cast this⟩
    have e : (((L.map (turns t)).sum : ℤ) : ℝ) = (L.map fun T => ((turns t T : ℤ) : ℝ)).sum := by rw [cast_sumZ, List.map_map]; rfl
    rw [h0] at e
    rw [← e] at this
    norm_num at this
  have hh : ∀ T ∈ L, 0 ≤ hits t T ∧ (0 < turns t T → 0 < hits t T) := by
    intro T hT
    rcases lt_trichotomy (nz T) 0 with hn | hn | hn
    · have : ¬ 0 ≤ vol t T * nz T := not_le.2 (mul_neg_of_pos_of_neg (hv T hT) hn)
      have h1 : turns t T ≤ 0 := by rcases turns_down (t := t) hn with e | ⟨e, _⟩ <;> omega
      unfold hits
      rw [if_neg this]
      exact ⟨by simp, fun h => by omega⟩
    · have h1 := turns_vertical (t := t) hn
      unfold hits
      rw [h1]
      exact ⟨by simp, fun h => by omega⟩
    · have : 0 ≤ vol t T * nz T := (mul_pos (hv T hT) hn).le
      have h1 : 0 ≤ turns t T := by rcases turns_up (t := t) hn with e | ⟨e, _⟩ <;> omega
      unfold hits
      rw [if_pos this, mul_one]
      exact ⟨h1, id⟩
  obtain ⟨T, hT, hp⟩ := hpos
  have := sum_neg_of L (fun T => -((hits t T : ℤ) : ℝ)) (fun T hT => by have := (hh T hT).1; simpa using this)
    ⟨T, hT, by have := (hh T hT).2 hp; simpa using this⟩
  rw [sum_map_neg] at this
  have e : (((L.map (hits t)).sum : ℤ) : ℝ) = (L.map fun T => ((hits t T : ℤ) : ℝ)).sum := by rw [cast_sumZ, List.map_map]; rfl
  rw [← e] at this
  have h2 : (0 : ℝ) < ((L.map (hits t)).sum : ℤ) := by linarith
  exact_mod_cast h2

end Jali.Geom
