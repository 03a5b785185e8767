import Verif.Proof.Geometry
import Mathlib.Tactic.FieldSimp
import Mathlib.Tactic.Positivity
import Mathlib.Tactic.NormNum
/-! Crossing counts of `point_in_polygon`. -/
namespace Jali.Geom
open Spec Point

/-- the edge crosses the horizontal line through `y` upwards / downwards -/
def Up (y : ℝ) (e : Point × Point) : Prop := e.1.y ≤ y ∧ y < e.2.y
def Down (y : ℝ) (e : Point × Point) : Prop := y < e.1.y ∧ e.2.y ≤ y

theorem crosses_iff (t : Point) (e : Point × Point) : crosses t.x t.y e.1 e.2 = true ↔
    (Up t.y e ∧ 0 ≤ orient2 t e.1 e.2) ∨ (Down t.y e ∧ orient2 t e.1 e.2 ≤ 0) := by
  obtain ⟨p, q⟩ := e
  simp only [crosses, Bool.and_eq_true, decide_eq_true_eq, Up, Down, orient2]
  constructor
  · rintro ⟨⟨h1, h2⟩ | ⟨h1, h2⟩, h3⟩
    · right
      have hd : q.y - p.y < 0 := by linarith
      refine ⟨⟨h1, h2⟩, ?_⟩
      have h4 : (t.y - p.y) * (q.x - p.x) / (q.y - p.y) * (q.y - p.y) = (t.y - p.y) * (q.x - p.x) := div_mul_cancel₀ _ hd.ne
      have h5 : 0 ≤ (p.x + (t.y - p.y) * (q.x - p.x) / (q.y - p.y) - t.x) * (p.y - q.y) :=
        mul_nonneg (by linarith) (by linarith)
      nlinarith [h4, h5]
    · left
      have hd : 0 < q.y - p.y := by linarith
      refine ⟨⟨h2, h1⟩, ?_⟩
      have h4 : (t.y - p.y) * (q.x - p.x) / (q.y - p.y) * (q.y - p.y) = (t.y - p.y) * (q.x - p.x) := div_mul_cancel₀ _ hd.ne'
      have h5 : 0 ≤ (p.x + (t.y - p.y) * (q.x - p.x) / (q.y - p.y) - t.x) * (q.y - p.y) :=
        mul_nonneg (by linarith) (by linarith)
      nlinarith [h4, h5]
  · rintro (⟨⟨h1, h2⟩, h3⟩ | ⟨⟨h1, h2⟩, h3⟩)
    · have hd : 0 < q.y - p.y := by linarith
      refine ⟨.inr ⟨h2, h1⟩, ?_⟩
      rw [← sub_le_iff_le_add', le_div_iff₀ hd]
      nlinarith [h3]
    · have hd : q.y - p.y < 0 := by linarith
      refine ⟨.inl ⟨h1, h2⟩, ?_⟩
      rw [← sub_le_iff_le_add', le_div_iff_of_neg hd]
      nlinarith [h3]

theorem toggle_count {α : Type} (L : List α) (f : α → Bool) : ∀ c : Bool,
    L.foldl (fun c a => if f a = true then !c else c) c = (c ^^ decide (L.countP f % 2 = 1)) := by
  induction L with
  | nil => intro c; simp
  | cons a L ih =>
    intro c
    rw [List.foldl_cons, ih, List.countP_cons]
    by_cases h : f a = true
    · simp only [h, if_true]
      rcases Nat.mod_two_eq_zero_or_one (L.countP f) with h0 | h0
      · have h1 : (L.countP f + 1) % 2 = 1 := by omega
        simp [h0, h1]
      · have h1 : (L.countP f + 1) % 2 = 0 := by omega
        simp [h0, h1]
    · simp [h]

/-- the answer is the parity of the number of edges counted -/
theorem inPolygon_parity (t : Point) (coords : List Point) : pointInPolygon t coords = true ↔
    (polyEdges coords).countP (fun e => crosses t.x t.y e.1 e.2) % 2 = 1 := by
  have h := foldl_edges coords (zero 0) (fun c p q => if crosses t.x t.y p q = true then !c else c) false
  have e : pointInPolygon t coords = (polyEdges coords).foldl (fun c e => if crosses t.x t.y e.1 e.2 = true then !c else c) false := h
  rw [e, toggle_count (polyEdges coords) (fun e => crosses t.x t.y e.1 e.2) false]
  simp

open Classical in
/-- a polygon crosses a line as often upwards as downwards -/
theorem up_eq_down (y : ℝ) (l : List Point) :
    (polyEdges l).countP (fun e => decide (Up y e)) = (polyEdges l).countP (fun e => decide (Down y e)) := by
  have ht := edges_telescope l (fun v => if y < v.y then (1 : ℝ) else 0)
  have key : ∀ L : List (Point × Point), (L.map fun e => (if y < e.2.y then (1 : ℝ) else 0) - (if y < e.1.y then (1 : ℝ) else 0)).sum =
      (L.countP (fun e => decide (Up y e)) : ℝ) - (L.countP (fun e => decide (Down y e)) : ℝ) := by
    intro L
    induction L with
    | nil => simp
    | cons e L ih =>
      rw [List.map_cons, List.sum_cons, ih, List.countP_cons, List.countP_cons]
      by_cases h1 : y < e.1.y <;> by_cases h2 : y < e.2.y
      · have u : ¬ Up y e := fun h => absurd h1 (not_lt.2 h.1)
        have dn : ¬ Down y e := fun h => absurd h2 (not_lt.2 h.2)
        simp [h1, h2, u, dn]
      · have u : ¬ Up y e := fun h => absurd h1 (not_lt.2 h.1)
        have dn : Down y e := ⟨h1, not_lt.1 h2⟩
        simp [h1, h2, u, dn]; ring
      · have u : Up y e := ⟨not_lt.1 h1, h2⟩
        have dn : ¬ Down y e := fun h => absurd h.1 h1
        simp [h1, h2, u, dn]; ring
      · have u : ¬ Up y e := fun h => absurd h.2 h2
        have dn : ¬ Down y e := fun h => absurd h.1 h1
        simp [h1, h2, u, dn]
  rw [key] at ht
  have : ((polyEdges l).countP (fun e => decide (Up y e)) : ℝ) = (polyEdges l).countP (fun e => decide (Down y e)) := by linarith
  exact_mod_cast this

theorem up_not_down {y : ℝ} {e : Point × Point} (h : Up y e) : ¬ Down y e := fun h' => absurd h'.1 (not_lt.2 h.1)

theorem countP_split {α : Type} (L : List α) (p q r : α → Bool) (h : ∀ a ∈ L, p a = (q a || r a)) (hd : ∀ a ∈ L, ¬ (q a = true ∧ r a = true)) :
    L.countP p = L.countP q + L.countP r := by
  induction L with
  | nil => simp
  | cons a L ih =>
    rw [List.countP_cons, List.countP_cons, List.countP_cons, ih (fun x hx => h x (by simp [hx])) (fun x hx => hd x (by simp [hx])),
      h a (by simp)]
    have := hd a (by simp)
    cases hq : q a <;> cases hr : r a <;> simp_all <;> omega

/-! ### convex polygons -/

theorem convex_nonneg {l : List Point} (h : StrictlyConvex l) {e} (he : e ∈ polyEdges l) {v} (hv : v ∈ l) : 0 ≤ orient2 e.1 e.2 v := by
  rcases h.left e he v hv with rfl | rfl | h
  · simp [orient2]
  · simp only [orient2]; nlinarith
  · exact h.le

theorem convex_zero {l : List Point} (h : StrictlyConvex l) {e} (he : e ∈ polyEdges l) {v} (hv : v ∈ l) (h0 : orient2 e.1 e.2 v = 0) :
    v = e.1 ∨ v = e.2 := by
  rcases h.left e he v hv with h' | h' | h'
  · exact .inl h'
  · exact .inr h'
  · exact absurd h0 h'.ne'

theorem edges_nodup_fst {l : List Point} (h : l.Nodup) {e e' : Point × Point} (he : e ∈ polyEdges l) (he' : e' ∈ polyEdges l)
    (h1 : e.1 = e'.1) : e = e' := by
  have hn : ((polyEdges l).map Prod.fst).Nodup := by rw [edges_fst]; exact h
  exact List.inj_on_of_nodup_map hn he he' h1

theorem up_unique {l : List Point} (h : StrictlyConvex l) {y : ℝ} {e e' : Point × Point} (he : e ∈ polyEdges l) (he' : e' ∈ polyEdges l)
    (hu : Up y e) (hu' : Up y e') : e = e' := by
  have m := mem_edges_l he
  have m' := mem_edges_l he'
  obtain ⟨u1, u2⟩ := hu
  obtain ⟨v1, v2⟩ := hu'
  have a1 := convex_nonneg h he m'.1
  have a2 := convex_nonneg h he m'.2
  have b1 := convex_nonneg h he' m.1
  have b2 := convex_nonneg h he' m.2
  have s1 : 0 ≤ (e'.2.y - y) * orient2 e.1 e.2 e'.1 := mul_nonneg (by linarith) a1
  have s2 : 0 ≤ (y - e'.1.y) * orient2 e.1 e.2 e'.2 := mul_nonneg (by linarith) a2
  have s3 : 0 ≤ (e.2.y - y) * orient2 e'.1 e'.2 e.1 := mul_nonneg (by linarith) b1
  have s4 : 0 ≤ (y - e.1.y) * orient2 e'.1 e'.2 e.2 := mul_nonneg (by linarith) b2
  have id : (e'.2.y - y) * orient2 e.1 e.2 e'.1 + (y - e'.1.y) * orient2 e.1 e.2 e'.2 +
      ((e.2.y - y) * orient2 e'.1 e'.2 e.1 + (y - e.1.y) * orient2 e'.1 e'.2 e.2) = 0 := by
    simp only [orient2]; ring
  have z : (e'.2.y - y) * orient2 e.1 e.2 e'.1 = 0 := by linarith
  have z' : orient2 e.1 e.2 e'.1 = 0 := by
    rcases mul_eq_zero.1 z with hh | hh
    · linarith
    · exact hh
  rcases convex_zero h he m'.1 z' with hh | hh
  · exact edges_nodup_fst h.nodup he he' hh.symm
  · rw [hh] at v1; linarith

theorem countP_le_one {α : Type} [DecidableEq α] (L : List α) (p : α → Bool) (hn : L.Nodup)
    (h : ∀ a ∈ L, ∀ b ∈ L, p a = true → p b = true → a = b) : L.countP p ≤ 1 := by
  rw [List.countP_eq_length_filter]
  match hf : L.filter p with
  | [] => simp
  | [a] => simp
  | a :: b :: r =>
    exfalso
    have hnf : (L.filter p).Nodup := hn.filter _
    have ha : a ∈ L.filter p := by rw [hf]; simp
    have hb : b ∈ L.filter p := by rw [hf]; simp
    rw [List.mem_filter] at ha hb
    have := h a ha.1 b hb.1 ha.2 hb.2
    rw [hf] at hnf
    simp [this] at hnf

theorem edges_nodup {l : List Point} (h : l.Nodup) : (polyEdges l).Nodup := by
  apply List.Nodup.of_map Prod.fst
  rw [edges_fst]; exact h

/-- a point strictly to the left of all edges of a polygon has vertices above and not above it -/
theorem inside_has_up {l : List Point} (t : Point) (hne : l ≠ []) (hin : ∀ e ∈ polyEdges l, 0 < orient2 t e.1 e.2) :
    ∃ e ∈ polyEdges l, Up t.y e := by
  by_contra hno
  push Not at hno
  classical
  have hU : (polyEdges l).countP (fun e => decide (Up t.y e)) = 0 := by
    rw [List.countP_eq_zero]; intro e he; simpa using hno e he
  have hD : (polyEdges l).countP (fun e => decide (Down t.y e)) = 0 := by rw [← up_eq_down]; exact hU
  rw [List.countP_eq_zero] at hD
  have hnd : ∀ e ∈ polyEdges l, ¬ Down t.y e := fun e he => by simpa using hD e he
  have hiff : ∀ e ∈ polyEdges l, (t.y < e.1.y ↔ t.y < e.2.y) := by
    intro e he
    constructor
    · intro h; by_contra h2; exact hnd e he ⟨h, not_lt.1 h2⟩
    · intro h; by_contra h2; exact hno e he ⟨not_lt.1 h2, h⟩
  -- no vertex at the height of the point
  have hz : ∀ v ∈ l, v.y ≠ t.y := by
    intro v hv h0
    have hv1 : v ∈ (polyEdges l).map Prod.fst := by rw [edges_fst]; exact hv
    have hv2 : v ∈ (polyEdges l).map Prod.snd := by rw [edges_snd]; exact List.mem_rotate.2 hv
    obtain ⟨e, he, rfl⟩ := List.mem_map.1 hv1
    obtain ⟨e', he', h'⟩ := List.mem_map.1 hv2
    have i1 := hin e he
    have i2 := hin e' he'
    rw [h'] at i2
    have k1 : e.2.y ≤ t.y := by by_contra h; exact absurd ((hiff e he).2 (not_le.1 h)) (by rw [h0]; exact lt_irrefl _)
    have k2 : e'.1.y ≤ t.y := by
      by_contra h
      have := (hiff e' he').1 (not_le.1 h)
      rw [h', h0] at this
      exact lt_irrefl _ this
    simp only [orient2, h0, sub_self, mul_zero, sub_zero, zero_sub] at i1 i2
    -- i1 : (e.1.x - t.x) * (e.2.y - t.y) > 0, i2 : -(e.1.x - t.x) * (e'.1.y - t.y) > 0
    have hx : e.1.x - t.x < 0 := by
      by_contra h
      have := mul_nonneg (not_lt.1 h) (sub_nonneg.2 k1)
      nlinarith
    have := mul_nonneg_of_nonpos_of_nonpos hx.le (sub_nonpos.2 k2)
    linarith
  -- the ratio x/y decreases around the polygon
  have hdec : ∀ e ∈ polyEdges l, (e.2.x - t.x) / (e.2.y - t.y) - (e.1.x - t.x) / (e.1.y - t.y) < 0 := by
    intro e he
    have h1 : e.1.y - t.y ≠ 0 := sub_ne_zero.2 (hz _ (mem_edges_l he).1)
    have h2 : e.2.y - t.y ≠ 0 := sub_ne_zero.2 (hz _ (mem_edges_l he).2)
    have hpos : 0 < (e.1.y - t.y) * (e.2.y - t.y) := by
      by_cases hh : t.y < e.1.y
      · exact mul_pos (by linarith) (by have := (hiff e he).1 hh; linarith)
      · have hh2 : ¬ t.y < e.2.y := fun h => hh ((hiff e he).2 h)
        have k1 : e.1.y - t.y < 0 := lt_of_le_of_ne (by linarith [not_lt.1 hh]) h1
        have k2 : e.2.y - t.y < 0 := lt_of_le_of_ne (by linarith [not_lt.1 hh2]) h2
        exact mul_pos_of_neg_of_neg k1 k2
    have := hin e he
    simp only [orient2] at this
    rw [div_sub_div _ _ h2 h1]
    apply div_neg_of_neg_of_pos
    · linarith
    · linarith
  have ht := edges_telescope l (fun v => (v.x - t.x) / (v.y - t.y))
  have hneg : ((polyEdges l).map fun e => (e.2.x - t.x) / (e.2.y - t.y) - (e.1.x - t.x) / (e.1.y - t.y)).sum < 0 := by
    have hne' : polyEdges l ≠ [] := by
      intro h0; have := congrArg List.length h0; rw [edges_length, List.length_nil] at this
      exact hne (List.length_eq_zero_iff.1 this)
    generalize polyEdges l = L at hdec hne'
    clear ht hno hU hD hnd hiff hin
    induction L with
    | nil => exact absurd rfl hne'
    | cons a L ih =>
      rw [List.map_cons, List.sum_cons]
      have h1 := hdec a (by simp)
      rcases L with _ | ⟨b, L⟩
      · simpa using h1
      · have := ih (fun x hx => hdec x (by simp [hx])) (by simp); linarith
  linarith

end Jali.Geom
