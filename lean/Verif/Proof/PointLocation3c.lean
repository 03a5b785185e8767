import Verif.Proof.PointLocation3b
/-! Points close to a point, in general position. -/
namespace Jali.Geom
open Spec Point

theorem avoid (l : List ℝ) : ∀ a b : ℝ, a < b → ∃ y, a < y ∧ y < b ∧ y ∉ l := by
  induction l with
  | nil => intro a b h; exact ⟨(a + b) / 2, by linarith, by linarith, by simp⟩
  | cons x l ih =>
    intro a b h
    by_cases hx : x < (a + b) / 2
    · obtain ⟨y, h1, h2, h3⟩ := ih ((a + b) / 2) b (by linarith)
      exact ⟨y, by linarith, h2, by simp only [List.mem_cons, not_or]; exact ⟨by intro e; linarith, h3⟩⟩
    · obtain ⟨y, h1, h2, h3⟩ := ih a ((a + b) / 2) (by linarith)
      exact ⟨y, h1, by linarith, by simp only [List.mem_cons, not_or]; exact ⟨by intro e; linarith [not_lt.1 hx], h3⟩⟩

/-- `t` moved in x and y -/
def moved (t : Point) (dx dy : ℝ) : Point := ⟨t.d, t.x + dx, t.y + dy, t.z⟩

theorem vol_moved (t : Point) (T : Tri) : ∃ A B : ℝ, ∀ dx dy, vol (moved t dx dy) T = vol t T + A * dx + B * dy := by
  obtain ⟨a, b, c⟩ := T
  refine ⟨-((b.y - a.y) * (c.z - a.z) - (b.z - a.z) * (c.y - a.y)) / 6, -((b.z - a.z) * (c.x - a.x) - (b.x - a.x) * (c.z - a.z)) / 6, ?_⟩
  intro dx dy
  simp only [vol, moved, tetVol, det3, vec]; ring

/-- finitely many strict inequalities still hold close to a point -/
theorem near (t : Point) (L : List Tri) : ∃ ρ > 0, ∀ dx dy : ℝ, |dx| < ρ → |dy| < ρ →
    ∀ T ∈ L, (0 < vol t T → 0 < vol (moved t dx dy) T) ∧ (vol t T < 0 → vol (moved t dx dy) T < 0) := by
  induction L with
  | nil => exact ⟨1, one_pos, by simp⟩
  | cons T L ih =>
    obtain ⟨ρ, hρ, h⟩ := ih
    obtain ⟨A, B, hAB⟩ := vol_moved t T
    by_cases h0 : vol t T = 0
    · refine ⟨ρ, hρ, fun dx dy h1 h2 T' hT' => ?_⟩
      rcases List.mem_cons.1 hT' with rfl | hT'
      · rw [h0]; exact ⟨fun h => absurd h (lt_irrefl _), fun h => absurd h (lt_irrefl _)⟩
      · exact h dx dy h1 h2 T' hT'
    · have hM : 0 < |A| + |B| + 1 := by positivity
      have hv : 0 < |vol t T| := abs_pos.2 h0
      refine ⟨min ρ (|vol t T| / (|A| + |B| + 1)), lt_min hρ (div_pos hv hM), fun dx dy h1 h2 T' hT' => ?_⟩
      obtain ⟨h1a, h1b⟩ := lt_min_iff.1 h1
      obtain ⟨h2a, h2b⟩ := lt_min_iff.1 h2
      rcases List.mem_cons.1 hT' with rfl | hT'
      · rw [hAB]
        have k1 : |A * dx| ≤ |A| * (|vol t T'| / (|A| + |B| + 1)) := by
          rw [abs_mul]; exact mul_le_mul_of_nonneg_left h1b.le (abs_nonneg _)
        have k2 : |B * dy| ≤ |B| * (|vol t T'| / (|A| + |B| + 1)) := by
          rw [abs_mul]; exact mul_le_mul_of_nonneg_left h2b.le (abs_nonneg _)
        have k3 : |A| * (|vol t T'| / (|A| + |B| + 1)) + |B| * (|vol t T'| / (|A| + |B| + 1)) < |vol t T'| := by
          have e : (|A| + |B| + 1) * (|vol t T'| / (|A| + |B| + 1)) = |vol t T'| := mul_div_cancel₀ _ hM.ne'
          have := div_pos hv hM
          linarith
        have a1 := abs_le.1 k1
        have a2 := abs_le.1 k2
        constructor
        · intro hp; rw [abs_of_pos hp] at *; linarith [a1.1, a2.1]
        · intro hn; rw [abs_of_neg hn] at *; linarith [a1.2, a2.2]
      · exact h dx dy h1a h2a T' hT'

/-- there are points in general position close to a point -/
theorem generic_near (t : Point) (L : List Tri) {ρ : ℝ} (hρ : 0 < ρ) : ∃ dx dy : ℝ, |dx| < ρ ∧ |dy| < ρ ∧ ∀ T ∈ L, Generic (moved t dx dy) T := by
  obtain ⟨y, hy1, hy2, hy3⟩ := avoid (L.flatMap fun T => [T.1.y, T.2.1.y, T.2.2.y]) t.y (t.y + ρ) (by linarith)
  obtain ⟨x, hx1, hx2, hx3⟩ := avoid (L.flatMap fun T => [xAt T.1 T.2.1 y, xAt T.2.1 T.2.2 y, xAt T.2.2 T.1 y]) t.x (t.x + ρ) (by linarith)
  refine ⟨x - t.x, y - t.y, by rw [abs_lt]; constructor <;> linarith, by rw [abs_lt]; constructor <;> linarith, fun T hT => ?_⟩
  have ex : (moved t (x - t.x) (y - t.y)).x = x := by simp [moved]
  have ey : (moved t (x - t.x) (y - t.y)).y = y := by simp [moved]
  simp only [List.mem_flatMap, not_exists, not_and, List.mem_cons, List.not_mem_nil, or_false, not_or] at hy3 hx3
  obtain ⟨a1, a2, a3⟩ := hy3 T hT
  obtain ⟨b1, b2, b3⟩ := hx3 T hT
  constructor <;> rw [ey] <;> try rw [ex]
  · exact fun e => a1 e.symm
  · exact fun e => a2 e.symm
  · exact fun e => a3 e.symm
  · exact fun _ e => b1 e.symm
  · exact fun _ e => b2 e.symm
  · exact fun _ e => b3 e.symm

/-- the side of the plane of a triangle -/
theorem vol_affine (T : Tri) : ∃ A B C D : ℝ, ∀ v, vol v T = A * v.x + B * v.y + C * v.z + D := by
  obtain ⟨a, b, c⟩ := T
  refine ⟨-((b.y - a.y) * (c.z - a.z) - (b.z - a.z) * (c.y - a.y)) / 6, -((b.z - a.z) * (c.x - a.x) - (b.x - a.x) * (c.z - a.z)) / 6,
    -((b.x - a.x) * (c.y - a.y) - (b.y - a.y) * (c.x - a.x)) / 6, (det3 a b c) / 6, ?_⟩
  intro v
  simp only [vol, tetVol, det3, vec]; ring

theorem mean_affine (A B C D : ℝ) (g : List Point) (hne : g ≠ []) (h : ∀ v ∈ g, 0 ≤ A * v.x + B * v.y + C * v.z + D) :
    0 ≤ A * (vertexMean 3 g).x + B * (vertexMean 3 g).y + C * (vertexMean 3 g).z + D := by
  have hs : ∀ g : List Point, (∀ v ∈ g, 0 ≤ A * v.x + B * v.y + C * v.z + D) →
      0 ≤ A * (g.map Point.x).sum + B * (g.map Point.y).sum + C * (g.map Point.z).sum + D * g.length := by
    intro g
    induction g with
    | nil => intro _; simp
    | cons v g ih =>
      intro h
      have h1 := h v (by simp)
      have h2 := ih fun w hw => h w (by simp [hw])
      simp only [List.map_cons, List.sum_cons, List.length_cons]
      push_cast
      nlinarith [h1, h2]
  have hn : (0 : ℝ) < g.length := by exact_mod_cast List.length_pos_iff.2 hne
  have e : A * (vertexMean 3 g).x + B * (vertexMean 3 g).y + C * (vertexMean 3 g).z + D =
      (A * (g.map Point.x).sum + B * (g.map Point.y).sum + C * (g.map Point.z).sum + D * g.length) / g.length := by
    simp only [vertexMean, mean, List.length_map]; field_simp
  rw [e]
  exact div_nonneg (hs g h) hn.le

/-- the corners of the triangles of a face are on the side of a plane the corners of the face are on -/
theorem facets_affine (A B C D : ℝ) (g : List Point) (h : ∀ v ∈ g, 0 ≤ A * v.x + B * v.y + C * v.z + D) {T : Tri} (hT : T ∈ facets g) :
    0 ≤ A * T.1.x + B * T.1.y + C * T.1.z + D ∧ 0 ≤ A * T.2.1.x + B * T.2.1.y + C * T.2.1.z + D ∧
      0 ≤ A * T.2.2.x + B * T.2.2.y + C * T.2.2.z + D := by
  by_cases hl : g.length = 3
  · obtain ⟨a, b, c, rfl⟩ := List.length_eq_three.mp hl
    have : T = (a, b, c) := by simpa [facets] using hT
    subst this
    exact ⟨h a (by simp), h b (by simp), h c (by simp)⟩
  · rw [facets_other g hl] at hT
    obtain ⟨e, he, rfl⟩ := List.mem_map.1 hT
    have m := mem_edges_l he
    exact ⟨h _ m.1, h _ m.2, mean_affine A B C D g (List.ne_nil_of_mem m.1) h⟩

end Jali.Geom
