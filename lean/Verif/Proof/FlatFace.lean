import Verif.Proof.SideGeometrySum
/-! The centroid computed for a flat face lies in its plane. -/
namespace Jali.SideGeom
open Jali.Geom Jali.Geom.Spec Jali.Geom.Point Spec

theorem linear_sum {α : Type} (l : List α) (w : α → ℝ) (x y z : α → ℝ) (a b c K : ℝ)
    (h : ∀ e ∈ l, a * x e + b * y e + c * z e = K) :
    a * (l.map fun e => w e * x e).sum + b * (l.map fun e => w e * y e).sum + c * (l.map fun e => w e * z e).sum =
      K * (l.map w).sum := by
  induction l with
  | nil => simp
  | cons e l ih =>
    have h1 := h e (by simp)
    have h2 := ih fun e he => h e (by simp [he])
    simp only [List.map_cons, List.sum_cons]
    linear_combination w e * h1 + h2

theorem mean_linear (l : List Point) (hne : l ≠ []) (a b c K : ℝ) (h : ∀ p ∈ l, a * p.x + b * p.y + c * p.z = K) :
    a * (vertexMean 3 l).x + b * (vertexMean 3 l).y + c * (vertexMean 3 l).z = K := by
  have h0 : (l.length : ℝ) ≠ 0 := by
    have := List.length_pos_iff.2 hne
    exact_mod_cast (by omega : l.length ≠ 0)
  have h1 := linear_sum l (fun _ => 1) Point.x Point.y Point.z a b c K h
  simp only [one_mul, List.map_const', List.sum_replicate, nsmul_eq_mul, mul_one] at h1
  simp only [vertexMean, mean, List.length_map]
  field_simp
  linarith

theorem norm3_zero {x y z : ℝ} (h : Point.norm ⟨3, x, y, z⟩ = 0) : x = 0 ∧ y = 0 ∧ z = 0 := by
  rw [Point.norm, dot3] at h
  have h0 : 0 ≤ x * x + y * y + z * z := add_nonneg (add_nonneg (mul_self_nonneg _) (mul_self_nonneg _)) (mul_self_nonneg _)
  have h1 := (Real.sqrt_eq_zero h0).1 h
  have hx := mul_self_nonneg x
  have hy := mul_self_nonneg y
  have hz := mul_self_nonneg z
  exact ⟨mul_self_eq_zero.1 (by linarith), mul_self_eq_zero.1 (by linarith), mul_self_eq_zero.1 (by linarith)⟩

theorem norm_nonneg3 (p : Point) : 0 ≤ Point.norm p := Real.sqrt_nonneg _

theorem sum_zero_all {α : Type} (l : List α) (f : α → ℝ) (h : ∀ a ∈ l, 0 ≤ f a) (h0 : (l.map f).sum = 0) : ∀ a ∈ l, f a = 0 := by
  induction l with
  | nil => intro a ha; cases ha
  | cons a l ih =>
    simp only [List.map_cons, List.sum_cons] at h0
    have h1 := h a (by simp)
    have h2 := sum_nonneg_of l f fun x hx => h x (by simp [hx])
    have h3 := ih (fun x hx => h x (by simp [hx])) (by linarith)
    intro b hb
    rcases List.mem_cons.1 hb with rfl | hb
    · linarith
    · exact h3 b hb

/-- the centroid of a flat polygon lies in its plane -/
theorem flat_centroid (coords : List Point) (h : 3 ≤ coords.length) (h3 : ∀ p ∈ coords, p.d = 3) (hf : Flat coords) :
    inner3 (areaVector coords) (vec (vertexMean 3 coords) (polygonAreaCentroidNormal coords).centroid) = 0 := by
  have hne : coords ≠ [] := by intro e; rw [e] at h; simp at h
  have hd := h3 _ (pt_zero_mem (show 0 < coords.length by omega))
  rcases Nat.lt_or_ge 3 coords.length with hl | hl
  · by_cases hA : areaVector coords = zero 3
    · rw [hA]; simp [inner3, zero]
    have hA' := polygon_normal_contour coords h h3
    rw [polygon_loop coords hl] at hA' ⊢
    simp only [hd, meanPoint3] at hA' ⊢
    generalize hv : vertexMean 3 coords = v at *
    have vd : v.d = 3 := by rw [← hv]; rfl
    have hT : ∀ e ∈ polyEdges coords, (triNormal v e.1 e.2).d = 3 := by
      intro e he
      have := mem_edges_l he
      rw [triNormal3 (h3 _ this.1) (h3 _ this.2)]
    set w : Point × Point → ℝ := fun e => Point.norm (triNormal v e.1 e.2) with hw
    have hW : ((polyEdges coords).map w).sum ≠ 0 := by
      intro h0
      apply hA
      have hz := sum_zero_all _ w (fun e _ => norm_nonneg3 _) h0
      have hz' : ∀ e ∈ polyEdges coords, triNormal v e.1 e.2 = zero 3 := by
        intro e he
        have h1 := hz e he
        have h2 := hT e he
        simp only [hw] at h1
        generalize triNormal v e.1 e.2 = t at h1 h2
        obtain ⟨d, x, y, z⟩ := t
        dsimp only at h2
        subst h2
        obtain ⟨rfl, rfl, rfl⟩ := norm3_zero h1
        rfl
      rw [← hA', List.map_congr_left hz']
      generalize polyEdges coords = E
      induction E with
      | nil => rfl
      | cons e E ih =>
        rw [List.map_cons, List.foldl_cons]
        have : addAssign (zero 3) (zero 3) = zero 3 := by simp [addAssign, zero]
        rw [this]; exact ih
    set E := polyEdges coords with hE
    have hc : ∀ e ∈ E, sdiv (smul (Point.norm (triNormal v e.1 e.2)) (e.1 + e.2 + v)) 3 =
        ⟨3, w e * ((e.1.x + e.2.x + v.x) / 3), w e * ((e.1.y + e.2.y + v.y) / 3), w e * ((e.1.z + e.2.z + v.z) / 3)⟩ := by
      intro e he
      have hm := mem_edges_l he
      rw [add3 _ (h3 _ hm.1), add3 _ rfl, smul3, sdiv, smul3]
      ext <;> simp only [hw] <;> ring
    rw [List.map_congr_left hc]
    set L := E.map fun e => (⟨3, w e * ((e.1.x + e.2.x + v.x) / 3), w e * ((e.1.y + e.2.y + v.y) / 3), w e * ((e.1.z + e.2.z + v.z) / 3)⟩ : Point)
    have hfd : (L.foldl addAssign (zero 3)).d = 3 := foldl_addAssign_d _ _
    have hfx := foldl_addAssign_x L (zero 3) (by simp [zero])
    have hfy := foldl_addAssign_y L (zero 3) (by simp [zero])
    have hfz := foldl_addAssign_z L (zero 3) (by simp [zero])
    generalize L.foldl addAssign (zero 3) = S at *
    obtain ⟨d, sx, sy, sz⟩ := S
    dsimp only at hfd hfx hfy hfz
    subst hfd
    simp only [zero, zero_add, L, List.map_map, Function.comp_def] at hfx hfy hfz
    obtain ⟨q, hq⟩ := List.exists_mem_of_ne_nil _ hne
    have hfl : ∀ p ∈ coords, inner3 (areaVector coords) (vec q p) = 0 := fun p hp => hf q hq p hp
    generalize areaVector coords = A at *
    have hK : ∀ p ∈ coords, A.x * p.x + A.y * p.y + A.z * p.z = A.x * q.x + A.y * q.y + A.z * q.z := by
      intro p hp
      have := hfl p hp
      simp only [inner3, vec] at this
      linarith
    have hv' := mean_linear coords hne _ _ _ _ hK
    rw [hv] at hv'
    have hs := linear_sum E w (fun e => (e.1.x + e.2.x + v.x) / 3) (fun e => (e.1.y + e.2.y + v.y) / 3)
      (fun e => (e.1.z + e.2.z + v.z) / 3) A.x A.y A.z (A.x * q.x + A.y * q.y + A.z * q.z) (fun e he => by
        have hm := mem_edges_l he
        have h1 := hK _ hm.1
        have h2 := hK _ hm.2
        linear_combination (1 / 3) * h1 + (1 / 3) * h2 + (1 / 3) * hv')
    rw [← hfx, ← hfy, ← hfz] at hs
    generalize (E.map w).sum = W at *
    simp only [divAssign, mulAssign, inner3, vec]
    norm_num
    field_simp
    linear_combination hs - W * hv'
  · have hl3 : coords.length = 3 := by omega
    have : (polygonAreaCentroidNormal coords).centroid = vertexMean 3 coords := by
      simp only [polygonAreaCentroidNormal, hl3, hd, meanPoint3]
      rfl
    rw [this]
    simp [inner3, vec]

end Jali.SideGeom
