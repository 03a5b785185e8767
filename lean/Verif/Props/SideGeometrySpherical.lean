import Verif.Props.SideGeometry1D
/-! Property theorems C187: sides of one-dimensional meshes in spherical and cylindrical geometry. -/
namespace Jali.SideGeom
open Jali.Geom Jali.Geom.Point Spec

variable (ncells : Nat) (x cen : Nat → ℝ)

theorem stored_spherical (h : Between ncells x cen) (c : Nat) (hc : c < ncells) (j : Nat) (hj : j < 2) :
    sideStored (of1D ncells (line .SPHERICAL x cen)) (2 * c + j) =
      some ⟨(if j = 1 then -1 else 1) * (4 / 3 * Real.pi * |cen c ^ 3 - x (c + j) ^ 3|), mk1 (-(4 * Real.pi * x (c + j) ^ 2)), mk1 0⟩ := by
  obtain ⟨b1, b2⟩ := h c hc
  obtain ⟨h1, h2, h3, h4⟩ := parts1 ncells x cen .SPHERICAL hc hj
  have h5 := coords1 ncells x cen .SPHERICAL hc hj
  rw [sideStored, computeSideGeometry, h5, h3, h1, h4]
  have hd : (of1D ncells (line .SPHERICAL x cen)).manifoldDim = 1 := rfl
  have hg : (of1D ncells (line .SPHERICAL x cen)).geomType = .SPHERICAL := rfl
  have hs : (of1D ncells (line .SPHERICAL x cen)).spaceDim = 1 := rfl
  have hn : (of1D ncells (line .SPHERICAL x cen)).cellNodes c = [c, c + 1] := rfl
  simp only [hd, hg, hs, hn, side1, pt, List.getD_cons_zero, List.getD_cons_succ, sub1, norm1, Option.bind_some, setAll, zero, second1 c j hj]
  rcases (show j = 0 ∨ j = 1 by omega) with rfl | rfl
  · have e : |cen c - x (c + 0)| = cen c - x c := abs_of_pos (by simp only [Nat.add_zero]; linarith)
    have ne : cen c - x c ≠ 0 := by linarith
    rw [e]
    simp [flip1, sdiv, smul, neg, mk1]
    field_simp
    ring
  · have e : |cen c - x (c + 1)| = -(cen c - x (c + 1)) := abs_of_neg (by linarith)
    have ne : cen c - x (c + 1) ≠ 0 := by linarith
    rw [e]
    have ne' : x (c + 1) - cen c ≠ 0 := by linarith
    simp [flip1, sdiv, smul, neg, mk1]
    field_simp

/-- **C187, the part that holds.** In spherical geometry, for cells at radii that are not negative, the first side of a cell has as volume the
volume of the shell between its node and the centroid of the cell, and as normal the outward one with the area of the sphere at the node; the
second side has these in absolute value; and the absolute values of the two volumes add up to the volume of the cell, the shell between its two
nodes. -/
theorem side_shells_partial (h : Between ncells x cen) (c : Nat) (hc : c < ncells) (h0 : 0 ≤ x c) :
    ∃ v0 v1 n0 n1 : ℝ, let M := of1D ncells (line .SPHERICAL x cen)
      sideVolume M (2 * c) = some v0 ∧ sideVolume M (2 * c + 1) = some v1 ∧
      sideFacetNormal M (2 * c) = some (mk1 n0) ∧ sideFacetNormal M (2 * c + 1) = some (mk1 n1) ∧
      v0 = 4 / 3 * Real.pi * (cen c ^ 3 - x c ^ 3) ∧ 0 < v0 ∧ n0 = -(4 * Real.pi * x c ^ 2) ∧
      |v1| = 4 / 3 * Real.pi * (x (c + 1) ^ 3 - cen c ^ 3) ∧ |n1| = 4 * Real.pi * x (c + 1) ^ 2 ∧
      (segmentVolCentroid [mk1 (x c), mk1 (x (c + 1))] .SPHERICAL).map Prod.fst = some (|v0| + |v1|) ∧
      face1dArea [mk1 (x c)] .SPHERICAL = some |n0| ∧ face1dArea [mk1 (x (c + 1))] .SPHERICAL = some |n1| := by
  obtain ⟨b1, b2⟩ := h c hc
  have hp := Real.pi_pos
  have c1 : x c ^ 3 < cen c ^ 3 := pow_lt_pow_left₀ b1 h0 (by decide)
  have c2 : cen c ^ 3 < x (c + 1) ^ 3 := pow_lt_pow_left₀ b2 (by linarith) (by decide)
  have s0 := stored_spherical ncells x cen h c hc 0 (by omega)
  have s1 := stored_spherical ncells x cen h c hc 1 (by omega)
  simp only [Nat.add_zero, zero_ne_one, if_false, if_true] at s0 s1
  rw [abs_of_pos (by linarith)] at s0
  rw [abs_of_neg (by linarith)] at s1
  have v0 : 0 < 4 / 3 * Real.pi * (cen c ^ 3 - x c ^ 3) := by have := sub_pos.2 c1; positivity
  have v1 : 0 < 4 / 3 * Real.pi * (x (c + 1) ^ 3 - cen c ^ 3) := by have := sub_pos.2 c2; positivity
  have e1 : |(-1 : ℝ) * (4 / 3 * Real.pi * -(cen c ^ 3 - x (c + 1) ^ 3))| = 4 / 3 * Real.pi * (x (c + 1) ^ 3 - cen c ^ 3) := by
    rw [neg_one_mul, abs_neg, neg_sub, abs_of_pos v1]
  have nn : ∀ r : ℝ, |-(4 * Real.pi * r ^ 2)| = 4 * Real.pi * r ^ 2 := fun r => by rw [abs_neg, abs_of_nonneg (by positivity)]
  refine ⟨_, _, _, _, by rw [sideVolume, s0]; rfl, by rw [sideVolume, s1]; rfl, by rw [sideFacetNormal, s0]; rfl, by rw [sideFacetNormal, s1]; rfl,
    one_mul _, by rw [one_mul]; exact v0, rfl, e1, nn _, ?_, ?_, ?_⟩
  · rw [e1, one_mul, abs_of_pos v0]
    simp only [segmentVolCentroid, pt, List.getD_cons_zero, List.getD_cons_succ, mk1, Option.map_some, Option.some.injEq]
    ring
  · rw [nn]; rfl
  · rw [nn]; rfl

/-- **C187, the part that holds, for the whole mesh.** In spherical geometry the absolute values of the volumes of all sides of a mesh add up to
the volume of the shell between its first and its last node. -/
theorem sides_fill_domain_partial (h : Between ncells x cen) (h0 : 0 ≤ x 0) :
    ∃ v : Nat → ℝ, (∀ s, s < 2 * ncells → sideVolume (of1D ncells (line .SPHERICAL x cen)) s = some (v s)) ∧
      ((List.range (2 * ncells)).map fun s => |v s|).sum = 4 / 3 * Real.pi * (x ncells ^ 3 - x 0 ^ 3) := by
  have hpos : ∀ c, c ≤ ncells → 0 ≤ x c := by
    intro c
    induction c with
    | zero => exact fun _ => h0
    | succ c ih =>
      intro hc
      have := h c (by omega)
      have := ih (by omega)
      linarith [(h c (by omega)).1, (h c (by omega)).2]
  refine ⟨fun s => (sideVolume (of1D ncells (line .SPHERICAL x cen)) s).getD 0, ?_, ?_⟩
  · intro s hs
    obtain ⟨v0, v1, _, _, e0, e1, _⟩ := side_shells_partial ncells x cen h (s / 2) (by omega) (hpos _ (by omega))
    rcases (show s = 2 * (s / 2) ∨ s = 2 * (s / 2) + 1 by omega) with hs' | hs'
    · rw [← hs'] at e0
      simp only [e0, Option.getD_some]
    · rw [← hs'] at e1
      simp only [e1, Option.getD_some]
  · have key : ∀ k, k ≤ ncells → ((List.range (2 * k)).map fun s => |(sideVolume (of1D ncells (line .SPHERICAL x cen)) s).getD 0|).sum =
        4 / 3 * Real.pi * (x k ^ 3 - x 0 ^ 3) := by
      intro k
      induction k with
      | zero => intro _; simp
      | succ k ih =>
        intro hk
        obtain ⟨v0, v1, _, _, e0, e1, _, _, e2, e3, _, e4, _⟩ := side_shells_partial ncells x cen h k (by omega) (hpos k (by omega))
        rw [show 2 * (k + 1) = 2 * k + 1 + 1 by ring, List.range_succ, List.range_succ]
        simp only [List.map_append, List.map_cons, List.map_nil, List.sum_append, List.sum_cons, List.sum_nil]
        rw [ih (by omega), e0, e1, Option.getD_some, Option.getD_some, e4, e2, abs_of_pos (e2 ▸ e3)]
        ring
    exact key ncells le_rfl

/-- **C187 is false of the code.** In spherical geometry too the second side of every cell has a negative volume, and its outward normal points
inward. -/
theorem side_shells_wrong (h : Between ncells x cen) (c : Nat) (hc : c < ncells) (h0 : 0 ≤ x c) :
    ∃ v1 n1 : ℝ, sideVolume (of1D ncells (line .SPHERICAL x cen)) (2 * c + 1) = some v1 ∧ v1 < 0 ∧
      sideFacetNormal (of1D ncells (line .SPHERICAL x cen)) (2 * c + 1) = some (mk1 n1) ∧ n1 < 0 := by
  obtain ⟨b1, b2⟩ := h c hc
  have hp := Real.pi_pos
  have hx : 0 < x (c + 1) := by linarith
  have c2 : cen c ^ 3 < x (c + 1) ^ 3 := pow_lt_pow_left₀ b2 (by linarith) (by decide)
  have s1 := stored_spherical ncells x cen h c hc 1 (by omega)
  simp only [if_true] at s1
  rw [abs_of_neg (by linarith)] at s1
  have v1 : 0 < 4 / 3 * Real.pi * (x (c + 1) ^ 3 - cen c ^ 3) := by have := sub_pos.2 c2; positivity
  have p2 : 0 < 4 * Real.pi * x (c + 1) ^ 2 := by positivity
  exact ⟨_, _, by rw [sideVolume, s1]; rfl, by rw [neg_one_mul, neg_sub]; linarith, by rw [sideFacetNormal, s1]; rfl, by linarith⟩

/-- **C187, the part that holds: wedges and corners.** The two wedges of a side have half its volume each, and the corner at the node of a side
has the volume of the side; that of the first corner of a cell is the shell between its node and the centroid of the cell, that of the second
corner is this up to sign. -/
theorem corner_shells_partial (h : Between ncells x cen) (c : Nat) (hc : c < ncells) (h0 : 0 ≤ x c) :
    ∃ v0 v1 : ℝ, let M := of1D ncells (line .SPHERICAL x cen)
      cornerVolume M (2 * c) = some v0 ∧ cornerVolume M (2 * c + 1) = some v1 ∧
      (∀ i < 2, wedgeVolume M (2 * (2 * c) + i) = some (v0 / 2) ∧ wedgeVolume M (2 * (2 * c + 1) + i) = some (v1 / 2)) ∧
      v0 = 4 / 3 * Real.pi * (cen c ^ 3 - x c ^ 3) ∧ |v1| = 4 / 3 * Real.pi * (x (c + 1) ^ 3 - cen c ^ 3) := by
  obtain ⟨v0, v1, _, _, e0, e1, _, _, q0, _, _, q1, _⟩ := side_shells_partial ncells x cen h c hc h0
  have hcv : ∀ j < 2, ∀ v, sideVolume (of1D ncells (line .SPHERICAL x cen)) (2 * c + j) = some v →
      cornerVolume (of1D ncells (line .SPHERICAL x cen)) (2 * c + j) = some v := by
    intro j hj v hv
    have hw : (of1D ncells (line .SPHERICAL x cen)).cornerWedges (2 * c + j) = some [2 * (2 * c + j), 2 * (2 * c + j) + 1] := by
      have : 2 * c + j < 2 * ncells := by omega
      simp [of1D, this]
    have d1 : 2 * (2 * c + j) / 2 = 2 * c + j := by omega
    have d2 : (2 * (2 * c + j) + 1) / 2 = 2 * c + j := by omega
    simp only [cornerVolume, hw, Option.bind_some, sumWedges, wedgeVolume, d1, d2, hv, Option.map_some]
    congr 1; ring
  refine ⟨v0, v1, hcv 0 (by omega) _ e0, hcv 1 (by omega) _ e1, fun i hi => ⟨?_, ?_⟩, q0, q1⟩
  · rw [wedgeVolume, show (2 * (2 * c) + i) / 2 = 2 * c by omega, e0]; rfl
  · rw [wedgeVolume, show (2 * (2 * c + 1) + i) / 2 = 2 * c + 1 by omega, e1]; rfl

/-- **C187 is false of the code.** In cylindrical geometry the volumes and normals of sides are never set: the code reads what is in memory. -/
theorem side_cylindrical_unset (s : Nat) : sideVolume (of1D ncells (line .CYLINDRICAL x cen)) s = none ∧
    sideFacetNormal (of1D ncells (line .CYLINDRICAL x cen)) s = none := by
  have : sideStored (of1D ncells (line .CYLINDRICAL x cen)) s = none := by
    rw [sideStored, computeSideGeometry]
    have hd : (of1D ncells (line .CYLINDRICAL x cen)).manifoldDim = 1 := rfl
    have hg : (of1D ncells (line .CYLINDRICAL x cen)).geomType = .CYLINDRICAL := rfl
    rw [hd, hg]
    split
    · rw [if_neg (by decide), if_neg (by decide)]; rfl
    · rfl
  exact ⟨by rw [sideVolume, this]; rfl, by rw [sideFacetNormal, this]; rfl⟩

/-- cells of length 1 from the centre, centroids in the middle -/
example : Between 3 (fun n => (n : ℝ)) (fun c => (c : ℝ) + 1 / 2) ∧ (0 : ℝ) ≤ (fun n : Nat => (n : ℝ)) 1 ∧
    (0 : ℝ) ≤ (fun n : Nat => (n : ℝ)) 0 := by
  refine ⟨fun c _ => ⟨by simp, ?_⟩, by norm_num, by norm_num⟩
  push_cast; linarith

end Jali.SideGeom
