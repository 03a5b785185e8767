import Verif.Props.BlockSearch
import Mathlib.Analysis.SpecialFunctions.Integrals.Basic
/-! Property theorems C160: volumes, centroids and point location on one-dimensional meshes. -/
namespace Jali.SimpleGeom
open Jali.Geom Jali.Geom.Point Jali.MeshGeom Simple1D

variable {nx : Nat} {x : Nat → ℝ}

theorem line_coords {g : GeomType} {c : Nat} (hc : c < nx) : (lineMesh nx x g).cellCoords c = [mk1 (x c), mk1 (x (c + 1))] := by
  show (Simple1D.cellGetNodes nx c).map (fun n => mk1 (x n)) = _
  rw [((downward nx).1 c hc).1]; rfl

theorem line_cell (g : GeomType) (c : Nat) : computeCellGeometry (lineMesh nx x g) c = segmentVolCentroid ((lineMesh nx x g).cellCoords c) g := by
  have h : (lineMesh nx x g).manifoldDim = 1 := rfl
  simp only [computeCellGeometry, h]
  rfl

theorem mid1 (a b : ℝ) : smul 0.5 (mk1 b + mk1 a) = mk1 ((a + b) / 2) := by
  show smul _ (add _ _) = _
  simp [smul, add, mk1]
  ring

/-- **C160, Cartesian meshes.** The volume of a cell is its width, its centroid its middle. -/
theorem line_cell_cartesian (hinc : ∀ i < nx, x i < x (i + 1)) {c : Nat} (hc : c < nx) :
    computeCellGeometry (lineMesh nx x .CARTESIAN) c = some (x (c + 1) - x c, mk1 ((x c + x (c + 1)) / 2)) ∧ 0 < x (c + 1) - x c := by
  have h := hinc c hc
  refine ⟨?_, by linarith⟩
  rw [line_cell, line_coords hc]
  show some (Point.norm (mk1 (x (c + 1)) - mk1 (x c)), smul 0.5 (mk1 (x (c + 1)) + mk1 (x c))) = _
  rw [mid1, SideGeom.sub1, SideGeom.norm1, abs_of_pos (by linarith)]

/-- the volume of the spherical shell between the radii `a` and `b` -/
noncomputable def shell (a b : ℝ) : ℝ := ∫ r in a..b, 4 * Real.pi * r ^ 2

theorem shell_eq (a b : ℝ) : shell a b = 4 * Real.pi * (b ^ 3 - a ^ 3) / 3 := by
  unfold shell
  rw [intervalIntegral.integral_const_mul, integral_pow]
  norm_num
  ring

theorem cube_lt {a b : ℝ} (ha : 0 ≤ a) (h : a < b) : a ^ 3 < b ^ 3 := pow_lt_pow_left₀ h ha (by decide)

theorem radius_nonneg (hinc : ∀ i < nx, x i < x (i + 1)) (h0 : 0 ≤ x 0) : ∀ i ≤ nx, 0 ≤ x i := by
  intro i
  induction i with
  | zero => exact fun _ => h0
  | succ i ih => exact fun hi => (ih (by omega)).trans (hinc i (by omega)).le

/-- **C160, spherical meshes.** The volume of a cell is the volume of the shell between its radii, its centroid the middle radius. -/
theorem line_cell_spherical (hinc : ∀ i < nx, x i < x (i + 1)) (h0 : 0 ≤ x 0) {c : Nat} (hc : c < nx) :
    computeCellGeometry (lineMesh nx x .SPHERICAL) c = some (shell (x c) (x (c + 1)), mk1 ((x c + x (c + 1)) / 2)) ∧
    0 < shell (x c) (x (c + 1)) := by
  constructor
  · rw [line_cell, line_coords hc, shell_eq, ← mid1]
    rfl
  · rw [shell_eq]
    have := cube_lt (radius_nonneg hinc h0 c (by omega)) (hinc c hc)
    have := Real.pi_pos
    apply div_pos _ (by norm_num)
    apply mul_pos (by linarith) (by linarith)

theorem telescope (f : ℝ → ℝ) : ∀ n, ((List.range n).map fun c => f (x (c + 1)) - f (x c)).sum = f (x n) - f (x 0) := by
  intro n
  induction n with
  | zero => simp
  | succ n ih => rw [List.range_succ, List.map_append, List.sum_append, ih]; simp

/-- **C160, nothing is lost.** The volumes of the cells add up to the length of the domain (Cartesian) or the volume of the shell between its ends
(spherical). -/
theorem line_volumes_sum (hinc : ∀ i < nx, x i < x (i + 1)) :
    ((List.range nx).map fun c => ((computeCellGeometry (lineMesh nx x .CARTESIAN) c).map Prod.fst).getD 0).sum = x nx - x 0 ∧
    (0 ≤ x 0 → ((List.range nx).map fun c => ((computeCellGeometry (lineMesh nx x .SPHERICAL) c).map Prod.fst).getD 0).sum = shell (x 0) (x nx)) := by
  constructor
  · rw [← telescope (fun t => t) nx]
    congr 1
    apply List.map_congr_left
    intro c hc
    rw [(line_cell_cartesian hinc (List.mem_range.mp hc)).1]; rfl
  · intro h0
    have : shell (x 0) (x nx) = (fun t => 4 * Real.pi * t ^ 3 / 3) (x nx) - (fun t => 4 * Real.pi * t ^ 3 / 3) (x 0) := by
      rw [shell_eq]; ring
    rw [this, ← telescope (fun t => 4 * Real.pi * t ^ 3 / 3) nx]
    congr 1
    apply List.map_congr_left
    intro c hc
    rw [(line_cell_spherical hinc h0 (List.mem_range.mp hc)).1]
    show shell _ _ = _
    rw [shell_eq]; ring

/-- **C160, point location.** `point_in_cell` is true exactly for the points of the closed cell, in any geometry. -/
theorem line_point_in_cell (g : GeomType) {c : Nat} (hc : c < nx) (t : ℝ) :
    pointInCell (lineMesh nx x g) (mk1 t) c = true ↔ x c ≤ t ∧ t ≤ x (c + 1) := by
  have h : (lineMesh nx x g).manifoldDim = 1 := rfl
  simp only [pointInCell, h, line_coords hc]
  simp [pt, mk1]

theorem inc_mono (hinc : ∀ i < nx, x i < x (i + 1)) : ∀ j i, i < j → j ≤ nx → x i < x j := by
  intro j
  induction j with
  | zero => intro i h; omega
  | succ j ih =>
    intro i h hj
    rcases Nat.lt_succ_iff_lt_or_eq.mp h with h | rfl
    · exact (ih i h (by omega)).trans (hinc j (by omega))
    · exact hinc _ (by omega)

/-- **C160, every point is found.** A point of the domain is in a cell, and in only one unless it is the position of a node. -/
theorem line_point_found (g : GeomType) (hinc : ∀ i < nx, x i < x (i + 1)) (hn : 0 < nx) (t : ℝ) :
    ((∃ c < nx, pointInCell (lineMesh nx x g) (mk1 t) c = true) ↔ x 0 ≤ t ∧ t ≤ x nx) ∧
    ((∀ i ≤ nx, x i ≠ t) → ∀ c < nx, ∀ c' < nx, pointInCell (lineMesh nx x g) (mk1 t) c = true → pointInCell (lineMesh nx x g) (mk1 t) c' = true →
      c = c') := by
  have le : ∀ i j, i ≤ j → j ≤ nx → x i ≤ x j := fun i j h hj =>
    (Nat.lt_or_eq_of_le h).elim (fun h => (inc_mono hinc j i h hj).le) (fun e => by rw [e])
  refine ⟨⟨?_, ?_⟩, ?_⟩
  · rintro ⟨c, hc, h⟩
    have h := (line_point_in_cell g hc t).1 h
    exact ⟨(le 0 c (by omega) (by omega)).trans h.1, h.2.trans (le (c + 1) nx (by omega) (by omega))⟩
  · rintro ⟨h0, h1⟩
    have key : ∀ k ≤ nx, 0 < k → t ≤ x k → ∃ c < k, x c ≤ t ∧ t ≤ x (c + 1) := by
      intro k
      induction k with
      | zero => intro _ h; omega
      | succ k ih =>
        intro hk _ ht
        by_cases hx : x k ≤ t
        · exact ⟨k, by omega, hx, ht⟩
        · rcases Nat.eq_zero_or_pos k with rfl | hk0
          · exact absurd h0 hx
          · obtain ⟨c, hc, r⟩ := ih (by omega) hk0 (not_le.1 hx).le
            exact ⟨c, by omega, r⟩
    obtain ⟨c, hc, r⟩ := key nx le_rfl hn h1
    exact ⟨c, hc, (line_point_in_cell g hc t).2 r⟩
  · intro hne c hc c' hc' h h'
    have h := (line_point_in_cell g hc t).1 h
    have h' := (line_point_in_cell g hc' t).1 h'
    by_contra hcc
    rcases Nat.lt_or_gt_of_ne hcc with l | l
    · have := le (c + 1) c' (by omega) (by omega)
      exact hne (c + 1) (by omega) (le_antisymm (this.trans h'.1) h.2)
    · have := le (c' + 1) c (by omega) (by omega)
      exact hne (c' + 1) (by omega) (le_antisymm (this.trans h.1) h'.2)

/-- **C160 is false of cylindrical meshes**: the volume and centroid of a cell are never set, so `cell_volume` returns an uninitialised
variable. -/
theorem line_cell_cylindrical_unset (c : Nat) : computeCellGeometry (lineMesh nx x .CYLINDRICAL) c = none := by
  rw [line_cell]; rfl

/-- **C160 is false of the centroid of spherical cells**: it lies inside the cell but strictly inside the mean radius of the shell (the mean with
respect to volume). -/
theorem line_centroid_spherical_not_mean (hinc : ∀ i < nx, x i < x (i + 1)) (h0 : 0 ≤ x 0) {c : Nat} (hc : c < nx) :
    ∃ vol cen, computeCellGeometry (lineMesh nx x .SPHERICAL) c = some (vol, mk1 cen) ∧ x c < cen ∧ cen < x (c + 1) ∧
      cen * shell (x c) (x (c + 1)) < ∫ r in (x c)..(x (c + 1)), r * (4 * Real.pi * r ^ 2) := by
  refine ⟨_, _, (line_cell_spherical hinc h0 hc).1, by linarith [hinc c hc], by linarith [hinc c hc], ?_⟩
  have e : ∀ r : ℝ, r * (4 * Real.pi * r ^ 2) = 4 * Real.pi * r ^ 3 := fun r => by ring
  simp only [e]
  rw [shell_eq, intervalIntegral.integral_const_mul, integral_pow]
  have ha := radius_nonneg hinc h0 c (by omega)
  have hl := hinc c hc
  generalize x c = a at *
  generalize x (c + 1) = b at *
  have hp := Real.pi_pos
  norm_num
  have key : (a + b) / 2 * ((b ^ 3 - a ^ 3) / 3) < (b ^ 4 - a ^ 4) / 4 := by
    have : (b ^ 4 - a ^ 4) / 4 - (a + b) / 2 * ((b ^ 3 - a ^ 3) / 3) = (b - a) ^ 3 * (a + b) / 12 := by ring
    have h2 : 0 < (b - a) ^ 3 * (a + b) := mul_pos (pow_pos (by linarith) 3) (by linarith)
    linarith
  have := mul_lt_mul_of_pos_left key (show 0 < 4 * Real.pi by linarith)
  linarith

/-- three shells from radius 1 to 4: the middle one has volume 76π/3, the point at radius 5/2 is in it only -/
example : (∀ i : ℕ, i < 3 → ((i : ℝ) + 1) < ((i + 1 : ℕ) : ℝ) + 1) ∧
    computeCellGeometry (lineMesh 3 (fun i => (i : ℝ) + 1) .SPHERICAL) 1 = some (shell 2 3, mk1 (5 / 2)) ∧ shell 2 3 = 76 / 3 * Real.pi ∧
    pointInCell (lineMesh 3 (fun i => (i : ℝ) + 1) .SPHERICAL) (mk1 (5 / 2)) 1 = true ∧
    pointInCell (lineMesh 3 (fun i => (i : ℝ) + 1) .SPHERICAL) (mk1 (5 / 2)) 2 = false := by
  have hinc : ∀ i < 3, (fun i : ℕ => (i : ℝ) + 1) i < (fun i : ℕ => (i : ℝ) + 1) (i + 1) := by
    intro i _
    push_cast
    linarith
  refine ⟨fun i hi => hinc i hi, ?_, ?_, ?_, ?_⟩
  · rw [(line_cell_spherical hinc (by norm_num) (by decide)).1]
    norm_num
  · rw [shell_eq]; ring
  · rw [line_point_in_cell _ (by decide)]; norm_num
  · rw [Bool.eq_false_iff, Ne, line_point_in_cell _ (by decide)]; norm_num

end Jali.SimpleGeom
