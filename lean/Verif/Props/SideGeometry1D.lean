import Verif.Model.SideGeometry
import Verif.Spec.SideGeometry
import Verif.Proof.Geometry
import Mathlib.Tactic.Linarith
/-! Property theorems C84: sides, wedges and corners of a one-dimensional mesh. -/
namespace Jali.SideGeom
open Jali.Geom Jali.Geom.Point Spec

/-- A mesh on the line with increasing node positions `x` and the centroid of each cell between its nodes. -/
noncomputable def line (geom : GeomType) (x cen : Nat → ℝ) : Coords where
  spaceDim := 1
  geomType := geom
  nodeCoord n := mk1 (x n)
  faceCentroid f := mk1 (x f)
  cellCentroid c := mk1 (cen c)

/-- the centroid of each cell lies between its nodes -/
def Between (ncells : Nat) (x cen : Nat → ℝ) : Prop := ∀ c < ncells, x c < cen c ∧ cen c < x (c + 1)

theorem sub1 (a b : ℝ) : mk1 a - mk1 b = mk1 (a - b) := by
  show sub _ _ = _
  simp [sub, mk1]

theorem norm1 (a : ℝ) : Point.norm (mk1 a) = |a| := by
  simp [Point.norm, dot, mk1, Real.sqrt_mul_self_eq_abs]

section
variable (ncells : Nat) (x cen : Nat → ℝ) (geom : GeomType)

theorem parts1 {c j : Nat} (hc : c < ncells) (hj : j < 2) :
    let M := of1D ncells (line geom x cen)
    (∀ k, M.sideNode (2 * c + j) k = some (c + j)) ∧ M.sideFace (2 * c + j) = some (c + j) ∧ M.sideEdge (2 * c + j) = some (c + j) ∧
    M.sideCell (2 * c + j) = some c := by
  have h1 : 2 * c + j < 2 * ncells := by omega
  have h2 : (2 * c + j) / 2 = c := by omega
  have h3 : (if j % 2 = 0 then c else c + 1) = c + j := by split <;> omega
  simp [of1D, Sides.cacheSideInfo1D, h1, h2, h3]

theorem coords1 {c j : Nat} (hc : c < ncells) (hj : j < 2) :
    sideGetCoordinates (of1D ncells (line geom x cen)) (2 * c + j) false = some [mk1 (x (c + j)), mk1 (cen c)] := by
  obtain ⟨h1, h2, h3, h4⟩ := parts1 ncells x cen geom hc hj
  simp [sideGetCoordinates, h1, h2, h4, orderSide]
  simp [of1D, line]

theorem second1 (c j : Nat) (hj : j < 2) : (some (c + j) = ([c, c + 1] : List Nat)[1]?) ↔ j = 1 := by
  simp only [List.getElem?_cons_succ, List.getElem?_cons_zero, Option.some.injEq]; omega

/-- the volume and normal of the two sides of a cell -/
theorem side_values_1d (h : Between ncells x cen) (c : Nat) (hc : c < ncells) :
    sideVolume (of1D ncells (line .CARTESIAN x cen)) (2 * c) = some (cen c - x c) ∧
    sideFacetNormal (of1D ncells (line .CARTESIAN x cen)) (2 * c) = some (mk1 (-1)) ∧
    sideVolume (of1D ncells (line .CARTESIAN x cen)) (2 * c + 1) = some (-(x (c + 1) - cen c)) ∧
    sideFacetNormal (of1D ncells (line .CARTESIAN x cen)) (2 * c + 1) = some (mk1 (-1)) := by
  obtain ⟨b1, b2⟩ := h c hc
  have stored : ∀ j < 2, sideStored (of1D ncells (line .CARTESIAN x cen)) (2 * c + j) =
      some ⟨if j = 1 then -|cen c - x (c + j)| else |cen c - x (c + j)|,
        if j = 1 then mk1 (1 / |cen c - x (c + j)| * (cen c - x (c + j))) else mk1 (-(1 / |cen c - x (c + j)| * (cen c - x (c + j)))), mk1 0⟩ := by
    intro j hj
    obtain ⟨h1, h2, h3, h4⟩ := parts1 ncells x cen .CARTESIAN hc hj
    have h5 := coords1 ncells x cen .CARTESIAN hc hj
    rw [sideStored, computeSideGeometry, h5, h3, h1, h4]
    have hd : (of1D ncells (line .CARTESIAN x cen)).manifoldDim = 1 := rfl
    have hg : (of1D ncells (line .CARTESIAN x cen)).geomType = .CARTESIAN := rfl
    have hs : (of1D ncells (line .CARTESIAN x cen)).spaceDim = 1 := rfl
    have hn : (of1D ncells (line .CARTESIAN x cen)).cellNodes c = [c, c + 1] := rfl
    simp only [hd, hg, hs, hn, side1, pt, List.getD_cons_zero, List.getD_cons_succ, sub1, norm1, Option.bind_some, setAll, zero, second1 c j hj]
    by_cases hj1 : j = 1
    · simp [hj1, flip1, sdiv, smul, neg, mk1]; ring
    · simp [hj1, flip1, sdiv, smul, neg, mk1]; ring
  have s0 := stored 0 (by omega)
  have s1 := stored 1 (by omega)
  simp only [Nat.add_zero, zero_ne_one, if_false, if_true] at s0 s1
  rw [abs_of_pos (by linarith)] at s0
  rw [abs_of_neg (by linarith)] at s1
  refine ⟨by rw [sideVolume, s0]; rfl, ?_, by rw [sideVolume, s1, Option.map_some]; simp, ?_⟩
  · rw [sideFacetNormal, s0, Option.map_some, one_div_mul_cancel (by linarith)]
  · rw [sideFacetNormal, s1, Option.map_some]
    have : cen c - x (c + 1) ≠ 0 := by linarith
    congr 2
    field_simp

/-- **C84, the part that holds: coordinates of sides.** With `posvol_order` the coordinates of a side on the line are its node and
the centroid of its cell in ascending order, and their distance is the absolute value of the reported volume. -/
theorem side_coordinates_1d_partial (h : Between ncells x cen) (c j : Nat) (hc : c < ncells) (hj : j < 2) :
    ∃ a b v : ℝ, sideGetCoordinates (of1D ncells (line .CARTESIAN x cen)) (2 * c + j) true = some [mk1 a, mk1 b] ∧ a < b ∧
      [a, b].Perm [x (c + j), cen c] ∧ sideVolume (of1D ncells (line .CARTESIAN x cen)) (2 * c + j) = some v ∧ |v| = b - a := by
  obtain ⟨b1, b2⟩ := h c hc
  obtain ⟨q0, _, q1, _⟩ := side_values_1d ncells x cen h c hc
  obtain ⟨h1, h2, h3, h4⟩ := parts1 ncells x cen .CARTESIAN hc hj
  have hn : (of1D ncells (line .CARTESIAN x cen)).cellNodes c = [c, c + 1] := rfl
  have hd : (of1D ncells (line .CARTESIAN x cen)).manifoldDim = 1 := rfl
  have hp : ∀ n, (of1D ncells (line .CARTESIAN x cen)).nodeCoord n = mk1 (x n) := fun _ => rfl
  have hq : ∀ n, (of1D ncells (line .CARTESIAN x cen)).cellCentroid n = mk1 (cen n) := fun _ => rfl
  rcases (show j = 0 ∨ j = 1 by omega) with rfl | rfl
  · refine ⟨x c, cen c, _, ?_, b1, by simp, q0, abs_of_pos (by linarith)⟩
    simp only [Nat.add_zero] at h1 h2 h4
    simp [sideGetCoordinates, h1, h2, h4, orderSide, hd, hn, hp, hq]
  · refine ⟨cen c, x (c + 1), _, ?_, b2, List.Perm.swap _ _ _, q1, by rw [abs_neg, abs_of_pos (by linarith)]⟩
    simp [sideGetCoordinates, h1, h2, h4, orderSide, hd, hn, hp, hq]

/-- **C84, the part that holds, for the whole mesh.** On the line the absolute values of the volumes of all sides of a mesh add up to the
length between its first and its last node. -/
theorem sides_fill_line_partial (h : Between ncells x cen) :
    ∃ v : Nat → ℝ, (∀ s, s < 2 * ncells → sideVolume (of1D ncells (line .CARTESIAN x cen)) s = some (v s)) ∧
      ((List.range (2 * ncells)).map fun s => |v s|).sum = x ncells - x 0 := by
  refine ⟨fun s => (sideVolume (of1D ncells (line .CARTESIAN x cen)) s).getD 0, ?_, ?_⟩
  · intro s hs
    obtain ⟨e0, _, e1, _⟩ := side_values_1d ncells x cen h (s / 2) (by omega)
    rcases (show s = 2 * (s / 2) ∨ s = 2 * (s / 2) + 1 by omega) with hs' | hs'
    · rw [← hs'] at e0
      simp only [e0, Option.getD_some]
    · rw [← hs'] at e1
      simp only [e1, Option.getD_some]
  · have key : ∀ k, k ≤ ncells → ((List.range (2 * k)).map fun s => |(sideVolume (of1D ncells (line .CARTESIAN x cen)) s).getD 0|).sum =
        x k - x 0 := by
      intro k
      induction k with
      | zero => intro _; simp
      | succ k ih =>
        intro hk
        obtain ⟨b1, b2⟩ := h k (by omega)
        obtain ⟨e0, _, e1, _⟩ := side_values_1d ncells x cen h k (by omega)
        rw [show 2 * (k + 1) = 2 * k + 1 + 1 by ring, List.range_succ, List.range_succ]
        simp only [List.map_append, List.map_cons, List.map_nil, List.sum_append, List.sum_cons, List.sum_nil]
        rw [ih (by omega), e0, e1, Option.getD_some, Option.getD_some, abs_neg, abs_of_pos (by linarith), abs_of_pos (by linarith)]
        ring
    exact key ncells le_rfl

/-- **C84 is false of the code.** On the line the side at the second node of a cell has a negative volume and its "outward" normal points
into the cell (towards decreasing positions); the volumes of the two sides, and of the two corners, of a cell add up to twice the centroid minus the two ends: zero if the centroid is
the middle of the cell. The first side has the right volume and normal. The two changes of sign at Mesh.cc:1529-1540 undo the
correct values of lines 1523-1526. -/
theorem side_volumes_1d_wrong (h : Between ncells x cen) (c : Nat) (hc : c < ncells) :
    ∃ v0 v1 n0 n1 : ℝ, let M := of1D ncells (line .CARTESIAN x cen)
      sideVolume M (2 * c) = some v0 ∧ sideVolume M (2 * c + 1) = some v1 ∧
      cornerVolume M (2 * c) = some v0 ∧ cornerVolume M (2 * c + 1) = some v1 ∧
      sideFacetNormal M (2 * c) = some (mk1 n0) ∧ sideFacetNormal M (2 * c + 1) = some (mk1 n1) ∧
      v0 = cen c - x c ∧ n0 = -1 ∧ v1 < 0 ∧ n1 = -1 ∧ v0 + v1 = 2 * cen c - x c - x (c + 1) := by
  obtain ⟨b1, b2⟩ := h c hc
  obtain ⟨q0, m0, q1, m1⟩ := side_values_1d ncells x cen h c hc
  have hcv : ∀ j < 2, ∀ v, sideVolume (of1D ncells (line .CARTESIAN x cen)) (2 * c + j) = some v →
      cornerVolume (of1D ncells (line .CARTESIAN x cen)) (2 * c + j) = some v := by
    intro j hj v hv
    have hw : (of1D ncells (line .CARTESIAN x cen)).cornerWedges (2 * c + j) = some [2 * (2 * c + j), 2 * (2 * c + j) + 1] := by
      have : 2 * c + j < 2 * ncells := by omega
      simp [of1D, this]
    have d1 : 2 * (2 * c + j) / 2 = 2 * c + j := by omega
    have d2 : (2 * (2 * c + j) + 1) / 2 = 2 * c + j := by omega
    simp only [cornerVolume, hw, Option.bind_some, sumWedges, wedgeVolume, d1, d2, hv, Option.map_some]
    congr 1; ring
  exact ⟨_, _, _, _, q0, q1, hcv 0 (by omega) _ q0, hcv 1 (by omega) _ q1, m0, m1, rfl, rfl, by linarith, rfl, by ring⟩

/-- **C84 is false of the code.** Asking for the volume of a side or wedge to be recomputed (`side_volume(s, true)`,
`wedge_volume(w, true)`) fails the assertion in `Point::set` for every side of a one-dimensional mesh. -/
theorem side_volume_recompute_1d (s : Nat) : sideVolumeRecomputed (of1D ncells (line geom x cen)) s = none := by
  rw [sideVolumeRecomputed, computeSideGeometry]
  have hd : (of1D ncells (line geom x cen)).manifoldDim = 1 := rfl
  have hz : (zero 0).setAll 0 = none := by simp [setAll, zero]
  rw [hd, hz]
  split
  · rename_i l e n0 cell _ _ _ _
    rw [if_neg (by decide), if_neg (by decide)]
    rcases side1 (of1D ncells (line geom x cen)).geomType (pt l 0) (pt l 1) with _ | r <;> rfl
  · rfl

/-- **C84 is false of the code.** `corner_get_coordinates` promises the positive volume order on the line, but the
points of the corner at the second node of a cell are given in descending order. Likewise `wedge_get_coordinates` with `posvol_order`
gives the points of the first wedge of the second side, and of the second wedge of the first side, in descending order. -/
theorem corner_coordinates_1d_wrong (c : Nat) (hc : c < ncells) :
    let M := of1D ncells (line geom x cen)
    cornerGetCoordinates M (2 * c) = some [mk1 (x c), mk1 (cen c)] ∧
    cornerGetCoordinates M (2 * c + 1) = some [mk1 (x (c + 1)), mk1 (cen c)] ∧
    wedgeGetCoordinates M (4 * c + 1) true = some [mk1 (cen c), mk1 (x c)] ∧
    wedgeGetCoordinates M (4 * c + 2) true = some [mk1 (x (c + 1)), mk1 (cen c)] := by
  obtain ⟨h1, h2, h3, h4⟩ := parts1 ncells x cen geom hc (show 0 < 2 by omega)
  obtain ⟨k1, k2, k3, k4⟩ := parts1 ncells x cen geom hc (show 1 < 2 by omega)
  simp only [Nat.add_zero] at h1 h2 h3 h4
  have hd : (of1D ncells (line geom x cen)).manifoldDim = 1 := rfl
  have hp : ∀ n, (of1D ncells (line geom x cen)).nodeCoord n = mk1 (x n) := fun _ => rfl
  have hq : ∀ n, (of1D ncells (line geom x cen)).cellCentroid n = mk1 (cen n) := fun _ => rfl
  have w0 : ∀ w, w / 2 = 2 * c → wedgeGetCoordinates (of1D ncells (line geom x cen)) w true =
      some (orderWedge true w [mk1 (x c), mk1 (cen c)]) := by
    intro w hw
    simp [wedgeGetCoordinates, wedgeNode, hw, h1, h2, h3, h4, hd, hp, hq]
  have w1 : ∀ w, w / 2 = 2 * c + 1 → wedgeGetCoordinates (of1D ncells (line geom x cen)) w true =
      some (orderWedge true w [mk1 (x (c + 1)), mk1 (cen c)]) := by
    intro w hw
    simp [wedgeGetCoordinates, wedgeNode, hw, k1, k2, k3, k4, hd, hp, hq]
  have o0 : ∀ w (l : List Point), w % 2 = 0 → orderWedge true w l = l := by
    intro w l hw; unfold orderWedge; rw [if_neg (by omega)]
  have cw : ∀ j < 2, (of1D ncells (line geom x cen)).cornerWedges (2 * c + j) = some [2 * (2 * c + j), 2 * (2 * c + j) + 1] := by
    intro j hj
    have : 2 * c + j < 2 * ncells := by omega
    simp [of1D, this]
  have cc : ∀ j < 2, cornerGetCoordinates (of1D ncells (line geom x cen)) (2 * c + j) =
      wedgeGetCoordinates (of1D ncells (line geom x cen)) (2 * (2 * c + j)) true := by
    intro j hj
    simp [cornerGetCoordinates, cw j hj, hd, cornerCoordinates12]
  refine ⟨?_, ?_, ?_, ?_⟩
  · have := cc 0 (by omega)
    rw [Nat.add_zero] at this
    rw [this, w0 _ (by omega), o0 _ _ (by omega)]
  · rw [cc 1 (by omega), w1 _ (by omega), o0 _ _ (by omega)]
  · rw [w0 _ (by omega), orderWedge, if_pos ⟨rfl, by omega⟩]
  · rw [w1 _ (by omega), o0 _ _ (by omega)]

end

/-- unit cells -/
theorem unit_between (n : Nat) : Between n (fun n => n) (fun c => c + 1 / 2) := by
  intro c _; constructor <;> push_cast <;> linarith

example := side_coordinates_1d_partial 5 _ _ (unit_between 5) 2 1 (by decide) (by decide)

/-- the sides of a unit cell add up to nothing -/
example : ∃ v0 v1 : ℝ, sideVolume (of1D 5 (line .CARTESIAN (fun n => n) (fun c => c + 1 / 2))) 4 = some v0 ∧
    sideVolume (of1D 5 (line .CARTESIAN (fun n => n) (fun c => c + 1 / 2))) 5 = some v1 ∧ v0 + v1 = 0 ∧ v1 < 0 := by
  obtain ⟨v0, v1, _, _, h1, h2, _, _, _, _, _, _, h3, _, h4⟩ := side_volumes_1d_wrong 5 _ _ (unit_between 5) 2 (by decide)
  exact ⟨v0, v1, h1, h2, by rw [h4]; push_cast; ring, h3⟩

/-- the corner at the right end of a unit cell: 3 comes before 2.5 -/
example : cornerGetCoordinates (of1D 5 (line .CARTESIAN (fun n => n) (fun c => c + 1 / 2))) 5 = some [mk1 3, mk1 (2 + 1 / 2)] := by
  rw [(corner_coordinates_1d_wrong 5 _ _ .CARTESIAN 2 (by decide)).2.1]; norm_num

end Jali.SideGeom
