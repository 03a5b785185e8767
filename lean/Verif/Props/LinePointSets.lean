import Verif.Props.StructuredPointSets
import Verif.Props.LineGeometry
import Verif.Props.MeshSimple1D
/-!
C176: the set of cells of a point region on one-dimensional structured meshes.
-/
namespace Jali.SimpleGeom
open Jali.Geom Jali.Geom.Point Jali.Geom.Spec Jali.MeshGeom Jali.Reg Jali.MstkGen

variable {nx : Nat} {x : Nat → ℝ}

/-- what the construction of sets from regions asks of the one-dimensional structured mesh -/
noncomputable def linePointGeo (nx : Nat) (x : Nat → ℝ) (g : GeomType) (fr : Bool) : Geo Point ℝ :=
  geoOf (lineMesh nx x g) fr (Simple1D.nodeGetCells nx) (pointInCell (lineMesh nx x g)) fun a c => dot (a - c) (a - c)

theorem line_node_cells (nx v : Nat) : (Simple1D.nodeGetCells nx v).Nodup ∧ ∀ c ∈ Simple1D.nodeGetCells nx v, c < nx := by
  rw [Simple1D.nodeGetCells, slotRead_runAppends _ (Simple1D.cap_cells nx), Simple1D.valsFor_cells]
  refine ⟨List.nodup_range.filter _, fun c hc => ?_⟩
  simp only [List.mem_filter, List.mem_range] at hc
  exact hc.1

theorem dist_line {a t : ℝ} : dot (mk1 a - mk1 t) (mk1 a - mk1 t) = (a - t) ^ 2 := by
  rw [SideGeom.sub1]
  simp [dot, mk1]
  ring

/-- **C176** The set of cells of a point region on a one-dimensional structured mesh: exactly the cells with the point between their two
nodes, two of them if the point is at an inner node, none outside of the mesh. Cells are wider than 1e-16, and some node is nearer
than 1e8. -/
theorem line_point_set (g : GeomType) (wide : ∀ i < nx, x i + 1 / 10 ^ 16 < x (i + 1))
    {nm : String} {id : Nat} {t : ℝ} {lc : LifeCycle} {rg : AnyRegion} (hm : mkPointRegion nm id (mk1 t) lc = .value rg)
    (near : ∃ q < nx + 1, (x q - t) ^ 2 < 10 ^ 16)
    {lab : List Nat × List Nat} {gm : List (Reg.Region Point)} {n : String} (hr : findRegion gm n = some (regionOf lab rg))
    (hl : ∀ q ∈ gm, q.type ≠ .LABELEDSET) {w : World} (hw : Fresh w .CELL nx) (hv : (w.view .NODE).nAll = nx + 1)
    (fr : Bool) (k : Nat) (rev : Bool) :
    ∃ a w' s, Reg.build (linePointGeo nx x g fr) gm k w n .CELL rev = .ok (some a, w') ∧ w'.heap[a]? = some s ∧ s.name = n ∧ a ∈ w'.reg ∧
      (MSet.entities s .ALL).Nodup ∧ ∀ c, c ∈ MSet.entities s .ALL ↔ c < nx ∧ x c ≤ t ∧ t ≤ x (c + 1) := by
  simp only [mkPointRegion, Res.value.injEq] at hm
  subst hm
  have hinc : ∀ i < nx, x i < x (i + 1) := fun i hi => by have := wide i hi; have : (0 : ℝ) < 1 / 10 ^ 16 := by positivity
                                                          linarith
  have hf : Fits (linePointGeo nx x g fr) gm w .CELL := by
    refine ⟨⟨fun e => ?_, fun e => ?_⟩, fun _ v => ?_, fun q hq ht => absurd ht (hl q hq)⟩
    · rw [hw.owned, hw.counts.1]
    · simp only [hw.ghost, MSet.MeshView.nAll, hw.counts.1, hw.counts.2, false_iff]
      omega
    · simp only [MSet.MeshView.nAll, hw.counts.1, hw.counts.2, Nat.add_zero]
      exact line_node_cells nx v
  have cAll : (w.view .CELL).nAll = nx := by simp [MSet.MeshView.nAll, hw.counts.1, hw.counts.2]
  have dist : ∀ q, (linePointGeo nx x g fr).dist2 ((linePointGeo nx x g fr).nodeCoord q) (mk1 t) = (x q - t) ^ 2 := fun q => dist_line
  obtain ⟨w', s, h1, h2, h4, h5, h6, h7⟩ := point_region_exact hf n hr rfl (mk1 t) rfl (by
      obtain ⟨q, hq, hlt⟩ := near
      exact ⟨q, by rw [hv]; exact hq, by rw [dist]; exact hlt⟩) (by
      rintro m ⟨hm, hmin⟩ c hc hin
      rw [cAll] at hc
      rw [hv] at hm
      obtain ⟨b1, b2⟩ := (line_point_in_cell g hc t).1 hin
      rw [dist] at hmin
      have better : ∀ q < nx + 1, (x m - t) ^ 2 ≤ 1 / 10 ^ 32 ∨ (x m - t) ^ 2 ≤ (x q - t) ^ 2 := by
        intro q hq
        refine hmin.imp_right fun hmin => ?_
        have := hmin q (by rw [hv]; exact hq)
        rwa [dist] at this
      have e16 : (1 / 10 ^ 32 : ℝ) = (1 / 10 ^ 16) ^ 2 := by norm_num
      have ht16 : (0 : ℝ) < 1 / 10 ^ 16 := by positivity
      have hmc : m = c ∨ m = c + 1 := by
        rcases Nat.lt_trichotomy m c with hlt | rfl | hgt
        · exfalso
          have h0 : x (m + 1) ≤ x c := by
            rcases Nat.lt_or_eq_of_le hlt with h | h
            · exact (inc_mono hinc c (m + 1) h (by omega)).le
            · rw [← h]
          have hwd := wide m (by omega)
          rcases better c (by omega) with hb | hb
          · rw [e16] at hb
            nlinarith
          · nlinarith
        · exact .inl rfl
        · by_cases hc1 : m = c + 1
          · exact .inr hc1
          · exfalso
            have h0 : x (c + 1) ≤ x (m - 1) := by
              rcases Nat.lt_or_eq_of_le (show c + 1 ≤ m - 1 by omega) with h | h
              · exact (inc_mono hinc (m - 1) (c + 1) h (by omega)).le
              · rw [← h]
            have hwd := wide (m - 1) (by omega)
            rw [Nat.sub_add_cancel (by omega)] at hwd
            rcases better (c + 1) (by omega) with hb | hb
            · rw [e16] at hb
              nlinarith
            · nlinarith
      refine (((Simple1D.upward nx).1 m hm).2 c).2 ⟨hc, ?_⟩
      rw [((Simple1D.downward nx).1 c hc).1]
      rcases hmc with rfl | rfl <;> simp) k rev
  refine ⟨_, w', s, h1, by rw [h2]; simp, h5, by rw [h4]; simp, h7, fun c => ?_⟩
  rw [h6, cAll]
  constructor
  · rintro ⟨hc, hin⟩
    exact ⟨hc, (line_point_in_cell g hc t).1 hin⟩
  · rintro ⟨hc, hin⟩
    exact ⟨hc, (line_point_in_cell g hc t).2 hin⟩

/-- cells [0,1], [1,4], [4,9]: the point 4 is in the cells 1 and 2 -/
example : ∃ (a : Nat) (w' : World) (s : MSet.Obj),
    Reg.build (linePointGeo 3 (fun i => (i : ℝ) ^ 2) .CARTESIAN true) [regionOf ([], []) (.point ⟨"P", 1, 0, .PERMANENT⟩ (mk1 4))] 0
      (freshWorld3 3 4) "P" .CELL true = .ok (some a, w') ∧ w'.heap[a]? = some s ∧
      0 ∉ MSet.entities s .ALL ∧ 1 ∈ MSet.entities s .ALL ∧ 2 ∈ MSet.entities s .ALL := by
  obtain ⟨a, w', s, e1, e2, -, -, -, e3⟩ := line_point_set (nx := 3) (x := fun i => (i : ℝ) ^ 2) .CARTESIAN
    (fun i _ => by push_cast; have : (0 : ℝ) ≤ i := Nat.cast_nonneg i; norm_num; nlinarith) (nm := "P") (id := 1) (t := 4)
    (lc := .PERMANENT) rfl ⟨0, by norm_num, by norm_num⟩
    (gm := [regionOf ([], []) (.point ⟨"P", 1, 0, .PERMANENT⟩ (mk1 4))]) (n := "P") (lab := ([], []))
    (by simp [findRegion, regionOf, AnyRegion.name, AnyRegion.base]) (by simp [regionOf, AnyRegion.type])
    (w := freshWorld3 3 4) (fresh_freshWorld3 3 4) rfl true 0 true
  refine ⟨a, w', s, e1, e2, fun h => ?_, (e3 1).2 ?_, (e3 2).2 ?_⟩
  · have := (e3 0).1 h
    norm_num at this
  · norm_num
  · norm_num

end Jali.SimpleGeom
