import Verif.Props.RegularPointSets
import Verif.Props.RegularRegionSets
/-!
C176: the set of cells of a point region on the structured mesh of Mesh_simple, for every size of it and every point, and the same set
on the regular mesh of Mesh_MSTK with the same cells.
-/
namespace Jali.SimpleGeom
open Jali.Geom Jali.Geom.Point Jali.Geom.Spec Jali.MeshGeom Jali.Reg Jali.Simple Jali.Simple.Spec Jali.MstkGen

variable {d : Dims} {b : Box}

/-- the point is in the closed box at a position -/
def InCell3 (d : Dims) (b : Box) (q : Pos) (t : Point) : Prop :=
  (gx d b q.i ≤ t.x ∧ t.x ≤ gx d b (q.i + 1)) ∧ (gy d b q.j ≤ t.y ∧ t.y ≤ gy d b (q.j + 1)) ∧ gz d b q.k ≤ t.z ∧ t.z ≤ gz d b (q.k + 1)

theorem point_in_cell_iff (h : Proper d b) {q : Pos} (hq : CellIn d q) (t : Point) :
    pointInCell (simpleMesh d b) t (cellIdx d q) = true ↔ InCell3 d b q t := by
  rw [simple_point_in_cell h hq]
  simp only [InCell3, gx, gy, gz, hx, hy, hz]
  push_cast
  rfl

/-- what the construction of sets from regions asks of the structured mesh -/
noncomputable def simplePointGeo (d : Dims) (b : Box) (fr : Bool) : Geo Point ℝ :=
  geoOf (simpleMesh d b) fr (nodeGetCells d) (pointInCell (simpleMesh d b)) fun a c => dot (a - c) (a - c)

theorem grid_x (i : Nat) : gx d b i = MstkGen.Spec.gridPt (b.x0 : ℝ) b.x1 d.nx i := by rw [gridPt_mul]; rfl
theorem grid_y (i : Nat) : gy d b i = MstkGen.Spec.gridPt (b.y0 : ℝ) b.y1 d.ny i := by rw [gridPt_mul]; rfl
theorem grid_z (i : Nat) : gz d b i = MstkGen.Spec.gridPt (b.z0 : ℝ) b.z1 d.nz i := by rw [gridPt_mul]; rfl

/-- **C176** The set of cells of a point region on a structured mesh: exactly the cells whose closed box contains the point. Cells are wider
than 1e-16, and some node is nearer than 1e8. -/
theorem structured_point_set (h : Proper d b)
    (wide : 1 / 10 ^ 16 < ((b.x1 : ℝ) - b.x0) / d.nx ∧ 1 / 10 ^ 16 < ((b.y1 : ℝ) - b.y0) / d.ny ∧ 1 / 10 ^ 16 < ((b.z1 : ℝ) - b.z0) / d.nz)
    {nm : String} {id : Nat} {p : Point} {lc : LifeCycle} {rg : AnyRegion} (hm : mkPointRegion nm id p lc = .value rg) (h3 : p.d = 3)
    (near : ∃ q : Pos, q.In (d.nx + 1) (d.ny + 1) (d.nz + 1) ∧
      (gx d b q.i - p.x) ^ 2 + ((gy d b q.j - p.y) ^ 2 + (gz d b q.k - p.z) ^ 2) < 10 ^ 16)
    {lab : List Nat × List Nat} {gm : List (Reg.Region Point)} {n : String} (hr : findRegion gm n = some (regionOf lab rg))
    (hl : ∀ q ∈ gm, q.type ≠ .LABELEDSET) {w : World} (hw : Fresh w .CELL (numCells d)) (hv : (w.view .NODE).nAll = numNodes d)
    (fr : Bool) (k : Nat) (rev : Bool) :
    ∃ a w' x, Reg.build (simplePointGeo d b fr) gm k w n .CELL rev = .ok (some a, w') ∧ w'.heap[a]? = some x ∧ x.name = n ∧ a ∈ w'.reg ∧
      (MSet.entities x .ALL).Nodup ∧
      ∀ c, c ∈ MSet.entities x .ALL ↔ ∃ q : Pos, q.In d.nx d.ny d.nz ∧ c = cellIdx d q ∧ InCell3 d b q p := by
  simp only [mkPointRegion, Res.value.injEq] at hm
  subst hm
  have hf : Fits (simplePointGeo d b fr) gm w .CELL := by
    refine ⟨⟨fun e => ?_, fun e => ?_⟩, fun _ v => ?_, fun q hq ht => absurd ht (hl q hq)⟩
    · rw [hw.owned, hw.counts.1]
    · simp only [hw.ghost, MSet.MeshView.nAll, hw.counts.1, hw.counts.2, false_iff]
      omega
    · simp only [MSet.MeshView.nAll, hw.counts.1, hw.counts.2, Nat.add_zero]
      exact ⟨nodeGetCells_nodup d v, fun c hc => nodeGetCells_valid d hc⟩
  have cAll : (w.view .CELL).nAll = numCells d := by simp [MSet.MeshView.nAll, hw.counts.1, hw.counts.2]
  have dist : ∀ {q : Pos}, NodeIn d q → (simplePointGeo d b fr).dist2 ((simplePointGeo d b fr).nodeCoord (nodeIdx d q)) p =
      (gx d b q.i - p.x) ^ 2 + ((gy d b q.j - p.y) ^ 2 + (gz d b q.k - p.z) ^ 2) := by
    intro q hq
    show dot (toPoint (nodeGetCoordinates 3 (coordinates d b) (nodeIdx d q)) - p) (toPoint (nodeGetCoordinates 3 (coordinates d b) (nodeIdx d q)) - p) = _
    rw [nodeGetCoordinates_eq d b hq, toPoint_lattice]
    exact dist_grid h3
  have lx : (b.x0 : ℝ) < b.x1 := by exact_mod_cast h.x
  have ly : (b.y0 : ℝ) < b.y1 := by exact_mod_cast h.y
  have lz : (b.z0 : ℝ) < b.z1 := by exact_mod_cast h.z
  obtain ⟨w', x, h1, h2, h4, h5, h6, h7⟩ := point_region_exact hf n hr rfl p rfl (by
      obtain ⟨q, hq, hlt⟩ := near
      exact ⟨nodeIdx d q, by rw [hv]; exact nodeIdx_lt d hq, by rw [dist hq]; exact hlt⟩) (by
      rintro m ⟨hm, hmin⟩ c hc hin
      rw [cAll] at hc
      rw [hv] at hm
      obtain ⟨c, hci, rfl⟩ := cellIdx_surj d hc
      obtain ⟨q, hqi, rfl⟩ := nodeIdx_surj d hm
      obtain ⟨⟨b1, b2⟩, ⟨b3, b4⟩, b5, b6⟩ := (point_in_cell_iff h hci p).1 hin
      obtain ⟨i, j, l⟩ := c
      obtain ⟨I, J, L⟩ := q
      obtain ⟨i1, i2, i3⟩ := hci
      obtain ⟨n1, n2, n3⟩ := hqi
      simp only at i1 i2 i3 n1 n2 n3 b1 b2 b3 b4 b5 b6
      rw [dist ⟨n1, n2, n3⟩] at hmin
      simp only at hmin
      have better : ∀ A B C, A < d.nx + 1 → B < d.ny + 1 → C < d.nz + 1 →
          (gx d b I - p.x) ^ 2 + ((gy d b J - p.y) ^ 2 + (gz d b L - p.z) ^ 2) ≤ 1 / 10 ^ 32 ∨
          (gx d b I - p.x) ^ 2 + ((gy d b J - p.y) ^ 2 + (gz d b L - p.z) ^ 2) ≤
            (gx d b A - p.x) ^ 2 + ((gy d b B - p.y) ^ 2 + (gz d b C - p.z) ^ 2) := by
        intro A B C hA hB hC
        refine hmin.imp_right fun hmin => ?_
        have := hmin (nodeIdx d ⟨A, B, C⟩) (by rw [hv]; exact nodeIdx_lt d ⟨hA, hB, hC⟩)
        rwa [dist (q := ⟨A, B, C⟩) ⟨hA, hB, hC⟩] at this
      simp only [grid_x, grid_y, grid_z] at better b1 b2 b3 b4 b5 b6
      have cx : I = i ∨ I = i + 1 := grid_corner lx h.nx b1 b2 wide.1
        (q := (MstkGen.Spec.gridPt (b.y0 : ℝ) b.y1 d.ny J - p.y) ^ 2 + (MstkGen.Spec.gridPt (b.z0 : ℝ) b.z1 d.nz L - p.z) ^ 2) (by positivity) (by
          by_cases hs : (MstkGen.Spec.gridPt (b.x0 : ℝ) b.x1 d.nx I - p.x) ^ 2 + ((MstkGen.Spec.gridPt (b.y0 : ℝ) b.y1 d.ny J - p.y) ^ 2 +
              (MstkGen.Spec.gridPt (b.z0 : ℝ) b.z1 d.nz L - p.z) ^ 2) ≤ 1 / 10 ^ 32
          · exact .inl hs
          · exact .inr fun K hK => (better K J L (by omega) n2 n3).resolve_left hs)
      have cy : J = j ∨ J = j + 1 := grid_corner ly h.ny b3 b4 wide.2.1
        (q := (MstkGen.Spec.gridPt (b.x0 : ℝ) b.x1 d.nx I - p.x) ^ 2 + (MstkGen.Spec.gridPt (b.z0 : ℝ) b.z1 d.nz L - p.z) ^ 2) (by positivity) (by
          by_cases hs : (MstkGen.Spec.gridPt (b.x0 : ℝ) b.x1 d.nx I - p.x) ^ 2 + ((MstkGen.Spec.gridPt (b.y0 : ℝ) b.y1 d.ny J - p.y) ^ 2 +
              (MstkGen.Spec.gridPt (b.z0 : ℝ) b.z1 d.nz L - p.z) ^ 2) ≤ 1 / 10 ^ 32
          · left; linarith
          · right; intro K hK
            have := (better I K L n1 (by omega) n3).resolve_left hs
            linarith)
      have cz : L = l ∨ L = l + 1 := grid_corner lz h.nz b5 b6 wide.2.2
        (q := (MstkGen.Spec.gridPt (b.x0 : ℝ) b.x1 d.nx I - p.x) ^ 2 + (MstkGen.Spec.gridPt (b.y0 : ℝ) b.y1 d.ny J - p.y) ^ 2) (by positivity) (by
          by_cases hs : (MstkGen.Spec.gridPt (b.x0 : ℝ) b.x1 d.nx I - p.x) ^ 2 + ((MstkGen.Spec.gridPt (b.y0 : ℝ) b.y1 d.ny J - p.y) ^ 2 +
              (MstkGen.Spec.gridPt (b.z0 : ℝ) b.z1 d.nz L - p.z) ^ 2) ≤ 1 / 10 ^ 32
          · left; linarith
          · right; intro K hK
            have := (better I J K n1 n2 (by omega)).resolve_left hs
            linarith)
      refine (mem_nodeGetCells d ⟨n1, n2, n3⟩ ⟨i1, i2, i3⟩).2 ?_
      rcases cx with rfl | rfl <;> rcases cy with rfl | rfl <;> rcases cz with rfl | rfl <;> simp [hexCorners]) k rev
  refine ⟨_, w', x, h1, by rw [h2]; simp, h5, by rw [h4]; simp, h7, fun c => ?_⟩
  rw [h6, cAll]
  constructor
  · rintro ⟨hc, hin⟩
    obtain ⟨q, hq, rfl⟩ := cellIdx_surj d hc
    exact ⟨q, hq, rfl, (point_in_cell_iff h hq p).1 hin⟩
  · rintro ⟨q, hq, rfl, hin⟩
    exact ⟨cellIdx_lt d hq, (point_in_cell_iff h hq p).2 hin⟩

/-- the closed box of a cell of the regular mesh of MSTK is the box at its position -/
theorem in_cell_at (h : Proper d b) (q : Pos) (t : Point) : InCell (cellAt (domOf d b) q) t ↔ InCell3 d b q t := by
  have hd := goodDomOf h
  have e : ∀ I J L, (V (domOf d b) I J L).x = gx d b I ∧ (V (domOf d b) I J L).y = gy d b J ∧ (V (domOf d b) I J L).z = gz d b L := by
    intro I J L
    have := pt_V (d := domOf d b) hd I J L
    rw [gx_same, gy_same, gz_same] at this
    exact ⟨congrArg Point.x this, congrArg Point.y this, congrArg Point.z this⟩
  constructor
  · rintro ⟨lo, hi, e1, e2, h1, h2, h3, h4, h5, h6⟩
    cases e1; cases e2
    rw [(e _ _ _).1] at h1 h2
    rw [(e _ _ _).2.1] at h3 h4
    rw [(e _ _ _).2.2] at h5 h6
    exact ⟨⟨h1, h2⟩, ⟨h3, h4⟩, h5, h6⟩
  · rintro ⟨⟨h1, h2⟩, ⟨h3, h4⟩, h5, h6⟩
    refine ⟨_, _, rfl, rfl, ?_⟩
    rw [(e _ _ _).1, (e _ _ _).2.1, (e _ _ _).2.2, (e _ _ _).1, (e _ _ _).2.1, (e _ _ _).2.2]
    exact ⟨h1, h2, h3, h4, h5, h6⟩

/-- **C176** Mesh_simple and Mesh_MSTK put the same cells into the set of a point region, up to their numbers of the cells. -/
theorem frameworks_same_point_sets (h : Proper d b) {s : Mstk.Source ℝ} {g : RegMesh ℝ} {r : MeshCache.Request}
    (hs : RegularMesh s (domOf d b) (wholeBlk d) g r)
    (wide : 1 / 10 ^ 16 < ((b.x1 : ℝ) - b.x0) / d.nx ∧ 1 / 10 ^ 16 < ((b.y1 : ℝ) - b.y0) / d.ny ∧ 1 / 10 ^ 16 < ((b.z1 : ℝ) - b.z0) / d.nz)
    {nm : String} {id : Nat} {p : Point} {lc : LifeCycle} {rg : AnyRegion} (hm : mkPointRegion nm id p lc = .value rg) (h3 : p.d = 3)
    (near : ∃ q : Pos, q.In (d.nx + 1) (d.ny + 1) (d.nz + 1) ∧
      (gx d b q.i - p.x) ^ 2 + ((gy d b q.j - p.y) ^ 2 + (gz d b q.k - p.z) ^ 2) < 10 ^ 16)
    {lab : List Nat × List Nat} {gm : List (Reg.Region Point)} {n : String} (hr : findRegion gm n = some (regionOf lab rg))
    (hl : ∀ q ∈ gm, q.type ≠ .LABELEDSET) {w v : World} (hw : Fresh w .CELL (numCells d)) (hwn : (w.view .NODE).nAll = numNodes d)
    (hv : Fresh v .CELL (numCells d)) (hvn : (v.view .NODE).nAll = numNodes d) (fr : Bool) (k : Nat) (rev : Bool) :
    ∃ a w' x c v' y, Reg.build (simplePointGeo d b fr) gm k w n .CELL rev = .ok (some a, w') ∧ w'.heap[a]? = some x ∧
      Reg.build (pointGeo s fr) gm k v n .CELL rev = .ok (some c, v') ∧ v'.heap[c]? = some y ∧
      ∀ q : Pos, q.In d.nx d.ny d.nz → (cellIdx d q ∈ MSet.entities x .ALL ↔ mstkCell d q ∈ MSet.entities y .ALL) := by
  have hd := goodDomOf h
  have hb := goodWhole h
  obtain ⟨hg, ⟨G⟩⟩ := grid_of_build hd hb hs.generated hs.held
  have nv : g.verts.length = s.j.m.nv := by rw [hg, ← G.vlist, List.length_ofFn]
  have nr : g.regions.length = s.j.m.nr := by rw [hg, ← G.rlist, List.length_ofFn]
  have nvn : g.verts.length = numNodes d := by
    rw [hg]
    show ((loopIdx (d.nx + 1) (d.ny + 1) (d.nz + 1)).map (shifted (wholeBlk d) (V _))).length = _
    rw [List.length_map]
    simp [loopIdx, List.length_flatMap, numNodes]
    try ring
  have nrn : g.regions.length = numCells d := by rw [nr, (same_counts G).1]
  obtain ⟨a, w', x, e1, e2, -, -, -, e3⟩ := structured_point_set h wide hm h3 near hr hl hw hwn fr k rev
  obtain ⟨c, v', y, f1, f2, -, -, -, f3⟩ := regular_point_set hd hb hs wide hm h3 (by
    obtain ⟨⟨I, J, L⟩, ⟨n1, n2, n3⟩, hlt⟩ := near
    refine ⟨V (domOf d b) I J L, ?_, ?_⟩
    · rw [hg]
      exact List.mem_map.mpr ⟨(I, J, L), by rw [mem_loopIdx]; exact ⟨n1, n2, n3⟩, by simp [shifted, wholeBlk]⟩
    · have := pt_V (d := domOf d b) hd I J L
      rw [gx_same, gy_same, gz_same] at this
      have ex : (V (domOf d b) I J L).x = gx d b I := congrArg Point.x this
      have ey : (V (domOf d b) I J L).y = gy d b J := congrArg Point.y this
      have ez : (V (domOf d b) I J L).z = gz d b L := congrArg Point.z this
      rw [ex, ey, ez]
      simp only at hlt
      linarith) hr hl (nrn ▸ hv) (by rw [hvn, nvn]) fr k rev
  refine ⟨a, w', x, c, v', y, e1, e2, f1, f2, fun q hq => ?_⟩
  obtain ⟨hlt, hro⟩ := cell_number G hq
  have hcell : g.regions[mstkCell d q]? = some (cellAt (domOf d b) q) := by
    rw [hg, ← G.rlist, ← hro, List.getElem?_ofFn]
    exact dif_pos hlt
  rw [e3, f3, hcell]
  constructor
  · rintro ⟨q', hq', he, hin⟩
    exact ⟨_, rfl, (in_cell_at h q p).2 (cellIdx_inj d hq hq' he ▸ hin)⟩
  · rintro ⟨cell, hc, hin⟩
    cases hc
    exact ⟨q, hq, rfl, (in_cell_at h q p).1 hin⟩

/-- 2 x 3 x 4 cells: the point is on the face between the cells 0 and 1, both have it in the set; cell 2 has not -/
example : ∃ (a : Nat) (w' : World) (x : MSet.Obj),
    Reg.build (simplePointGeo ⟨2, 3, 4⟩ ⟨-1, 0, 2, 1, 9, 4⟩ true) [regionOf ([], []) (.point ⟨"P", 1, 0, .PERMANENT⟩ (mk3 0 1 (9 / 4)))] 0
      (freshWorld3 24 60) "P" .CELL true = .ok (some a, w') ∧ w'.heap[a]? = some x ∧
      0 ∈ MSet.entities x .ALL ∧ 1 ∈ MSet.entities x .ALL ∧ 2 ∉ MSet.entities x .ALL := by
  have h : Proper ⟨2, 3, 4⟩ ⟨-1, 0, 2, 1, 9, 4⟩ := by constructor <;> norm_num
  obtain ⟨a, w', x, e1, e2, -, -, -, e3⟩ := structured_point_set h (by norm_num) (nm := "P") (id := 1) (p := mk3 0 1 (9 / 4))
    (lc := .PERMANENT) rfl rfl ⟨⟨0, 0, 0⟩, by norm_num [Pos.In], by norm_num [gx, gy, gz, hx, hy, hz, mk3]⟩
    (gm := [regionOf ([], []) (.point ⟨"P", 1, 0, .PERMANENT⟩ (mk3 0 1 (9 / 4)))]) (n := "P") (lab := ([], []))
    (by simp [findRegion, regionOf, AnyRegion.name, AnyRegion.base]) (by simp [regionOf, AnyRegion.type])
    (w := freshWorld3 24 60) (fresh_freshWorld3 24 60) rfl true 0 true
  refine ⟨a, w', x, e1, e2, (e3 0).2 ⟨⟨0, 0, 0⟩, by norm_num [Pos.In], rfl, ?_⟩, (e3 1).2 ⟨⟨1, 0, 0⟩, by norm_num [Pos.In], rfl, ?_⟩, fun hx => ?_⟩
  · norm_num [InCell3, gx, gy, gz, hx, hy, hz, mk3]
  · norm_num [InCell3, gx, gy, gz, hx, hy, hz, mk3]
  · obtain ⟨⟨i, j, k⟩, ⟨h1, h2, h3⟩, he, hin⟩ := (e3 2).1 hx
    simp only at h1 h2 h3
    have : j = 1 := by
      have he' : 2 = i + j * 2 + k * 2 * 3 := he
      have h1' : i < 2 := h1
      have h2' : j < 3 := h2
      omega
    subst this
    norm_num [InCell3, gy, hy, mk3] at hin

end Jali.SimpleGeom
