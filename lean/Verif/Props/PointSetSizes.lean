import Verif.Props.LinePointSets
/-!
C178: sets of cells of point regions on meshes with large and with small cells.
-/
namespace Jali.Reg
variable {P K : Type} [Field K] [LinearOrder K] [IsStrictOrderedRing K]

theorem nearestNode_none (g : Geo P K) (p : P) (m : K) : ∀ ns : List Nat, (∀ n ∈ ns, m ≤ g.dist2 (g.nodeCoord n) p) →
    nearestNode g p ns m none = none
  | [], _ => rfl
  | n :: ns, h => by
    rw [nearestNode, if_neg (not_lt.2 (h n (by simp)))]
    exact nearestNode_none g p m ns fun k hk => h k (by simp [hk])

theorem nearestNode_first (g : Geo P K) (p : P) {k : Nat} (hk : 0 < k) (h : g.dist2 (g.nodeCoord 0) p ≤ 1 / 10 ^ 32) :
    nearestNode g p (List.range k) (10 ^ 16) none = some 0 := by
  obtain ⟨j, rfl⟩ : ∃ j, k = j + 1 := ⟨k - 1, by omega⟩
  have lt : g.dist2 (g.nodeCoord 0) p < 10 ^ 16 := lt_of_le_of_lt h (by norm_num)
  rw [List.range_succ_eq_map, nearestNode, if_pos lt, if_pos h]

/-- **C178** If every node is 1e8 or more away from the point, the construction of the set of cells has undefined behaviour. -/
theorem far_point_undefined (g : Geo P K) {gm : List (Region P)} {n : String} {r : Region P} (hr : findRegion gm n = some r)
    (ht : r.type = .POINT) {p : P} (hp : r.point = some p) {w : World}
    (far : ∀ k, k < (w.view .NODE).nAll → 10 ^ 16 ≤ g.dist2 (g.nodeCoord k) p) (d : Nat) (b : Bool) :
    build g gm d w n .CELL b = .error .undefinedBehaviour := by
  have hl : regionLists g w .CELL r = .error .undefinedBehaviour := by
    simp only [regionLists, cellLists, ht, hp, pointCells]
    rw [nearestNode_none g p _ _ fun k hk => far k (List.mem_range.1 hk)]
  cases d <;> rw [build] <;> simp only [hr, hl]

/-- if the first node is 1e-16 or less away from the point and none of its cells contains the point, the set has no cells -/
theorem near_first_empty (g : Geo P K) {gm : List (Region P)} {n : String} {r : Region P} (hr : findRegion gm n = some r)
    (ht : r.type = .POINT) {p : P} (hp : r.point = some p) {w : World} (h0 : 0 < (w.view .NODE).nAll)
    (near : g.dist2 (g.nodeCoord 0) p ≤ 1 / 10 ^ 32) (hno : ∀ c ∈ g.nodeCells 0, g.pointInCell p c = false) (d : Nat) (b : Bool) :
    ∃ a w' x, build g gm d w n .CELL b = .ok (some a, w') ∧ w'.heap[a]? = some x ∧ ∀ t, MSet.entities x t = [] := by
  have hl : regionLists g w .CELL r = .ok (some ([], [])) := by
    simp only [regionLists, cellLists, ht, hp, pointCells]
    rw [nearestNode_first g p h0 near]
    have : ((g.nodeCells 0).filter fun c => g.pointInCell p c) = [] := List.filter_eq_nil_iff.2 fun c hc => by simp [hno c hc]
    simp only [this, splitByType, List.filter_nil]
  obtain ⟨x, hmk, -, -, -, h3, h4, h5, -⟩ := makeMeshset_ok (w := w) (n := n) (k := .CELL) (o := []) (g := []) (b := b)
    List.nodup_nil List.nodup_nil (by simp) (by simp)
  refine ⟨w.heap.length, withSet w x false, x, ?_, by simp [withSet, addSet, alloc], fun t => ?_⟩
  · cases d <;> rw [build] <;> simp only [hr, hl, hmk]
  · have := h5.all_eq
    rw [h3, h4] at this
    cases t <;> simp [MSet.entities, h3, h4, this]

end Jali.Reg

namespace Jali.SimpleGeom
open Jali.Geom Jali.Geom.Point Jali.Geom.Spec Jali.MeshGeom Jali.Reg Jali.Simple Jali.Simple.Spec Jali.MstkGen

variable {d : Dims} {b : Box}

/-- the middle of the cell at a position -/
noncomputable def centre (d : Dims) (b : Box) (q : Pos) : Point :=
  mk3 ((gx d b q.i + gx d b (q.i + 1)) / 2) ((gy d b q.j + gy d b (q.j + 1)) / 2) ((gz d b q.k + gz d b (q.k + 1)) / 2)

/-- **C178** On every structured mesh with cells that are 2e8 wide or wider, the set of the point in the middle of any cell has undefined
behaviour, although the cell contains the point. -/
theorem structured_coarse_undefined (h : Proper d b) (wide : 2 * 10 ^ 8 ≤ ((b.x1 : ℝ) - b.x0) / d.nx) {q : Pos} (hq : q.In d.nx d.ny d.nz)
    {nm : String} {id : Nat} {lc : LifeCycle} {rg : AnyRegion} (hm : mkPointRegion nm id (centre d b q) lc = .value rg)
    {lab : List Nat × List Nat} {gm : List (Reg.Region Point)} {n : String} (hr : findRegion gm n = some (regionOf lab rg))
    {w : World} (hv : (w.view .NODE).nAll = numNodes d) (fr : Bool) (k : Nat) (rev : Bool) :
    pointInCell (simpleMesh d b) (centre d b q) (cellIdx d q) = true ∧
    Reg.build (simplePointGeo d b fr) gm k w n .CELL rev = .error .undefinedBehaviour := by
  simp only [mkPointRegion, Res.value.injEq] at hm
  subst hm
  have px : hx d b = ((b.x1 : ℝ) - b.x0) / d.nx := rfl
  have wx : 2 * 10 ^ 8 ≤ hx d b := by rw [px]; exact wide
  have wy := hy_pos h
  have wz := hz_pos h
  have sx : ∀ i : Nat, gx d b (i + 1) = gx d b i + hx d b := fun i => by simp only [gx]; push_cast; ring
  have sy : ∀ i : Nat, gy d b (i + 1) = gy d b i + hy d b := fun i => by simp only [gy]; push_cast; ring
  have sz : ∀ i : Nat, gz d b (i + 1) = gz d b i + hz d b := fun i => by simp only [gz]; push_cast; ring
  refine ⟨(point_in_cell_iff h hq _).2 ?_, far_point_undefined _ hr rfl rfl (fun m hm => ?_) k rev⟩
  · simp only [InCell3, centre, mk3, sx, sy, sz]
    refine ⟨⟨?_, ?_⟩, ⟨?_, ?_⟩, ?_, ?_⟩ <;> linarith
  · rw [hv] at hm
    obtain ⟨v, hvi, rfl⟩ := nodeIdx_surj d hm
    show (10 : ℝ) ^ 16 ≤ dot (toPoint (nodeGetCoordinates 3 (coordinates d b) (nodeIdx d v)) - centre d b q)
      (toPoint (nodeGetCoordinates 3 (coordinates d b) (nodeIdx d v)) - centre d b q)
    rw [nodeGetCoordinates_eq d b hvi, toPoint_lattice]
    have e := dist_grid (x := gx d b v.i) (y := gy d b v.j) (z := gz d b v.k) (p := centre d b q) rfl
    refine le_trans ?_ (le_of_eq e.symm)
    have key : 10 ^ 16 ≤ (gx d b v.i - (centre d b q).x) ^ 2 := by
      have ex : gx d b v.i - (centre d b q).x = ((v.i : ℝ) - q.i - 1 / 2) * hx d b := by
        simp only [centre, mk3, sx]
        simp only [gx]
        ring
      rw [ex, mul_pow]
      have h1 : (1 / 4 : ℝ) ≤ ((v.i : ℝ) - q.i - 1 / 2) ^ 2 := by
        rcases Nat.lt_or_ge q.i v.i with hlt | hge
        · have : (q.i : ℝ) + 1 ≤ v.i := by exact_mod_cast hlt
          nlinarith
        · have : (v.i : ℝ) ≤ q.i := by exact_mod_cast hge
          nlinarith
      have h2 : (2 * 10 ^ 8 : ℝ) ^ 2 ≤ hx d b ^ 2 := pow_le_pow_left₀ (by norm_num) wx 2
      nlinarith
    have := sq_nonneg (gy d b v.j - (centre d b q).y)
    have := sq_nonneg (gz d b v.k - (centre d b q).z)
    linarith

/-- **C178** On every structured mesh of two or more cells along x which are 5e-17 wide or less, the set of the node (2, 0, 0) has no cells,
although cell (1, 0, 0) contains it. -/
theorem structured_fine_empty (h : Proper d b) (h2 : 2 ≤ d.nx) (narrow : ((b.x1 : ℝ) - b.x0) / d.nx ≤ 1 / (2 * 10 ^ 16))
    {nm : String} {id : Nat} {lc : LifeCycle} {rg : AnyRegion}
    (hm : mkPointRegion nm id (mk3 (gx d b 2) (gy d b 0) (gz d b 0)) lc = .value rg)
    {lab : List Nat × List Nat} {gm : List (Reg.Region Point)} {n : String} (hr : findRegion gm n = some (regionOf lab rg))
    {w : World} (hv : (w.view .NODE).nAll = numNodes d) (fr : Bool) (k : Nat) (rev : Bool) :
    pointInCell (simpleMesh d b) (mk3 (gx d b 2) (gy d b 0) (gz d b 0)) (cellIdx d ⟨1, 0, 0⟩) = true ∧
    ∃ a w' x, Reg.build (simplePointGeo d b fr) gm k w n .CELL rev = .ok (some a, w') ∧ w'.heap[a]? = some x ∧
      ∀ t, MSet.entities x t = [] := by
  simp only [mkPointRegion, Res.value.injEq] at hm
  subst hm
  have px := hx_pos h
  have nx' : hx d b ≤ 1 / (2 * 10 ^ 16) := narrow
  have wy := hy_pos h
  have wz := hz_pos h
  have e0 : nodeIdx d ⟨0, 0, 0⟩ = 0 := by simp [nodeIdx, nodeIndex]
  have i0 : NodeIn d ⟨0, 0, 0⟩ := ⟨by simp, by simp, by simp⟩
  refine ⟨(point_in_cell_iff h ⟨(by show 1 < d.nx; omega), h.ny, h.nz⟩ _).2 ?_, near_first_empty _ hr rfl rfl ?_ ?_ ?_ k rev⟩
  · simp only [InCell3, mk3, gx, gy, gz]
    push_cast
    refine ⟨⟨?_, ?_⟩, ⟨?_, ?_⟩, ?_, ?_⟩ <;> linarith
  · rw [hv]; simp [numNodes]
  · have e1 : toPoint (nodeGetCoordinates 3 (coordinates d b) 0) = mk3 (gx d b 0) (gy d b 0) (gz d b 0) := by
      have := toPoint_lattice (d := d) (b := b) ⟨0, 0, 0⟩
      rw [← nodeGetCoordinates_eq d b i0, e0] at this
      exact this
    show dot (toPoint (nodeGetCoordinates 3 (coordinates d b) 0) - mk3 (gx d b 2) (gy d b 0) (gz d b 0))
      (toPoint (nodeGetCoordinates 3 (coordinates d b) 0) - mk3 (gx d b 2) (gy d b 0) (gz d b 0)) ≤ _
    rw [e1]
    refine le_trans (le_of_eq (dist_grid (p := mk3 (gx d b 2) (gy d b 0) (gz d b 0)) rfl)) ?_
    simp only [mk3, gx, gy, gz]
    push_cast
    have : hx d b ^ 2 ≤ (1 / (2 * 10 ^ 16)) ^ 2 := pow_le_pow_left₀ px.le nx' 2
    norm_num at this ⊢
    nlinarith
  · intro c hc
    have hc' : c ∈ nodeGetCells d 0 := hc
    obtain ⟨q, hq, rfl⟩ := cellIdx_surj d (nodeGetCells_valid d hc')
    rw [← e0, mem_nodeGetCells d i0 hq] at hc'
    have hi : q.i = 0 := by
      simp only [hexCorners, List.mem_cons, List.not_mem_nil, or_false, Pos.mk.injEq] at hc'
      omega
    by_contra hin
    have hin := (point_in_cell_iff h hq _).1 (Bool.not_eq_false _ ▸ hin)
    have := hin.1.2
    rw [hi] at this
    simp only [mk3, gx] at this
    push_cast at this
    linarith

variable {nx : Nat} {x : Nat → ℝ}

/-- **C178** In one dimension: in a cell that is 2e8 wide or wider the set of its middle has undefined behaviour. -/
theorem line_coarse_undefined (g : GeomType) (hinc : ∀ i < nx, x i < x (i + 1)) {c : Nat} (hc : c < nx) (wide : 2 * 10 ^ 8 ≤ x (c + 1) - x c)
    {nm : String} {id : Nat} {lc : LifeCycle} {rg : AnyRegion} (hm : mkPointRegion nm id (mk1 ((x c + x (c + 1)) / 2)) lc = .value rg)
    {lab : List Nat × List Nat} {gm : List (Reg.Region Point)} {n : String} (hr : findRegion gm n = some (regionOf lab rg))
    {w : World} (hv : (w.view .NODE).nAll = nx + 1) (fr : Bool) (k : Nat) (rev : Bool) :
    pointInCell (lineMesh nx x g) (mk1 ((x c + x (c + 1)) / 2)) c = true ∧
    Reg.build (linePointGeo nx x g fr) gm k w n .CELL rev = .error .undefinedBehaviour := by
  simp only [mkPointRegion, Res.value.injEq] at hm
  subst hm
  have := hinc c hc
  refine ⟨(line_point_in_cell g hc _).2 ⟨by linarith, by linarith⟩, far_point_undefined _ hr rfl rfl (fun m hm => ?_) k rev⟩
  rw [hv] at hm
  have e : (linePointGeo nx x g fr).dist2 ((linePointGeo nx x g fr).nodeCoord m) (mk1 ((x c + x (c + 1)) / 2)) =
      (x m - (x c + x (c + 1)) / 2) ^ 2 := dist_line
  rw [e]
  have le : ∀ i j, i ≤ j → j ≤ nx → x i ≤ x j := fun i j h hj =>
    (Nat.lt_or_eq_of_le h).elim (fun h => (inc_mono hinc j i h hj).le) (fun e => by rw [e])
  rcases Nat.lt_or_ge c m with h | h
  · have := le (c + 1) m h (by omega)
    nlinarith
  · have := le m c h (by omega)
    nlinarith

/-- one cell of a light second: no set for its middle -/
example : Reg.build (simplePointGeo ⟨1, 1, 1⟩ ⟨0, 0, 0, 299792458, 1, 1⟩ true)
    [regionOf ([], []) (.point ⟨"P", 1, 0, .PERMANENT⟩ (centre ⟨1, 1, 1⟩ ⟨0, 0, 0, 299792458, 1, 1⟩ ⟨0, 0, 0⟩))] 0
    (freshWorld3 1 8) "P" .CELL true = .error .undefinedBehaviour :=
  (structured_coarse_undefined (d := ⟨1, 1, 1⟩) (b := ⟨0, 0, 0, 299792458, 1, 1⟩) (by constructor <;> norm_num) (by norm_num)
    (q := ⟨0, 0, 0⟩) (by norm_num [Pos.In]) (nm := "P") (id := 1) (lc := .PERMANENT) rfl (lab := ([], []))
    (by simp [findRegion, regionOf, AnyRegion.name, AnyRegion.base]) rfl true 0 true).2

/-- four cells of 2.5e-17 along x -/
example : ∃ a w' x, Reg.build (simplePointGeo ⟨4, 1, 1⟩ ⟨0, 0, 0, 1 / 10 ^ 16, 1, 1⟩ true)
    [regionOf ([], []) (.point ⟨"P", 1, 0, .PERMANENT⟩ (mk3 (gx ⟨4, 1, 1⟩ ⟨0, 0, 0, 1 / 10 ^ 16, 1, 1⟩ 2) (gy ⟨4, 1, 1⟩ ⟨0, 0, 0, 1 / 10 ^ 16, 1, 1⟩ 0)
      (gz ⟨4, 1, 1⟩ ⟨0, 0, 0, 1 / 10 ^ 16, 1, 1⟩ 0)))] 0 (freshWorld3 4 20) "P" .CELL true = .ok (some a, w') ∧
    w'.heap[a]? = some x ∧ ∀ t, MSet.entities x t = [] :=
  (structured_fine_empty (d := ⟨4, 1, 1⟩) (b := ⟨0, 0, 0, 1 / 10 ^ 16, 1, 1⟩) (by constructor <;> norm_num) (by norm_num) (by norm_num)
    (nm := "P") (id := 1) (lc := .PERMANENT) rfl (lab := ([], []))
    (by simp [findRegion, regionOf, AnyRegion.name, AnyRegion.base]) rfl true 0 true).2

/-- two cells of 1e9 on a line -/
example : Reg.build (linePointGeo 2 (fun i => (i : ℝ) * 10 ^ 9) .CARTESIAN true)
    [regionOf ([], []) (.point ⟨"P", 1, 0, .PERMANENT⟩ (mk1 ((((1 : ℕ) : ℝ) * 10 ^ 9 + ((1 + 1 : ℕ) : ℝ) * 10 ^ 9) / 2)))] 0
    (freshWorld3 2 3) "P" .CELL true = .error .undefinedBehaviour :=
  (line_coarse_undefined (nx := 2) (x := fun i => (i : ℝ) * 10 ^ 9) .CARTESIAN (fun i _ => by push_cast; linarith) (c := 1) (by norm_num)
    (by norm_num) (nm := "P") (id := 1) (lc := .PERMANENT) rfl (lab := ([], []))
    (by simp [findRegion, regionOf, AnyRegion.name, AnyRegion.base]) rfl true 0 true).2

end Jali.SimpleGeom
