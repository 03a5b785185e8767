import Verif.Proof.BlockSearchSimple
import Verif.Props.Partition
import Verif.Props.MeshSimple1D
import Verif.Props.SideGeometry1D
import Mathlib.Data.Fin.VecNotation
/-! Property theorems C150: which meshes the BLOCK partitioner recognises. -/
namespace Jali.BlockSearch
open Jali.Geom Jali.Geom.Spec Jali.Geom.Point Jali.MeshGeom Jali.Simple Jali.Simple.Spec Jali.SimpleGeom BlockPartition BlockPartition.Spec

variable {d : Dims} {b : Box}

/-- The coordinates of the domain are not larger than the initial values of the limits. -/
structure Bounded (b : Box) : Prop where
  lo : b.x0 ≤ 1e20 ∧ b.y0 ≤ 1e20 ∧ b.z0 ≤ 1e20
  hi : -1e20 ≤ b.x1 ∧ -1e20 ≤ b.y1 ∧ -1e20 ≤ b.z1

theorem corner_coords {p : Pos} {q : Point} (hp : CellIn d p) :
    q ∈ (simpleMesh d b).cellCoords (cellIdx d p) ↔ ∃ s t u : Nat, s ≤ 1 ∧ t ≤ 1 ∧ u ≤ 1 ∧
      q = mk3 (gx d b (p.i + s)) (gy d b (p.j + t)) (gz d b (p.k + u)) := by
  have e : ∀ s t u : Nat, boxCorner (gx d b p.i) (gy d b p.j) (gz d b p.k) (hx d b) (hy d b) (hz d b) (s, t, u) =
      mk3 (gx d b (p.i + s)) (gy d b (p.j + t)) (gz d b (p.k + u)) := by
    intro s t u
    simp only [boxCorner, mk3, gx, gy, gz]
    push_cast
    ext <;> simp only <;> ring
  rw [cellCoords_eq d b hp, cellBox, boxCorners, List.mem_map]
  constructor
  · rintro ⟨⟨s, t, u⟩, hm, rfl⟩
    have : ∀ x ∈ boxC, x.1 ≤ 1 ∧ x.2.1 ≤ 1 ∧ x.2.2 ≤ 1 := by decide
    obtain ⟨h1, h2, h3⟩ := this _ hm
    exact ⟨s, t, u, h1, h2, h3, e s t u⟩
  · rintro ⟨s, t, u, h1, h2, h3, rfl⟩
    refine ⟨(s, t, u), ?_, e s t u⟩
    have hs : s = 0 ∨ s = 1 := by omega
    have ht : t = 0 ∨ t = 1 := by omega
    have hu : u = 0 ∨ u = 1 := by omega
    rcases hs with rfl | rfl <;> rcases ht with rfl | rfl <;> rcases hu with rfl | rfl <;> decide

theorem grid_range {x0 x1 h : ℝ} {n i : Nat} (hh : 0 < h) (hi : i ≤ n) (e : x0 + n * h = x1) : x0 ≤ x0 + i * h ∧ x0 + i * h ≤ x1 := by
  have h1 : (i : ℝ) ≤ n := by exact_mod_cast hi
  have h0 : (0 : ℝ) ≤ i := by positivity
  have h2 := mul_le_mul_of_nonneg_right h1 hh.le
  have h3 := mul_nonneg h0 hh.le
  exact ⟨by linarith, by linarith⟩

/-- the limits found are those of the domain -/
theorem limits_simple (h : Proper d b) (hb : Bounded b) {dir : Nat} (hdir : dir < 3) :
    limits (simpleMesh d b) (cellIds d) dir = (bot b dir, top b dir) := by
  have hx := hx_pos h
  have hy := hy_pos h
  have hz := hz_pos h
  have hlo : ∀ r : Rat, r ≤ 1e20 → (r : ℝ) ≤ 1e20 := by
    intro r hr
    have : (r : ℝ) ≤ ((1e20 : Rat) : ℝ) := by exact_mod_cast hr
    refine le_trans this (le_of_eq ?_); norm_num
  have hhi : ∀ r : Rat, -1e20 ≤ r → -1e20 ≤ (r : ℝ) := by
    intro r hr
    have : ((-1e20 : Rat) : ℝ) ≤ (r : ℝ) := by exact_mod_cast hr
    refine le_trans (le_of_eq ?_) this; norm_num
  have hd : dir = 0 ∨ dir = 1 ∨ dir = 2 := by omega
  have h000 : CellIn d ⟨0, 0, 0⟩ := ⟨h.nx, h.ny, h.nz⟩
  have h111 : CellIn d ⟨d.nx - 1, d.ny - 1, d.nz - 1⟩ :=
    ⟨Nat.sub_lt h.nx Nat.one_pos, Nat.sub_lt h.ny Nat.one_pos, Nat.sub_lt h.nz Nat.one_pos⟩
  have ex : d.nx - 1 + 1 = d.nx := Nat.sub_add_cancel h.nx
  have ey : d.ny - 1 + 1 = d.ny := Nat.sub_add_cancel h.ny
  have ez : d.nz - 1 + 1 = d.nz := Nat.sub_add_cancel h.nz
  refine limits_eq ?_ ?_ ?_ ?_ ?_
  · rcases hd with rfl | rfl | rfl
    · exact hlo _ hb.lo.1
    · exact hlo _ hb.lo.2.1
    · exact hlo _ hb.lo.2.2
  · rcases hd with rfl | rfl | rfl
    · exact hhi _ hb.hi.1
    · exact hhi _ hb.hi.2.1
    · exact hhi _ hb.hi.2.2
  · intro c hc q hq
    obtain ⟨p, hp, rfl⟩ := cellIdx_surj d (List.mem_range.1 hc)
    obtain ⟨s, t, u, h1, h2, h3, rfl⟩ := (corner_coords hp).mp hq
    obtain ⟨i1, i2, i3⟩ := hp
    rcases hd with rfl | rfl | rfl
    · exact grid_range hx (by omega) (gx_last h)
    · exact grid_range hy (by omega) (gy_last h)
    · exact grid_range hz (by omega) (gz_last h)
  · refine ⟨_, List.mem_range.mpr (cellIdx_lt d h000), _, (corner_coords h000).mpr ⟨0, 0, 0, by omega, by omega, by omega, rfl⟩, ?_⟩
    rcases hd with rfl | rfl | rfl <;> simp [coord, mk3, bot, gx, gy, gz]
  · refine ⟨_, List.mem_range.mpr (cellIdx_lt d h111), _, (corner_coords h111).mpr ⟨1, 1, 1, by omega, by omega, by omega, rfl⟩, ?_⟩
    rcases hd with rfl | rfl | rfl
    · simp [coord, mk3, top, ex, gx_last h]
    · simp [coord, mk3, top, ey, gy_last h]
    · simp [coord, mk3, top, ez, gz_last h]

/-- the corner cell found is the first cell -/
theorem corner_simple (h : Proper d b) (hb : Bounded b) :
    corner (simpleMesh d b) (cellIds d) (fun k => (limits (simpleMesh d b) (cellIds d) k).1) = some (cellIdx d ⟨0, 0, 0⟩) := by
  have h000 : CellIn d ⟨0, 0, 0⟩ := ⟨h.nx, h.ny, h.nz⟩
  have e0 : cellIdx d ⟨0, 0, 0⟩ = 0 := by simp [cellIdx, cellIndex]
  have hpos : 0 < numCells d := e0 ▸ cellIdx_lt d h000
  obtain ⟨n, hn⟩ : ∃ n, numCells d = n + 1 := ⟨numCells d - 1, by omega⟩
  unfold corner
  rw [e0, cellIds, hn, List.range_succ_eq_map, List.find?_cons_of_pos]
  rw [List.any_eq_true]
  refine ⟨_, e0 ▸ (corner_coords h000).mpr ⟨0, 0, 0, by omega, by omega, by omega, rfl⟩, ?_⟩
  have l0 := limits_simple h hb (dir := 0) (by decide)
  have l1 := limits_simple h hb (dir := 1) (by decide)
  have l2 := limits_simple h hb (dir := 2) (by decide)
  rw [← List.range_succ_eq_map, ← hn]
  rw [cellIds] at l0 l1 l2
  rw [decide_eq_true_eq]
  show dist2 3 _ _ < _
  simp only [dist2, List.range_succ, List.range_zero, List.nil_append, List.cons_append, List.map_cons, List.map_nil, List.sum_cons, List.sum_nil,
    l0, l1, l2]
  simp [coord, mk3, bot, gx, gy, gz]
  norm_num

/-- number of cells in a direction -/
def cellsIn (d : Dims) (dir : Nat) : Nat := if dir = 0 then d.nx else if dir = 1 then d.ny else d.nz

/-- the cell at distance `i` from the corner in a direction -/
def along (dir i : Nat) : Pos := ⟨if dir = 0 then i else 0, if dir = 1 then i else 0, if dir = 2 then i else 0⟩

theorem walk_simple (h : Proper d b) {dir : Nat} (hdir : dir < 3) {fuel : Nat} (hf : cellsIn d dir ≤ fuel) :
    walk (simpleMesh d b) (fun _ => true) (top b dir) dir fuel (cellIdx d ⟨0, 0, 0⟩) 1 = .count (cellsIn d dir) := by
  have hn : 0 < cellsIn d dir := by
    unfold cellsIn; split
    · exact h.nx
    · split
      · exact h.ny
      · exact h.nz
  have hd : dir = 0 ∨ dir = 1 ∨ dir = 2 := by omega
  have hin : ∀ i < cellsIn d dir, CellIn d (along dir i) := by
    intro i hi
    have := h.nx; have := h.ny; have := h.nz
    rcases hd with rfl | rfl | rfl <;> simp [cellsIn] at hi <;> simp [along, CellIn, Pos.In, *]
  have hbump : ∀ i, bump dir (along dir i) = along dir (i + 1) := by
    intro i
    rcases hd with rfl | rfl | rfl <;> simp [bump, along]
  have hout : ¬ CellIn d (along dir (cellsIn d dir)) := by
    rcases hd with rfl | rfl | rfl <;> simp [along, CellIn, Pos.In, cellsIn]
  have h0 : along dir 0 = ⟨0, 0, 0⟩ := by simp [along]
  have := walk_chain (m := simpleMesh d b) (owned := fun _ => true) (hi := top b dir) (d := dir) (fun i => cellIdx d (along dir i)) (cellsIn d dir)
    (fun i hi => by
      rw [(scan_simple h (hin i (by omega)) hdir).1 (by rw [hbump]; exact hin _ hi), hbump])
    ((scan_simple h (hin _ (by omega)) hdir).2 (by rw [hbump, Nat.sub_add_cancel hn]; exact hout))
    (cellsIn d dir - 1) 0 fuel 1 (by omega) (by omega) hn
  rw [h0] at this
  rw [this]
  congr 1; omega

/-- **C150, the search.** On every structured mesh of a proper box, the search finds the number of cells in each direction. -/
theorem search_simple (h : Proper d b) (hb : Bounded b) {fuel : Nat} (hx : d.nx ≤ fuel) (hy : d.ny ≤ fuel) (hz : d.nz ≤ fuel) :
    search fuel (simpleMesh d b) (cellIds d) (fun _ => true) = .regular [d.nx, d.ny, d.nz] := by
  unfold search
  rw [corner_simple h hb]
  dsimp only
  show walks _ _ _ _ _ (List.range 3) = _
  have w : ∀ dir < 3, cellsIn d dir ≤ fuel →
      walk (simpleMesh d b) (fun _ => true) (limits (simpleMesh d b) (cellIds d) dir).2 dir fuel (cellIdx d ⟨0, 0, 0⟩) 1 = .count (cellsIn d dir) := by
    intro dir hdir hf
    rw [limits_simple h hb hdir]
    exact walk_simple h hdir hf
  simp only [List.range_succ, List.range_zero, List.nil_append, List.cons_append, walks, w 0 (by decide) hx, w 1 (by decide) hy, w 2 (by decide) hz]
  rfl

/-- **C150.** On every structured mesh of a proper box and for every number of parts from one to the number of cells, the BLOCK
partitioner recognises the mesh and divides its cells into boxes of lattice cells: there are blocks tiling the lattice such that part
`i` contains exactly the cells in block `i`; the parts together contain each cell exactly once. -/
theorem blocks_of_structured_mesh_partial (h : Proper d b) (hb : Bounded b) (numParts : Nat) (h1 : 1 ≤ numParts) (hn : numParts ≤ numCells d)
    (fuel : Nat) (hf : numParts ≤ fuel) (hx : d.nx ≤ fuel) (hy : d.ny ≤ fuel) (hz : d.nz ≤ fuel) :
    ∃ (blocks : List Block) (parts : List (List Nat)), Tiles 3 ![d.nx, d.ny, d.nz] blocks ∧
      partition fuel (simpleMesh d b) (cellIds d) (fun _ => true) numParts = .parts parts ∧
      parts.length = numParts ∧ parts.flatten.Perm (cellIds d) ∧
      ∀ i, (hi : i < parts.length) → ∃ hb : i < blocks.length, ∀ p : Pos, p.In d.nx d.ny d.nz →
        (cellIdx d p ∈ parts[i] ↔ InBlock 3 blocks[i] ![p.i, p.j, p.k]) := by
  have hex : ∀ c, ∃ q : Pos, c ∈ cellIds d → q.In d.nx d.ny d.nz ∧ cellIdx d q = c := by
    intro c
    by_cases hc : c ∈ cellIds d
    · obtain ⟨p, hp, rfl⟩ := cellIdx_surj d (List.mem_range.1 hc)
      exact ⟨p, fun _ => ⟨hp, rfl⟩⟩
    · exact ⟨⟨0, 0, 0⟩, fun h => absurd h hc⟩
  choose q hq using hex
  let r : Partition.Regular ℝ := ⟨fun k => (limits (simpleMesh d b) (cellIds d) k).1, fun k => (limits (simpleMesh d b) (cellIds d) k).2,
    fun k => [d.nx, d.ny, d.nz].getD k 0⟩
  have hrn : r.n = ![d.nx, d.ny, d.nz] := by
    funext k
    match k with
    | 0 => rfl
    | 1 => rfl
    | 2 => rfl
  have lim : ∀ k < 3, r.lo k = bot b k ∧ r.hi k = top b k := by
    intro k hk
    have := limits_simple h hb hk
    exact ⟨congrArg Prod.fst this, congrArg Prod.snd this⟩
  let ccen : Nat → Nat → ℝ := fun c k => match computeCellGeometry (simpleMesh d b) c with
    | some g => coord g.2 k
    | none => 0
  obtain ⟨blocks, parts, hok, hT, hby, hlen, hperm, hmem⟩ := Partition.byBlocks_partition (K := ℝ) 3 numParts r (cellIds d)
    (fun c => ![(q c).i, (q c).j, (q c).k]) ccen (by decide) (by decide)
    (by
      intro k _
      match k with
      | 0 => exact h.nx
      | 1 => exact h.ny
      | 2 => exact h.nz)
    h1 hn
    (by
      intro k hk
      rw [(lim k hk).1, (lim k hk).2]
      have hd : k = 0 ∨ k = 1 ∨ k = 2 := by omega
      have := h.x; have := h.y; have := h.z
      rcases hd with rfl | rfl | rfl <;> simp [top, bot] <;> assumption)
    (by
      intro c hc k hk
      obtain ⟨i1, i2, i3⟩ := (hq c hc).1
      match k with
      | 0 => exact i1
      | 1 => exact i2
      | 2 => exact i3)
    (by
      intro c hc k hk
      obtain ⟨hin, hidx⟩ := hq c hc
      have hg := simple_cell_geometry h hin
      rw [hidx] at hg
      simp only [ccen, hg]
      match k with
      | 0 => rw [(lim (0 : Fin 3) (by decide)).1, (lim (0 : Fin 3) (by decide)).2]; rfl
      | 1 => rw [(lim (1 : Fin 3) (by decide)).1, (lim (1 : Fin 3) (by decide)).2]; rfl
      | 2 => rw [(lim (2 : Fin 3) (by decide)).1, (lim (2 : Fin 3) (by decide)).2]; rfl)
    fuel hf
  refine ⟨blocks, parts, by rw [← hrn]; exact hT, ?_, hlen, hperm, ?_⟩
  · unfold partition
    rw [search_simple h hb hx hy hz]
    dsimp only
    show (match Partition.byBlocks fuel 3 numParts (some r) (cellIds d) ccen with
      | .error _ => Outcome.asserts
      | .ok none => .outOfRange
      | .ok (some l) => .parts l) = _
    rw [hby]
  · intro i hi
    have hbl : i < blocks.length := by
      obtain ⟨bl, hl, hok'⟩ := blockPartition_returns_request 3 r.n numParts (by decide) (by decide) (by
        intro k _
        match k with
        | 0 => exact h.nx
        | 1 => exact h.ny
        | 2 => exact h.nz) h1 hn
      have e := hok' fuel hf
      rw [hok] at e
      injection e with e
      subst e
      omega
    refine ⟨hbl, fun p hp => ?_⟩
    have hc : cellIdx d p ∈ cellIds d := List.mem_range.mpr (cellIdx_lt d hp)
    obtain ⟨hin, hidx⟩ := hq _ hc
    have e := cellIdx_inj d hin hp hidx
    rw [hmem i hi hbl (cellIdx d p), e]
    exact ⟨fun h => h.2, fun h => ⟨hc, h⟩⟩

/-- a 2 × 3 × 4 mesh on a box that is not a cube, in five parts -/
example : Proper ⟨2, 3, 4⟩ ⟨-1, 0, 2, 1, 9, 4⟩ ∧ Bounded ⟨-1, 0, 2, 1, 9, 4⟩ ∧ 5 ≤ numCells ⟨2, 3, 4⟩ :=
  ⟨by constructor <;> norm_num, by constructor <;> norm_num, by decide⟩

/-! ### where the search starts -/

theorem sum_sq_bound (l : List Nat) (g : Nat → ℝ) (e : ℝ) (h : (l.map fun d => g d * g d).sum < e) : ∀ d ∈ l, g d * g d < e := by
  induction l with
  | nil => simp
  | cons a l ih =>
    rw [List.map_cons, List.sum_cons] at h
    have h0 : 0 ≤ (l.map fun d => g d * g d).sum := List.sum_nonneg (by
      intro x hx
      obtain ⟨d, _, rfl⟩ := List.mem_map.mp hx
      exact mul_self_nonneg _)
    intro d hd
    rcases List.mem_cons.mp hd with rfl | hd
    · linarith
    · exact ih (by have := mul_self_nonneg (g a); linarith) d hd

/-- **C150** the search starts in an owned cell that has a node at the low end of the domain, up to 1e-10 in each direction; if it
finds none, no owned cell has a node there -/
theorem search_starts (m : GMesh) (cells : List Nat) (lo : Nat → ℝ) :
    (∀ c, corner m cells lo = some c → c ∈ cells ∧ ∃ p ∈ m.cellCoords c, ∀ d < m.spaceDim, |lo d - coord p d| < 1e-10) ∧
    (corner m cells lo = none → ∀ c ∈ cells, ∀ p ∈ m.cellCoords c, ∃ d < m.spaceDim, coord p d ≠ lo d) := by
  unfold corner
  constructor
  · intro c hc
    have h1 := List.find?_some hc
    refine ⟨List.mem_of_find?_eq_some hc, ?_⟩
    obtain ⟨p, hp, h2⟩ := List.any_eq_true.mp h1
    refine ⟨p, hp, fun d hd => ?_⟩
    have h3 := sum_sq_bound (List.range m.spaceDim) (fun d => lo d - coord p d) _ (of_decide_eq_true h2) d (List.mem_range.mpr hd)
    have h4 : |lo d - coord p d| ^ 2 < (1e-10 : ℝ) ^ 2 := by
      rw [sq_abs, sq]
      have : (1e-20 : ℝ) = (1e-10) ^ 2 := by norm_num
      rw [← this]; exact h3
    exact lt_of_pow_lt_pow_left₀ 2 (by norm_num) h4
  · intro hn c hc p hp
    by_contra hcon
    push Not at hcon
    rw [List.find?_eq_none] at hn
    apply hn c hc
    refine List.any_eq_true.mpr ⟨p, hp, decide_eq_true ?_⟩
    have hz : (List.range m.spaceDim).map (fun d => (lo d - coord p d) * (lo d - coord p d)) = (List.range m.spaceDim).map fun _ => (0 : ℝ) := by
      apply List.map_congr_left
      intro d hd
      rw [hcon d (List.mem_range.mp hd)]
      ring
    unfold dist2
    rw [hz]
    simp
    norm_num

/-- a structured mesh has such a cell -/
example (h : Proper d b) (hb : Bounded b) : ∃ c, corner (simpleMesh d b) (cellIds d) (fun k => (limits (simpleMesh d b) (cellIds d) k).1) = some c :=
  ⟨_, corner_simple h hb⟩

/-! ### one-dimensional meshes -/

/-- on a one-dimensional mesh whose domain does not end at the origin the high end is never reached -/
theorem scan_1d {m : GMesh} (h1 : m.manifoldDim = 1) (hs : m.spaceDim = 1) {owned : Nat → Bool} {hi : ℝ} (hhi : 1e-12 ≤ |hi|) {k c : Nat} :
    ∀ fs, scan m owned hi k c fs ≠ .reached := by
  intro fs
  induction fs with
  | nil => simp [scan]
  | cons f fs ih =>
    rw [scan]
    split
    · simp
    · split
      · split
        · simp
        · split
          · simp
          · rename_i g hg
            rw [face_centroid_1d m f h1 hs hg, if_neg]
            · simp
            · have : coord (mk1 0) k = 0 := by unfold coord mk1; split <;> [rfl; split <;> rfl]
              rw [this, zero_sub, abs_neg, not_lt]; exact hhi
      · exact ih

theorem walk_1d {m : GMesh} (h1 : m.manifoldDim = 1) (hs : m.spaceDim = 1) {owned : Nat → Bool} {hi : ℝ} (hhi : 1e-12 ≤ |hi|) {k : Nat} :
    ∀ fuel c n r, walk m owned hi k fuel c n ≠ .count r := by
  intro fuel
  induction fuel with
  | zero => intro c n r; simp [walk]
  | succ fuel ih =>
    intro c n r
    rw [walk]
    split
    · simp
    · exact ih _ _ _
    · exact absurd ‹_› (scan_1d h1 hs hhi _)
    · simp

/-- **C150 is false of the code in one dimension.** A one-dimensional mesh whose domain does not end at the origin is never recognised,
whatever its cells are: the BLOCK partitioner either does not return or returns only empty parts. The reason is that the centroid of
every face is the origin (C71). -/
theorem line_never_recognised (m : GMesh) (h1 : m.manifoldDim = 1) (hs : m.spaceDim = 1) (fuel : Nat) (cells : List Nat) (owned : Nat → Bool)
    (hhi : 1e-12 ≤ |(limits m cells 0).2|) (numParts : Nat) :
    (∀ n, search fuel m cells owned ≠ .regular n) ∧
    ∀ l, partition fuel m cells owned numParts = .parts l → l = List.replicate numParts [] := by
  have key : ∀ n, search fuel m cells owned ≠ .regular n := by
    intro n
    unfold search
    split
    · simp
    · rw [hs]
      show walks _ _ _ _ _ [0] ≠ _
      rw [walks]
      split
      · simp
      · simp
      · simp
      · exact absurd ‹_› (walk_1d h1 hs hhi _ _ _ _)
  refine ⟨key, fun l hl => ?_⟩
  unfold partition at hl
  cases hf : search fuel m cells owned with
  | regular n => exact absurd hf (key n)
  | asserts => simp [hf] at hl
  | endless => simp [hf] at hl
  | gives => simpa [hf, Partition.byBlocks, eq_comm] using hl

section line
open Simple1D
variable {nx : Nat} {x : Nat → ℝ} {g : GeomType}

/-- Cartesian or spherical coordinates, points in increasing order (and radii not negative) -/
structure Line (nx : Nat) (x : Nat → ℝ) (g : GeomType) : Prop where
  inc : ∀ i < nx, x i < x (i + 1)
  geom : g = .CARTESIAN ∨ g = .SPHERICAL ∧ 0 ≤ x 0

theorem line_faces {c : Nat} (hc : c < nx) : (lineMesh nx x g).cellFaces c = [(c, -1), (c + 1, 1)] := by
  obtain ⟨_, h2, h3⟩ := (downward nx).1 c hc
  show (Simple1D.cellGetFaces nx c).zip (Simple1D.cellGetFaceDirs nx c) = _
  rw [h2, h3]; rfl

theorem line_cells {f : Nat} (hf : f < nx + 1) : (lineMesh nx x g).faceCells f = (if f < nx then [f] else []) ++ (if 0 < f then [f - 1] else []) := by
  show (Simple1D.faceGetCells nx f).map Int.toNat = _
  simp only [Simple1D.faceGetCells, ftc_even, ftc_odd nx f hf]
  rcases f with _ | f
  · by_cases h1 : 0 < nx <;> simp [h1]
  · by_cases h1 : f + 1 < nx
    · have a1 : ((f + 1 : Nat) : Int) ≠ -1 := by omega
      have a2 : ((f : Nat) : Int) ≠ -1 := by omega
      simp only [h1, if_true, ne_eq, a1, not_false_eq_true, Nat.succ_pos, Nat.add_sub_cancel, a2, List.cons_append, List.nil_append, List.map_cons, List.map_nil, Int.toNat_natCast]
    · have a2 : ((f : Nat) : Int) ≠ -1 := by omega
      simp [h1, a2]

theorem line_listed {f : Nat} (hf : f < nx + 1) : Listed (lineMesh nx x g) f := by
  intro c hc
  rw [line_cells hf] at hc
  have : (c = f ∧ c < nx) ∨ (c + 1 = f ∧ c < nx) := by
    by_cases h1 : f < nx <;> by_cases h2 : 0 < f <;> simp [h1, h2] at hc <;> omega
  rcases this with ⟨rfl, h⟩ | ⟨rfl, h⟩
  · right; rw [faceDir, line_faces h]; simp
  · left; rw [faceDir, line_faces h]; simp

theorem line_le (h : Line nx x g) {i : Nat} (hi : i ≤ nx) : x 0 ≤ x i := by
  induction i with
  | zero => exact le_rfl
  | succ i ih => exact le_trans (ih (by omega)) (h.inc i (by omega)).le

theorem line_area (h : Line nx x g) {f : Nat} (hf : f < nx + 1) : ∃ a : ℝ, 0 ≤ a ∧ (0 < f → 0 < a) ∧
    ((g = .CARTESIAN ∧ a = 1) ∨ (g = .SPHERICAL ∧ a = 4 * Real.pi * (pt ((lineMesh nx x g).faceCoords f) 0).x ^ 2)) := by
  rcases h.geom with e | ⟨e, h0⟩
  · exact ⟨1, by norm_num, fun _ => by norm_num, .inl ⟨e, rfl⟩⟩
  · refine ⟨_, ?_, ?_, .inr ⟨e, rfl⟩⟩
    · have := Real.pi_pos; positivity
    · intro hp
      have hn : (lineMesh nx x g).faceCoords f = [mk1 (x f)] := by
        show (Simple1D.faceGetNodes nx f).map (fun n => mk1 (x n)) = _
        rw [(downward nx).2 f hf]; rfl
      have hx : 0 < x f := by
        obtain ⟨i, rfl⟩ : ∃ i, f = i + 1 := ⟨f - 1, by omega⟩
        have := line_le h (show i ≤ nx by omega)
        have := h.inc i (by omega)
        linarith
      rw [hn]
      have := Real.pi_pos
      have e : (pt [mk1 (x f)] 0).x = x f := rfl
      rw [e]; positivity

theorem unit1 (a : ℝ) : dot (divAssign (mk1 a) (Point.norm (mk1 a))) (refdir 1 0) = a / |a| := by
  rw [SideGeom.norm1]; simp [dot, divAssign, mk1, refdir]

/-- one turn of the walk along a line: to the next cell, or the search is given up at the end -/
theorem scan_line (h : Line nx x g) {c : Nat} (hc : c < nx) (hhi : 1e-12 ≤ |x nx|) :
    scan (lineMesh nx x g) (fun _ => true) (x nx) 0 c (((lineMesh nx x g).cellFaces c).map Prod.fst) =
      if c + 1 < nx then .next (c + 1) else .gives := by
  obtain ⟨a, ha, _, ea⟩ := line_area (g := g) h (show c < nx + 1 by omega)
  obtain ⟨a', _, ha', ea'⟩ := line_area (g := g) h (show c + 1 < nx + 1 by omega)
  have m1 : c ∈ (lineMesh nx x g).faceCells c := by rw [line_cells (by omega)]; simp [hc]
  have m2 : c ∈ (lineMesh nx x g).faceCells (c + 1) := by rw [line_cells (by omega)]; simp
  have n1 := (face_normal_1d (lineMesh nx x g) c c a rfl rfl (line_listed (by omega)) m1 ea).2.1 (by rw [faceDir, line_faces hc]; simp)
  have n2 := (face_normal_1d (lineMesh nx x g) (c + 1) c a' rfl rfl (line_listed (by omega)) m2 ea').1 (by rw [faceDir, line_faces hc]; simp)
  have al : Aligned 1 0 (mk1 a') := by
    show |_ - 1| < _
    rw [unit1, abs_of_pos (ha' (by omega)), div_self (ha' (by omega)).ne']; norm_num
  have nal : ¬ Aligned 1 0 (mk1 (-a)) := by
    show ¬ |_ - 1| < _
    rw [unit1, abs_neg, abs_of_nonneg ha, not_lt]
    have : -a / a ≤ 0 := div_nonpos_of_nonpos_of_nonneg (by linarith) ha
    rw [abs_of_nonpos (by linarith)]
    norm_num; linarith
  rw [line_faces hc]
  simp only [List.map_cons, List.map_nil]
  rw [scan_skip n1 nal]
  split
  · have hcells : ((lineMesh nx x g).faceCells (c + 1)).filter (fun _ => true) = [c + 1, c] := by
      rw [line_cells (by omega)]; simp [*]
    rw [scan_pair n2 al hcells, if_neg (by omega)]
  · have hcells : ((lineMesh nx x g).faceCells (c + 1)).filter (fun _ => true) = [c] := by
      rw [line_cells (by omega)]; simp [*]
    obtain ⟨gg, hgg⟩ := geometry_some n2
    have hz : coord gg.2.1 0 = 0 := by rw [face_centroid_1d _ _ rfl rfl hgg]; rfl
    rw [scan, n2]
    dsimp only
    rw [if_pos (show |dot (divAssign (mk1 a') (Point.norm (mk1 a'))) (refdir (lineMesh nx x g).spaceDim 0) - 1| < 1e-12 from al), hcells]
    dsimp only
    rw [hgg]
    dsimp only
    rw [hz, zero_sub, abs_neg, if_neg (not_lt.mpr hhi)]

theorem walk_line (h : Line nx x g) (hhi : 1e-12 ≤ |x nx|) : ∀ k c fuel n, c + k = nx → c < nx → k ≤ fuel →
    walk (lineMesh nx x g) (fun _ => true) (x nx) 0 fuel c n = .gives := by
  intro k
  induction k with
  | zero => intro c fuel n h1 h2; omega
  | succ k ih =>
    intro c fuel n h1 h2 h3
    obtain ⟨fuel, rfl⟩ : ∃ f, fuel = f + 1 := ⟨fuel - 1, by omega⟩
    rw [walk, scan_line h h2 hhi]
    by_cases hk : c + 1 < nx
    · rw [if_pos hk]
      exact ih (c + 1) fuel (n + 1) (by omega) hk (by omega)
    · rw [if_neg hk]

/-- **C150 is false of the code in one dimension: every cell is lost.** On every one-dimensional structured mesh of at least one cell,
Cartesian or spherical, with its last point between 1e-12 and 1e20 from the origin, the BLOCK partitioner returns empty parts only. -/
theorem line_cells_lost (h : Line nx x g) (hn : 0 < nx) (hhi : 1e-12 ≤ |x nx|) (hlo : x 0 ≤ 1e20) (hup : -1e20 ≤ x nx) (numParts fuel : Nat) (hf : nx ≤ fuel) :
    partition fuel (lineMesh nx x g) (List.range nx) (fun _ => true) numParts = .parts (List.replicate numParts []) := by
  have hcoords : ∀ c < nx, (lineMesh nx x g).cellCoords c = [mk1 (x c), mk1 (x (c + 1))] := by
    intro c hc
    show (Simple1D.cellGetNodes nx c).map (fun n => mk1 (x n)) = _
    rw [((downward nx).1 c hc).1]; rfl
  have hge : ∀ k i, i + k = nx → x i ≤ x nx := by
    intro k
    induction k with
    | zero => intro i e; rw [show i = nx by omega]
    | succ k ih => intro i e; exact le_trans (h.inc i (by omega)).le (ih (i + 1) (by omega))
  have hlim : limits (lineMesh nx x g) (List.range nx) 0 = (x 0, x nx) := by
    refine limits_eq hlo hup ?_ ?_ ?_
    · intro c hc p hp
      have hc := List.mem_range.mp hc
      rw [hcoords c hc] at hp
      simp only [List.mem_cons, List.not_mem_nil, or_false] at hp
      rcases hp with rfl | rfl
      · exact ⟨line_le h (by omega), hge (nx - c) c (by omega)⟩
      · exact ⟨line_le h (by omega), hge (nx - (c + 1)) (c + 1) (by omega)⟩
    · exact ⟨0, List.mem_range.mpr hn, mk1 (x 0), by rw [hcoords 0 hn]; simp, rfl⟩
    · refine ⟨nx - 1, List.mem_range.mpr (by omega), mk1 (x nx), ?_, rfl⟩
      rw [hcoords _ (by omega), Nat.sub_add_cancel hn]; simp
  have hs : search fuel (lineMesh nx x g) (List.range nx) (fun _ => true) = .gives := by
    unfold search
    split
    · rfl
    · rename_i c0 hc0
      have hc : c0 < nx := List.mem_range.mp (List.mem_of_find?_eq_some hc0)
      show walks _ _ _ _ _ [0] = _
      rw [walks, hlim]
      dsimp only
      rw [walk_line h hhi (nx - c0) c0 fuel 1 (by omega) hc (by omega)]
  unfold partition
  rw [hs]
  rfl

/-- four cells of different widths from 1 to 5, in two parts: all cells are lost -/
example : Line 4 (fun i => 1 + (i : ℝ) * i / 4) .CARTESIAN ∧
    partition 4 (lineMesh 4 (fun i => 1 + (i : ℝ) * i / 4) .CARTESIAN) [0, 1, 2, 3] (fun _ => true) 2 = .parts [[], []] := by
  have h : Line 4 (fun i => 1 + (i : ℝ) * i / 4) .CARTESIAN := by
    refine ⟨fun i hi => ?_, .inl rfl⟩
    have : (0 : ℝ) ≤ i := by positivity
    push_cast
    linarith
  exact ⟨h, line_cells_lost h (by decide) (by norm_num) (by norm_num) (by norm_num) 2 4 (by decide)⟩

end line

end Jali.BlockSearch
