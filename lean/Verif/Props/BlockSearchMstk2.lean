import Verif.Proof.BlockSearchMstk2
/-
C159: the BLOCK partitioner on the regular meshes of Mesh_MSTK in the plane.
-/
namespace Jali.MstkGen
open Spec Jali.Mstk Jali.Geom Jali.Geom.Point Jali.Geom.Spec Jali.MeshGeom BlockPartition BlockPartition.Spec
open Jali.BlockSearch (coord scan search limits corner refdir Aligned limits_eq walks walk_chain partition Outcome)

variable {d : Dom2 ℝ} {b : Blk2} {s : Source ℝ} {g : RegMesh2 ℝ} {r : MeshCache.Request}

/-- The coordinates of the block are not larger than the initial values of the limits. -/
structure Bounded2 (d : Dom2 ℝ) (b : Blk2) : Prop where
  lo : gridPt d.X0 d.X1 d.NX b.i0 ≤ 1e20 ∧ gridPt d.Y0 d.Y1 d.NY b.j0 ≤ 1e20
  hi : -1e20 ≤ gridPt d.X0 d.X1 d.NX (b.i0 + b.nx) ∧ -1e20 ≤ gridPt d.Y0 d.Y1 d.NY (b.j0 + b.ny)

theorem coords_at2 (hd : GoodDom2 d) (hb : GoodBlk2 d b) (h : RegularMesh2 s d b g r) {i j : Nat} (hi : i < b.nx) (hj : j < b.ny) :
    s.gmesh.cellCoords (i * b.ny + j) = rect (gridPt d.X0 d.X1 d.NX (b.i0 + i)) (gridPt d.X0 d.X1 d.NX (b.i0 + i + 1))
      (gridPt d.Y0 d.Y1 d.NY (b.j0 + j)) (gridPt d.Y0 d.Y1 d.NY (b.j0 + j + 1)) := by
  obtain ⟨hg, ⟨G⟩⟩ := grid_of_build2 hb h.generated h.held
  obtain ⟨hlt, hfo⟩ := cell_number2 G hi hj
  have hat : (s.j.m.cmap s.j.bg).at (i * b.ny + j) = some ⟨i * b.ny + j, hlt⟩ := by
    rw [h.plain]; exact cmap_plain s.j.m (fun i => (G.fgid i).2) ⟨_, hlt⟩
  rw [gmesh_cellCoords2 (h.flat hb) hat]
  exact corners_rect hd G (hg ▸ h.placed) h.space hfo

/-- every number of a cell is the number of a position -/
theorem position2 (hb : GoodBlk2 d b) (h : RegularMesh2 s d b g r) {c : Nat} (hc : c < s.j.m.nf) :
    c / b.ny < b.nx ∧ c % b.ny < b.ny ∧ c / b.ny * b.ny + c % b.ny = c := by
  obtain ⟨_, ⟨G⟩⟩ := grid_of_build2 hb h.generated h.held
  rw [cells_count2 G] at hc
  exact ⟨Nat.div_lt_of_lt_mul (by rwa [Nat.mul_comm]), Nat.mod_lt _ hb.ny, Nat.div_add_mod' c b.ny⟩

theorem number_lt2 (hb : GoodBlk2 d b) (h : RegularMesh2 s d b g r) {i j : Nat} (hi : i < b.nx) (hj : j < b.ny) :
    i * b.ny + j < s.j.m.nf := by
  obtain ⟨_, ⟨G⟩⟩ := grid_of_build2 hb h.generated h.held
  exact (cell_number2 G hi hj).1

theorem gridPt_le {a e : ℝ} (hae : a < e) {n : Nat} (hn : 0 < n) {i j : Nat} (hij : i ≤ j) : gridPt a e n i ≤ gridPt a e n j := by
  rcases Nat.lt_or_ge i j with h | h
  · exact (gridPt_lt hae hn h).le
  · rw [show i = j by omega]

/-- the limits found are those of the block -/
theorem limits2 (hd : GoodDom2 d) (hb : GoodBlk2 d b) (h : RegularMesh2 s d b g r) (hB : Bounded2 d b) {dir : Nat} (hdir : dir < 2) :
    limits s.gmesh (List.range s.j.m.nf) dir = (lo2 d b dir, hi2 d b dir) := by
  have hx := hb.nx
  have hy := hb.ny
  have hD : dir = 0 ∨ dir = 1 := by omega
  refine limits_eq ?_ ?_ ?_ ?_ ?_
  · rcases hD with rfl | rfl
    · exact hB.lo.1
    · exact hB.lo.2
  · rcases hD with rfl | rfl
    · exact hB.hi.1
    · exact hB.hi.2
  · intro c hc q hq
    obtain ⟨h1, h2, h3⟩ := position2 hb h (List.mem_range.1 hc)
    rw [← h3, coords_at2 hd hb h h1 h2] at hq
    generalize c / b.ny = i at *
    generalize c % b.ny = j at *
    have x1 : gridPt d.X0 d.X1 d.NX b.i0 ≤ gridPt d.X0 d.X1 d.NX (b.i0 + i) := gridPt_le hd.x hd.nx (by omega)
    have x2 : gridPt d.X0 d.X1 d.NX (b.i0 + i) ≤ gridPt d.X0 d.X1 d.NX (b.i0 + i + 1) := gridPt_le hd.x hd.nx (by omega)
    have x3 : gridPt d.X0 d.X1 d.NX (b.i0 + i + 1) ≤ gridPt d.X0 d.X1 d.NX (b.i0 + b.nx) := gridPt_le hd.x hd.nx (by omega)
    have y1 : gridPt d.Y0 d.Y1 d.NY b.j0 ≤ gridPt d.Y0 d.Y1 d.NY (b.j0 + j) := gridPt_le hd.y hd.ny (by omega)
    have y2 : gridPt d.Y0 d.Y1 d.NY (b.j0 + j) ≤ gridPt d.Y0 d.Y1 d.NY (b.j0 + j + 1) := gridPt_le hd.y hd.ny (by omega)
    have y3 : gridPt d.Y0 d.Y1 d.NY (b.j0 + j + 1) ≤ gridPt d.Y0 d.Y1 d.NY (b.j0 + b.ny) := gridPt_le hd.y hd.ny (by omega)
    simp only [rect, List.mem_cons, List.not_mem_nil, or_false] at hq
    rcases hD with rfl | rfl <;> rcases hq with rfl | rfl | rfl | rfl <;> simp only [coord, mk2, lo2, hi2] <;> simp <;>
      constructor <;> linarith
  · refine ⟨0 * b.ny + 0, List.mem_range.2 (number_lt2 hb h hx hy), mk2 _ _, by rw [coords_at2 hd hb h hx hy]; exact List.mem_cons_self, ?_⟩
    rcases hD with rfl | rfl <;> simp [coord, mk2, lo2]
  · have hx' : b.nx - 1 < b.nx := by omega
    have hy' : b.ny - 1 < b.ny := by omega
    refine ⟨(b.nx - 1) * b.ny + (b.ny - 1), List.mem_range.2 (number_lt2 hb h hx' hy'),
      mk2 (gridPt d.X0 d.X1 d.NX (b.i0 + (b.nx - 1) + 1)) (gridPt d.Y0 d.Y1 d.NY (b.j0 + (b.ny - 1) + 1)),
      by rw [coords_at2 hd hb h hx' hy']; simp [rect], ?_⟩
    rcases hD with rfl | rfl
    · simp only [coord, mk2, hi2, if_true]
      congr 1; omega
    · simp only [coord, mk2, hi2, show ¬ (1 : Nat) = 0 by decide, if_false, if_true]
      congr 1; omega

theorem corner2 (hd : GoodDom2 d) (hb : GoodBlk2 d b) (h : RegularMesh2 s d b g r) (hB : Bounded2 d b) :
    corner s.gmesh (List.range s.j.m.nf) (fun k => (limits s.gmesh (List.range s.j.m.nf) k).1) = some 0 := by
  have hpos := number_lt2 hb h hb.nx hb.ny
  obtain ⟨n, hn⟩ : ∃ n, s.j.m.nf = n + 1 := ⟨s.j.m.nf - 1, by omega⟩
  have hr : List.range s.j.m.nf = 0 :: (List.range n).map Nat.succ := by rw [hn, List.range_succ_eq_map]
  have l0 := limits2 hd hb h hB (dir := 0) (by decide)
  have l1 := limits2 hd hb h hB (dir := 1) (by decide)
  have hc := coords_at2 hd hb h hb.nx hb.ny
  rw [Nat.zero_mul, Nat.zero_add] at hc
  unfold corner
  conv_lhs => arg 2; rw [hr]
  rw [List.find?_cons_of_pos]
  rw [List.any_eq_true]
  refine ⟨mk2 _ _, by rw [hc]; exact List.mem_cons_self, ?_⟩
  rw [decide_eq_true_eq, show s.gmesh.spaceDim = 2 from h.space]
  simp only [Jali.BlockSearch.dist2, List.range_succ (n := 1), List.range_succ (n := 0), List.range_zero, List.nil_append, List.cons_append, List.map_cons, List.map_nil,
    List.sum_cons, List.sum_nil, l0, l1]
  simp [coord, mk2, lo2]
  norm_num

/-- number of cells of the block in a direction -/
def cellsIn2 (b : Blk2) (dir : Nat) : Nat := if dir = 0 then b.nx else b.ny

theorem walk2 (hd : GoodDom2 d) (hb : GoodBlk2 d b) (h : RegularMesh2 s d b g r) {dir : Nat} (hdir : dir < 2) {fuel : Nat}
    (hf : cellsIn2 b dir ≤ fuel) : BlockSearch.walk s.gmesh (fun _ => true) (hi2 d b dir) dir fuel 0 1 = .count (cellsIn2 b dir) := by
  have hx := hb.nx
  have hy := hb.ny
  have hD : dir = 0 ∨ dir = 1 := by omega
  rcases hD with rfl | rfl
  · have := walk_chain (m := s.gmesh) (owned := fun _ => true) (hi := hi2 d b 0) (d := 0) (fun i => i * b.ny + 0) b.nx
      (fun i hi => by rw [scan_x2 hd hb h (by omega) hy, if_pos hi])
      (by rw [scan_x2 hd hb h (by omega) hy, if_neg (by omega)])
      (b.nx - 1) 0 fuel 1 (by omega) (by simp [cellsIn2] at hf; omega) hx
    rw [Nat.zero_mul] at this
    rw [this]
    simp only [cellsIn2, if_true]
    congr 1; omega
  · have := walk_chain (m := s.gmesh) (owned := fun _ => true) (hi := hi2 d b 1) (d := 1) (fun j => 0 * b.ny + j) b.ny
      (fun j hj => by rw [scan_y2 hd hb h hx (by omega), if_pos hj])
      (by rw [scan_y2 hd hb h hx (by omega), if_neg (by omega)])
      (b.ny - 1) 0 fuel 1 (by omega) (by simp [cellsIn2] at hf; omega) hy
    rw [Nat.zero_mul] at this
    rw [this]
    simp only [cellsIn2, show ¬ (1 : Nat) = 0 by decide, if_false]
    congr 1; omega

/-- **C159, the search.** The search finds the number of cells in each direction. -/
theorem search2 (hd : GoodDom2 d) (hb : GoodBlk2 d b) (h : RegularMesh2 s d b g r) (hB : Bounded2 d b) {fuel : Nat}
    (hx : b.nx ≤ fuel) (hy : b.ny ≤ fuel) : search fuel s.gmesh (List.range s.j.m.nf) (fun _ => true) = .regular [b.nx, b.ny] := by
  unfold search
  rw [corner2 hd hb h hB]
  dsimp only
  rw [show s.gmesh.spaceDim = 2 from h.space]
  have w : ∀ dir < 2, cellsIn2 b dir ≤ fuel →
      BlockSearch.walk s.gmesh (fun _ => true) (limits s.gmesh (List.range s.j.m.nf) dir).2 dir fuel 0 1 = .count (cellsIn2 b dir) := by
    intro dir hdir hf
    rw [limits2 hd hb h hB hdir]
    exact walk2 hd hb h hdir hf
  rw [show List.range 2 = [0, 1] from rfl]
  simp only [walks, w 0 (by decide) hx, w 1 (by decide) hy]
  rfl

/-- **C159.** On every block of every regular mesh that Mesh_MSTK generates in the plane and for every number of parts from one to the
number of cells, the BLOCK partitioner recognises the mesh and divides its cells into rectangles of lattice cells: there are blocks
tiling the lattice such that part `n` contains exactly the cells in block `n`; the parts together contain each cell exactly once. -/
theorem blocks_of_mstk_mesh2 (hd : GoodDom2 d) (hb : GoodBlk2 d b) (h : RegularMesh2 s d b g r) (hB : Bounded2 d b) (numParts : Nat)
    (h1 : 1 ≤ numParts) (hn : numParts ≤ b.nx * b.ny) (fuel : Nat) (hf : numParts ≤ fuel) (hx : b.nx ≤ fuel) (hy : b.ny ≤ fuel) :
    ∃ (blocks : List Block) (parts : List (List Nat)), Tiles 2 ![b.nx, b.ny, 0] blocks ∧
      partition fuel s.gmesh (List.range s.j.m.nf) (fun _ => true) numParts = .parts parts ∧
      parts.length = numParts ∧ parts.flatten.Perm (List.range s.j.m.nf) ∧
      ∀ n, (hn : n < parts.length) → ∃ hb : n < blocks.length, ∀ i j, i < b.nx → j < b.ny →
        (i * b.ny + j ∈ parts[n] ↔ InBlock 2 blocks[n] ![i, j, 0]) := by
  let r' : Partition.Regular ℝ := ⟨fun k => (limits s.gmesh (List.range s.j.m.nf) k).1, fun k => (limits s.gmesh (List.range s.j.m.nf) k).2,
    fun k => [b.nx, b.ny].getD k 0⟩
  have hrn : r'.n = ![b.nx, b.ny, 0] := by
    funext k
    match k with
    | 0 => rfl
    | 1 => rfl
    | 2 => rfl
  have lim : ∀ k < 2, r'.lo k = lo2 d b k ∧ r'.hi k = hi2 d b k := by
    intro k hk
    have := limits2 hd hb h hB hk
    exact ⟨congrArg Prod.fst this, congrArg Prod.snd this⟩
  let ccen : Nat → Nat → ℝ := fun c k => match computeCellGeometry s.gmesh c with
    | some g => coord g.2 k
    | none => 0
  have hnpos : ∀ k : Fin 3, k.val < 2 → 0 < r'.n k := by
    intro k hk
    match k with
    | 0 => exact hb.nx
    | 1 => exact hb.ny
    | 2 => exact absurd hk (by decide)
  have hsize : numParts ≤ gridSize 2 r'.n := by
    refine le_trans hn (le_of_eq ?_)
    rw [hrn]
    simp [gridSize]
  obtain ⟨blocks, parts, hok, hT, hby, hlen, hperm, hmem⟩ := Partition.byBlocks_partition (K := ℝ) 2 numParts r' (List.range s.j.m.nf)
    (fun c => ![c / b.ny, c % b.ny, 0]) ccen (by decide) (by decide) hnpos h1 hsize
    (by
      intro k hk
      rw [(lim k hk).1, (lim k hk).2]
      have := hb.nx; have := hb.ny
      have hD : k = 0 ∨ k = 1 := by omega
      rcases hD with rfl | rfl
      · exact gridPt_lt hd.x hd.nx (by omega)
      · exact gridPt_lt hd.y hd.ny (by omega))
    (by
      intro c hc k hk
      obtain ⟨a1, a2, _⟩ := position2 hb h (List.mem_range.1 hc)
      match k with
      | 0 => exact a1
      | 1 => exact a2
      | 2 => exact absurd hk (by decide))
    (by
      intro c hc k hk
      obtain ⟨a1, a2, a3⟩ := position2 hb h (List.mem_range.1 hc)
      have hgen := (grid_of_build2 hb h.generated h.held).1
      have hcell : g.faces[c]? = some (mkFace d b (c / b.ny, c % b.ny)) := by
        rw [hgen]
        show ((loopIdx2 b.nx b.ny).map (mkFace d b))[c]? = _
        rw [List.getElem?_map]
        have := loopIdx2_get a1 a2
        rw [a3] at this
        rw [this]; rfl
      obtain ⟨lo, hi, area, cen, q1, q2, q3, _, _, q4, q5⟩ := generated_cell_area hd hb h hcell
      have hst : (mkFace d b (c / b.ny, c % b.ny)).es.map start = [mkVert2 d b (c / b.ny) (c % b.ny), mkVert2 d b (c / b.ny + 1) (c % b.ny),
          mkVert2 d b (c / b.ny + 1) (c % b.ny + 1), mkVert2 d b (c / b.ny) (c % b.ny + 1)] := by
        generalize c / b.ny = i
        generalize c % b.ny = j
        rcases i with _ | i <;> rcases j with _ | j <;> simp [mkFace, start, hE, vE, MstkGen.bot, rgt, MstkGen.top, lft]
      rw [hst] at q1 q2
      simp only [List.getElem?_cons_zero, List.getElem?_cons_succ, Option.some.injEq] at q1 q2
      subst q1 q2
      rw [(vx d hd b _ _).1, (vx d hd b _ _).1] at q4
      rw [(vx d hd b _ _).2, (vx d hd b _ _).2] at q5
      simp only [ccen, q3]
      have nx0 : (d.NX : ℝ) ≠ 0 := by have := hd.nx; positivity
      have ny0 : (d.NY : ℝ) ≠ 0 := by have := hd.ny; positivity
      have bx0 : (b.nx : ℝ) ≠ 0 := by have := hb.nx; positivity
      have by0 : (b.ny : ℝ) ≠ 0 := by have := hb.ny; positivity
      match k with
      | 0 =>
        rw [(lim (0 : Fin 3) (by decide)).1, (lim (0 : Fin 3) (by decide)).2]
        show cen.x = lo2 d b 0 + ((((c / b.ny : ℕ) : ℝ)) + 1 / 2) * ((hi2 d b 0 - lo2 d b 0) / (b.nx : ℝ))
        rw [q4]
        simp only [lo2, hi2, if_true, gridPt]
        push_cast
        field_simp
        ring
      | 1 =>
        rw [(lim (1 : Fin 3) (by decide)).1, (lim (1 : Fin 3) (by decide)).2]
        show cen.y = lo2 d b 1 + ((((c % b.ny : ℕ) : ℝ)) + 1 / 2) * ((hi2 d b 1 - lo2 d b 1) / (b.ny : ℝ))
        rw [q5]
        simp only [lo2, hi2, show ¬ (1 : Nat) = 0 by decide, if_false, gridPt]
        push_cast
        field_simp
        ring
      | 2 => exact absurd hk (by decide))
    fuel hf
  refine ⟨blocks, parts, by rw [← hrn]; exact hT, ?_, hlen, hperm, ?_⟩
  · unfold partition
    rw [search2 hd hb h hB hx hy, show s.gmesh.spaceDim = 2 from h.space]
    dsimp only
    show (match Partition.byBlocks fuel 2 numParts (some r') (List.range s.j.m.nf) ccen with
      | .error _ => Outcome.asserts
      | .ok none => .outOfRange
      | .ok (some l) => .parts l) = _
    rw [hby]
  · intro n hn'
    have hbl : n < blocks.length := by
      obtain ⟨bl, hl, hok'⟩ := blockPartition_returns_request 2 r'.n numParts (by decide) (by decide) hnpos h1 hsize
      have e := hok' fuel hf
      rw [hok] at e
      injection e with e
      subst e
      omega
    refine ⟨hbl, fun i j hi hj => ?_⟩
    have hc : i * b.ny + j ∈ List.range s.j.m.nf := List.mem_range.2 (number_lt2 hb h hi hj)
    have e1 : (i * b.ny + j) / b.ny = i := by
      rw [Nat.add_comm, Nat.add_mul_div_right _ _ hb.ny, Nat.div_eq_of_lt hj, Nat.zero_add]
    have e2 : (i * b.ny + j) % b.ny = j := by
      rw [Nat.add_comm, Nat.add_mul_mod_self_right, Nat.mod_eq_of_lt hj]
    rw [hmem n hn' hbl, e1, e2]
    exact ⟨fun h => h.2, fun h => ⟨hc, h⟩⟩

/-- a block of 2 × 2 cells of a 3 × 2 mesh, in three parts -/
example : ∃ (s : Source ℝ) (blocks : List Block) (parts : List (List Nat)), Tiles 2 ![2, 2, 0] blocks ∧
    partition 5 s.gmesh (List.range s.j.m.nf) (fun _ => true) 3 = .parts parts ∧ parts.length = 3 := by
  have hd : GoodDom2 (⟨0, 0, 1, 2, 3, 2⟩ : Dom2 ℝ) := by constructor <;> norm_num
  have hb : GoodBlk2 (⟨0, 0, 1, 2, 3, 2⟩ : Dom2 ℝ) ⟨1, 0, 2, 2⟩ := ⟨by norm_num, by norm_num, by norm_num, by norm_num⟩
  have hB : Bounded2 (⟨0, 0, 1, 2, 3, 2⟩ : Dom2 ℝ) ⟨1, 0, 2, 2⟩ := by
    refine ⟨⟨?_, ?_⟩, ⟨?_, ?_⟩⟩ <;> simp only [gridPt] <;> norm_num
  obtain ⟨s, g, r, h, _⟩ := regular2_exists hb
  obtain ⟨blocks, parts, T, e, hl, _⟩ := blocks_of_mstk_mesh2 hd hb h hB 3 (by decide) (by decide) 5 (by decide) (by decide) (by decide)
  exact ⟨s, blocks, parts, T, e, hl⟩

end Jali.MstkGen
