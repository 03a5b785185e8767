import Verif.Model.ToyNumerics
import Verif.Props.Partitioners
import Verif.Props.RegularRegionSets
/-! Property theorems C170: computations in loops over the tiles of a mesh (examples/ToyNumerics). -/
namespace Jali.Toy
open Jali.Geom

/-- the sum of a density over a list of cells -/
noncomputable def total (rho : Nat → ℝ) (l : List Nat) : ℝ := (l.map rho).sum

theorem fold_plus (rho : Nat → ℝ) : ∀ (l : List Nat) (v : ℝ), l.foldl (fun s n => plus s (rho n)) (some v) = some (v + total rho l)
  | [], v => by simp [total]
  | n :: l, v => by
    rw [List.foldl_cons, show plus (some v) (rho n) = some (v + rho n) from rfl, fold_plus rho l]
    simp [total, add_assoc]

theorem body_some {nbrs : List Nat} (rho : Nat → ℝ) (h : nbrs ≠ []) (v : ℝ) :
    cellBody nbrs rho (some v) = some ((v + total rho nbrs) / nbrs.length) := by
  unfold cellBody
  rw [fold_plus]
  simp [h]

theorem body_nil (rho : Nat → ℝ) (v : Option ℝ) : cellBody [] rho v = none := by simp [cellBody]

theorem fold_visit (a : Asked) (rho : Nat → ℝ) (c : Nat) : ∀ (l : List Nat) (ave : Nat → Option ℝ),
    (l.foldl (visitCell a rho) ave) c = (cellBody (a.nbrs c) rho)^[l.count c] (ave c)
  | [], _ => rfl
  | x :: l, ave => by
    rw [List.foldl_cons, fold_visit a rho c l, List.count_cons]
    by_cases h : c = x
    · subst h
      simp only [beq_self_eq_true, if_true, Function.iterate_succ, Function.comp]
      simp [visitCell]
    · have h' : ¬ x = c := fun e => h e.symm
      simp [visitCell, h, h']

theorem fold_tiles {α β : Type} (f : α → Nat → α) (g : β → List Nat) : ∀ (ts : List β) (a : α),
    ts.foldl (fun a t => (g t).foldl f a) a = (ts.flatMap g).foldl f a
  | [], _ => rfl
  | t :: ts, a => by rw [List.foldl_cons, fold_tiles f g ts, List.flatMap_cons, List.foldl_append]

theorem iterate_body {nbrs : List Nat} (rho : Nat → ℝ) (h : nbrs ≠ []) : ∀ k, (cellBody nbrs rho)^[k] (some 0) =
    some (((List.range k).map fun i => total rho nbrs / (nbrs.length : ℝ) ^ (i + 1)).sum)
  | 0 => by simp
  | k + 1 => by
    rw [Function.iterate_succ_apply', iterate_body rho h k, body_some rho h]
    congr 1
    have hn : (nbrs.length : ℝ) ≠ 0 := by simpa using h
    rw [List.range_succ_eq_map, List.map_cons, List.sum_cons, List.map_map, zero_add, pow_one, add_div, add_comm]
    congr 1
    generalize List.range k = r
    induction r with
    | nil => simp
    | cons x r ih =>
      rw [List.map_cons, List.sum_cons, List.map_cons, List.sum_cons, add_div, ih]
      congr 1
      simp only [Function.comp]
      rw [pow_succ _ (x + 1)]
      field_simp

/-- what the loop leaves in `ave_density[c]`, when it comes across cell `c` in `k` places -/
theorem averages_eq (a : Asked) (tiles : List Tile.Tile) (rho : Nat → ℝ) (c k : Nat) (hk : (tiles.flatMap (·.cells.all)).count c = k) :
    (a.nbrs c ≠ [] → averages a tiles rho c =
      some (((List.range k).map fun i => total rho (a.nbrs c) / ((a.nbrs c).length : ℝ) ^ (i + 1)).sum)) ∧
    (a.nbrs c = [] → 0 < k → averages a tiles rho c = none) := by
  subst hk
  unfold averages
  rw [fold_tiles (visitCell a rho) fun t : Tile.Tile => t.cells.all, fold_visit]
  constructor
  · intro h; exact iterate_body rho h _
  · intro h hk
    obtain ⟨k, e⟩ : ∃ k, (tiles.flatMap (·.cells.all)).count c = k + 1 := ⟨_, (Nat.sub_add_cancel hk).symm⟩
    rw [e, Function.iterate_succ_apply', h, body_nil]

theorem fold_nodes (a : Asked) (rhobar : Nat → Option ℝ) (n : Nat) : ∀ (l : List Nat) (v : Nat → Nat → Option ℝ),
    (l.foldl (visitNode a rhobar) v) n = if n ∈ l then nodeBody a rhobar (a.nodeCells n) else v n
  | [], _ => by simp
  | x :: l, v => by
    rw [List.foldl_cons, fold_nodes a rhobar n l]
    by_cases h : n ∈ l
    · simp [h]
    · by_cases h' : n = x <;> simp [h, h', visitNode]

/-- the sum over a list of cells of average density times a coordinate of the centroid -/
noncomputable def momentum (a : Asked) (rhobar : Nat → ℝ) (l : List Nat) (i : Nat) : ℝ := (l.map fun c => rhobar c * (a.centroid c).coord i).sum

theorem nodeBody_eq (a : Asked) (rhobar : Nat → Option ℝ) (r : Nat → ℝ) (i : Nat) : ∀ (l : List Nat) (v : ℝ),
    (∀ c ∈ l, rhobar c = some (r c)) →
    l.foldl (fun s c => s.bind fun s => (rhobar c).map fun r => s + r * (a.centroid c).coord i) (some v) = some (v + momentum a r l i)
  | [], v, _ => by simp [momentum]
  | c :: l, v, h => by
    rw [List.foldl_cons, h c (by simp)]
    show l.foldl _ (some (v + r c * (a.centroid c).coord i)) = _
    rw [nodeBody_eq a rhobar r i l _ fun c hc => h c (by simp [hc])]
    simp [momentum, add_assoc]

theorem density_eq (a : Asked) (c : Nat) : ∀ (owned : List Nat), density a owned c =
    if c ∈ owned then (a.centroid c).coord 0 + (a.centroid c).coord 1 + (a.centroid c).coord 2 else 0 := by
  intro owned
  unfold density
  have key : ∀ (l : List Nat) (rho : Nat → ℝ), l.foldl (fun (rho : Nat → ℝ) c x =>
      if x = c then (a.centroid c).coord 0 + (a.centroid c).coord 1 + (a.centroid c).coord 2 else rho x) rho c =
      if c ∈ l then (a.centroid c).coord 0 + (a.centroid c).coord 1 + (a.centroid c).coord 2 else rho c := by
    intro l
    induction l with
    | nil => intro rho; simp
    | cons x l ih =>
      intro rho
      rw [List.foldl_cons, ih]
      by_cases h : c ∈ l
      · simp [h]
      · by_cases h' : c = x
        · subst h'; simp
        · simp [h, h']
  exact key owned _

end Jali.Toy

namespace Jali.Mstk
open Jali.Geom Jali.Toy

/-- the loops ask a 3D mesh made by MSTK -/
def JMesh.asked3 (j : JMesh) (centroid : Nat → Point) : Asked :=
  ⟨fun c => (j.nodeAdj3 c .ALL).getD [], fun n => (j.nodeCells3 n .ALL).getD [], centroid⟩

theorem count_tiles (c : Nat) : ∀ (ts : List Tile.Tile), (∀ t ∈ ts, t.cells.all = t.cells.owned ++ t.cells.ghost ∧ t.cells.all.Nodup) →
    (ts.flatMap (·.cells.all)).count c = (ts.flatMap (·.cells.owned)).count c + (ts.filter fun t => c ∈ t.cells.ghost).length
  | [], _ => rfl
  | t :: ts, h => by
    obtain ⟨h1, h2⟩ := h t (by simp)
    rw [List.flatMap_cons, List.flatMap_cons, List.count_append, List.count_append, count_tiles c ts fun t ht => h t (by simp [ht]), h1,
      List.count_append]
    rw [h1] at h2
    have hg := (List.nodup_append.mp h2).2.1
    rw [List.filter_cons]
    by_cases hm : c ∈ t.cells.ghost
    · rw [List.count_eq_one_of_mem hg hm]
      simp only [hm, decide_true, if_true, List.length_cons]
      omega
    · rw [List.count_eq_zero_of_not_mem hm]
      simp only [hm, decide_false, Bool.false_eq_true, if_false]
      omega

/-- **C170, the owned cells of the tiles.** Looping over the cells owned by each tile in turn is looping over the cells owned by the rank, in their
order; a loop over all cells of each tile comes across a cell once more for every tile in whose halo it is. -/
theorem tile_loops (j : JMesh) (r : MeshCache.Request) (h : j.Made3 r) (hp : j.m.Polygons) (hr : j.m.Regions)
    (layers numTiles : Nat) (hnt : 1 ≤ numTiles) :
    ∃ k M, j.buildTiles3 r layers numTiles = some (k, M) ∧
      M.tiles.flatMap (·.cells.owned) = (j.m.cellIds3 j.bg).owned ∧
      ∀ c, (M.tiles.flatMap (·.cells.all)).count c =
        (if c ∈ (j.m.cellIds3 j.bg).owned then 1 else 0) + (M.tiles.filter fun t => c ∈ t.cells.ghost).length := by
  obtain ⟨hl, hf, -⟩ := Partition.byIndexSpace_partition (j.m.cellIds3 j.bg).owned.length numTiles hnt
  obtain ⟨k, M, e, ho, hk, ok⟩ := tiles_of_parts3 j r h hp hr layers numTiles hnt _ hl (by rw [hf])
  have hL : Consecutive (j.m.cellIds3 j.bg) j.m.nr := (ids_consecutive j.m j.bg).2.2.2.1
  have own : M.tiles.flatMap (·.cells.owned) = (j.m.cellIds3 j.bg).owned := by
    rw [List.flatMap_def, ho, hf, ← (owned_range hL).1]
  refine ⟨k, M, e, own, fun c => ?_⟩
  rw [count_tiles c M.tiles fun t ht => ⟨(ok.halo t ht).1, (ok.halo t ht).2.1⟩, own]
  congr 1
  split
  · rename_i hc
    refine List.count_eq_one_of_mem ?_ hc
    rw [(owned_range hL).1]; exact List.nodup_range
  · rename_i hc
    exact List.count_eq_zero_of_not_mem hc

/-- `l` lists the cells that share a node with cell `c` -/
def Neighbours (j : JMesh) (c : Nat) (l : List Nat) : Prop :=
  l.Nodup ∧ ∀ x, x ∈ l ↔ x ≠ c ∧ ∃ n, Has (j.cellNodes3 c) n ∧ Has (j.cellNodes3 x) n

theorem neighbours (j : JMesh) (c : Nat) : Neighbours j c ((j.nodeAdj3 c .ALL).getD []) := by
  refine ⟨?_, fun x => mem_getD.trans (node_adj_iff3 j c x)⟩
  cases h : j.nodeAdj3 c .ALL with
  | none => simp
  | some l => exact (node_adj_listed_once j c .ALL).1 l h

/-- **C170, averages, partial.** If no other tile has cell `c` in its halo, as when there is only one tile or no halo, the loop over the tiles leaves
in `ave_density[c]` the mean of the densities of the cells sharing a node with `c`. Missing: cells in the halo of another tile, and cells with no
neighbour, see `toy_averages_false`. -/
theorem toy_averages_partial (j : JMesh) (r : MeshCache.Request) (h : j.Made3 r) (hp : j.m.Polygons) (hr : j.m.Regions)
    (layers numTiles : Nat) (hnt : 1 ≤ numTiles) (centroid : Nat → Point) (rho : Nat → ℝ) :
    ∃ k M, j.buildTiles3 r layers numTiles = some (k, M) ∧ ∀ c ∈ (j.m.cellIds3 j.bg).owned,
      ((∀ t ∈ M.tiles, c ∉ t.cells.ghost) ∨ layers = 0 ∨ numTiles = 1) →
      ∃ l, Neighbours j c l ∧ (l ≠ [] → averages (j.asked3 centroid) M.tiles rho c = some (total rho l / l.length)) := by
  obtain ⟨k, M, e, _, cnt⟩ := tile_loops j r h hp hr layers numTiles hnt
  obtain ⟨k', M', e', _, ok⟩ := tiles_of_mesh3 j r h hp hr layers numTiles hnt
  rw [e] at e'; cases e'
  refine ⟨k, M, e, fun c hc hno => ⟨_, neighbours j c, fun hl => ?_⟩⟩
  have no : ∀ t ∈ M.tiles, c ∉ t.cells.ghost := by
    rcases hno with hno | rfl | rfl
    · exact hno
    · intro t ht hx
      obtain ⟨a, b⟩ := ((ok.halo t ht).2.2 c).mp hx
      exact b a
    · intro t ht hx
      obtain ⟨a, b⟩ := ((ok.halo t ht).2.2 c).mp hx
      obtain ⟨i, ⟨t', ht', hct⟩, _⟩ := ok.cells c hc
      have l1 := ok.count
      obtain ⟨i', hi', rfl⟩ := List.getElem_of_mem ht
      obtain ⟨hi, rfl⟩ := List.getElem?_eq_some_iff.mp ht'
      have : i = i' := by omega
      subst this
      exact b hct
  have hk := cnt c
  rw [if_pos hc, List.filter_eq_nil_iff.mpr (by simpa using no)] at hk
  rw [(averages_eq (j.asked3 centroid) M.tiles rho c _ hk).1 hl]
  simp [JMesh.asked3]

/-- **C170 is false of cells in the halo of another tile**: with at least one layer of ghost cells, if a neighbour of `c` belongs to another tile and
the densities around `c` add up to something positive, `ave_density[c]` is too big. The loop divides the running sum once per visit. And for a cell
without neighbours it is not a number. -/
theorem toy_averages_false (j : JMesh) (r : MeshCache.Request) (h : j.Made3 r) (hp : j.m.Polygons) (hr : j.m.Regions)
    (layers numTiles : Nat) (hnt : 1 ≤ numTiles) (centroid : Nat → Point) (rho : Nat → ℝ) :
    ∃ k M, j.buildTiles3 r layers numTiles = some (k, M) ∧ ∀ c ∈ (j.m.cellIds3 j.bg).owned, ∃ l, Neighbours j c l ∧
      (∀ x ∈ l, 1 ≤ layers → (∃ t ∈ M.tiles, x ∈ t.cells.owned ∧ c ∉ t.cells.owned) → 0 < total rho l →
        ∃ v, averages (j.asked3 centroid) M.tiles rho c = some v ∧ total rho l / l.length < v) ∧
      (l = [] → averages (j.asked3 centroid) M.tiles rho c = none) := by
  obtain ⟨k, M, e, _, cnt⟩ := tile_loops j r h hp hr layers numTiles hnt
  obtain ⟨k', M', e', _, ok⟩ := tiles_of_mesh3 j r h hp hr layers numTiles hnt
  rw [e] at e'; cases e'
  refine ⟨k, M, e, fun c hc => ⟨_, neighbours j c, ?_, ?_⟩⟩
  · rintro x hx hlay ⟨t, ht, hxt, hct⟩ hpos
    have hl : (j.nodeAdj3 c .ALL).getD [] ≠ [] := List.ne_nil_of_mem hx
    have hghost : c ∈ t.cells.ghost := by
      refine ((ok.halo t ht).2.2 c).mpr ⟨?_, hct⟩
      obtain ⟨_, n, h1, h2⟩ := ((neighbours j c).2 x).mp hx
      have base : Within (fun c n => Has (j.cellNodes3 c) n) t.cells.owned 1 c := Or.inr ⟨x, hxt, n, h2, h1⟩
      clear cnt ok e
      induction hlay with
      | refl => exact base
      | step _ ih => exact Or.inl ih
    have hk := cnt c
    rw [if_pos hc] at hk
    have hm : 0 < (M.tiles.filter fun t => c ∈ t.cells.ghost).length :=
      List.length_pos_of_mem (List.mem_filter.mpr ⟨ht, by simpa using hghost⟩)
    obtain ⟨q, hq⟩ : ∃ q, (M.tiles.filter fun t => c ∈ t.cells.ghost).length = q + 1 := ⟨_, (Nat.sub_add_cancel hm).symm⟩
    rw [hq] at hk
    refine ⟨_, (averages_eq (j.asked3 centroid) M.tiles rho c _ hk).1 hl, ?_⟩
    show total rho ((j.nodeAdj3 c .ALL).getD []) / _ < ((List.range (1 + (q + 1))).map fun i =>
      total rho ((j.nodeAdj3 c .ALL).getD []) / (((j.nodeAdj3 c .ALL).getD []).length : ℝ) ^ (i + 1)).sum
    generalize (j.nodeAdj3 c .ALL).getD [] = l at *
    have hn : (0 : ℝ) < l.length := by exact_mod_cast List.length_pos_iff.mpr hl
    rw [Nat.add_comm, List.range_succ_eq_map, List.map_cons, List.sum_cons, zero_add, pow_one, lt_add_iff_pos_right, List.range_succ_eq_map,
      List.map_cons, List.map_cons, List.sum_cons]
    refine add_pos_of_pos_of_nonneg (by positivity) (List.sum_nonneg ?_)
    intro y hy
    simp only [List.mem_map] at hy
    obtain ⟨i, _, rfl⟩ := hy
    positivity
  · intro hl
    have hk := cnt c
    rw [if_pos hc] at hk
    exact (averages_eq (j.asked3 centroid) M.tiles rho c _ hk).2 hl (by omega)

/-- on rank 1 of the sample, with one tile, the owned cell 0 has the neighbour 1 and is in no halo; a mesh with a cell that has no neighbour -/
example : 0 ∈ (rankMesh.m.cellIds3 rankMesh.bg).owned ∧ rankMesh.nodeAdj3 0 .ALL = some [1] ∧ rankMesh.Made3 reqAll ∧ rankMesh.m.Polygons ∧
    rankMesh.m.Regions ∧ Has (rankMesh.cellNodes3 0) 0 :=
  ⟨by decide +kernel, by decide +kernel, rankMesh_made.1, rank_polygons.2.1, rank_regions.2.1, ⟨_, rfl, by decide +kernel⟩⟩

/-- **C170, velocities.** The loop over the nodes of the tiles, which comes across nodes several times too, gives every node of every owned cell the
sum over the cells at the node of average density times centroid. -/
theorem toy_velocities (j : JMesh) (r : MeshCache.Request) (h : j.Made3 r) (hp : j.m.Polygons) (hr : j.m.Regions)
    (layers numTiles : Nat) (hnt : 1 ≤ numTiles) (centroid : Nat → Point) (rhobar : Nat → ℝ) :
    ∃ k M, j.buildTiles3 r layers numTiles = some (k, M) ∧ ∀ c ∈ (j.m.cellIds3 j.bg).owned, ∀ n, Has (j.cellNodes3 c) n →
      ∃ l : List Nat, l.Nodup ∧ (∀ x, x ∈ l ↔ Has (j.cellNodes3 x) n) ∧
        ∀ i, velocities (j.asked3 centroid) M.tiles (fun c => some (rhobar c)) n i =
          some ((l.map fun x => rhobar x * (centroid x).coord i).sum) := by
  obtain ⟨k, M, e, _, ok⟩ := tiles_of_mesh3 j r h hp hr layers numTiles hnt
  refine ⟨k, M, e, fun c hc n hn => ⟨(j.nodeCells3 n .ALL).getD [], ?_, ?_, ?_⟩⟩
  · cases hl : j.nodeCells3 n .ALL with
    | none => simp
    | some l => exact (cells_listed_once j .ALL).2.2.1 n l hl
  · intro x
    rw [mem_getD, ← nodes_cells_agree3]
  · intro i
    unfold velocities
    rw [fold_tiles (visitNode _ _) fun t : Tile.Tile => t.nodes.all, fold_nodes]
    have : n ∈ M.tiles.flatMap (·.nodes.all) := by
      obtain ⟨i, ⟨t, ht, hm⟩, _⟩ := ok.nodes c n hc hn
      have ht := List.mem_of_getElem? ht
      exact List.mem_flatMap.mpr ⟨t, ht, by rw [(ok.nodesOf t ht).1]; exact List.mem_append_left _ hm⟩
    rw [if_pos this]
    have := nodeBody_eq (j.asked3 centroid) (fun c => some (rhobar c)) rhobar i ((j.nodeCells3 n .ALL).getD []) 0 (fun _ _ => rfl)
    rw [zero_add] at this
    exact this

end Jali.Mstk

namespace Jali.MstkGen
open Spec Jali.Mstk Jali.Geom Jali.Geom.Point Jali.MeshGeom Jali.Toy

variable {dd : Simple.Dims} {bx : Simple.Box} {s : Source ℝ} {g : RegMesh ℝ} {r : MeshCache.Request}

/-- the cells of a regular mesh made on one rank -/
theorem regular_owned (hp : SimpleGeom.Proper dd bx) (h : RegularMesh s (domOf dd bx) (wholeBlk dd) g r) :
    (s.j.m.cellIds3 s.j.bg).owned = List.range (dd.nx * dd.ny * dd.nz) := by
  obtain ⟨rfl, ⟨G⟩⟩ := grid_of_build (goodDomOf hp) (goodWhole hp) h.generated h.held
  have hn : s.j.m.nr = dd.nx * dd.ny * dd.nz := (same_counts G).1.trans (by simp [Simple.numCells])
  have hL : Consecutive (s.j.m.cellIds3 s.j.bg) s.j.m.nr := (ids_consecutive s.j.m s.j.bg).2.2.2.1
  rw [(owned_range hL).1]
  congr 1
  show (List.map _ (ownedCells s.j.bg _ _)).length = _
  rw [h.plain, List.length_map]
  have : ownedCells false (fun i => (s.j.m.region i).ptype) (fun i => (s.j.m.region i).bndryGhost) = List.finRange s.j.m.nr := by
    unfold ownedCells; exact List.filter_eq_self.mpr fun i _ => by simp [(G.rgid i).2]
  rw [this, List.length_finRange, hn]

/-- positions one step apart in every direction at most -/
def Near (p q : Simple.Spec.Pos) : Prop := p.i ≤ q.i + 1 ∧ q.i ≤ p.i + 1 ∧ p.j ≤ q.j + 1 ∧ q.j ≤ p.j + 1 ∧ p.k ≤ q.k + 1 ∧ q.k ≤ p.k + 1

/-- cells one step apart share a node -/
theorem near_share (hp : SimpleGeom.Proper dd bx) (h : RegularMesh s (domOf dd bx) (wholeBlk dd) g r) {p q : Simple.Spec.Pos}
    (hi : Simple.CellIn dd p) (hj : Simple.CellIn dd q) (hn : Near p q) :
    ∃ n, Has (s.j.cellNodes3 (mstkCell dd p)) n ∧ Has (s.j.cellNodes3 (mstkCell dd q)) n := by
  have hd := goodDomOf (bx := bx) hp
  have hb := goodWhole (bx := bx) hp
  obtain ⟨rfl, ⟨G⟩⟩ := grid_of_build hd hb h.generated h.held
  obtain ⟨h1, e1⟩ := cell_number G hi
  obtain ⟨h2, e2⟩ := cell_number G hj
  have at1 := rmap_plain s.j.m (fun i => (G.rgid i).2) ⟨_, h1⟩
  have at2 := rmap_plain s.j.m (fun i => (G.rgid i).2) ⟨_, h2⟩
  have corner : ∀ {p : Simple.Spec.Pos} {rg : Fin s.j.m.nr}, G.ro rg = cellAt (domOf dd bx) p → ∀ I J L, (I = p.i ∨ I = p.i + 1) →
      (J = p.j ∨ J = p.j + 1) → (L = p.k ∨ L = p.k + 1) → V (domOf dd bx) I J L ∈ (s.j.m.mrVertices (s.j.m.region rg)).map G.vo := by
    intro p rg e I J L hI hJ hL
    rw [(verts_perm hd hb G rg).mem_iff, e]
    rcases hI with rfl | rfl <;> rcases hJ with rfl | rfl <;> rcases hL with rfl | rfl <;> simp [cellAt, RG]
  obtain ⟨n1, n2, n3, n4, n5, n6⟩ := hn
  have m1 := corner e1 (max p.i q.i) (max p.j q.j) (max p.k q.k) (by omega) (by omega) (by omega)
  have m2 := corner e2 (max p.i q.i) (max p.j q.j) (max p.k q.k) (by omega) (by omega) (by omega)
  obtain ⟨v1, a1, b1⟩ := List.mem_map.mp m1
  obtain ⟨v2, a2, b2⟩ := List.mem_map.mp m2
  have : v1 = v2 := G.vinj hb (b1.trans b2.symm)
  subst this
  refine ⟨s.j.m.vmap.id v1 - 1, ?_, ?_⟩
  · exact (has_cellNodes3 _ _).mpr ⟨_, v1, by rw [h.plain]; exact at1, s.j.m.vnum.at_id v1, a1⟩
  · exact (has_cellNodes3 _ _).mpr ⟨_, v1, by rw [h.plain]; exact at2, s.j.m.vnum.at_id v1, a2⟩

/-- the centroids of the cells of a mesh -/
noncomputable def centroids (s : Source ℝ) (c : Nat) : Point := ((computeCellGeometry s.gmesh c).map Prod.snd).getD (zero 3)

/-- the mesh of the example: the unit cube, 10 by 5 by 5 cells -/
def toyDims : Simple.Dims := ⟨10, 5, 5⟩
def toyBox : Simple.Box := ⟨0, 0, 0, 1, 1, 1⟩

theorem toy_parts : Partition.byIndexSpace 250 10 = (List.range 10).map fun t => List.range' (26 * t) (min 26 (250 - 26 * t)) := by decide +kernel

/-- every cell of the example has a neighbour in another tile -/
theorem toy_neighbour : ∀ c < 250, ∃ i < 10, ∃ j < 5, ∃ k < 5, ((i * 5 + j) * 5 + k) / 26 ≠ c / 26 ∧
    (c / 25 ≤ i + 1 ∧ i ≤ c / 25 + 1 ∧ c / 5 % 5 ≤ j + 1 ∧ j ≤ c / 5 % 5 + 1 ∧ c % 5 ≤ k + 1 ∧ k ≤ c % 5 + 1) := by
  decide +kernel

theorem toy_proper : SimpleGeom.Proper toyDims toyBox := by constructor <;> norm_num [toyDims, toyBox]

/-- the densities of the example are positive -/
theorem toy_positive (h : RegularMesh s (domOf toyDims toyBox) (wholeBlk toyDims) g r) {c : Nat} (hc : c < 250) :
    0 < density (s.j.asked3 (centroids s)) (s.j.m.cellIds3 s.j.bg).owned c := by
  have hd := goodDomOf toy_proper
  have hb := goodWhole toy_proper
  have ho := regular_owned toy_proper h
  have hm : c ∈ (s.j.m.cellIds3 s.j.bg).owned := by rw [ho]; exact List.mem_range.mpr hc
  rw [density_eq, if_pos hm]
  obtain ⟨hg, ⟨G⟩⟩ := grid_of_build hd hb h.generated h.held
  have hlen : g.regions.length = 250 := by
    rw [hg, ← G.rlist, List.length_ofFn, (same_counts G).1]; rfl
  have hcell : g.regions[c]? = some (g.regions[c]'(by omega)) := List.getElem?_eq_getElem _
  obtain ⟨_, _, _, I, J, L, _, _, hR, _⟩ := regular_cell hd hb h hcell
  obtain ⟨lo, hi, vol, cen, h0, h6, hgeo, _, _, hx, hy, hz⟩ := generated_cell_geometry hd hb h hcell
  rw [hR] at h0 h6
  have e0 : V (domOf toyDims toyBox) I J L = lo := Option.some.inj h0
  have e6 : V (domOf toyDims toyBox) (I + 1) (J + 1) (L + 1) = hi := Option.some.inj h6
  have hcen : centroids s c = cen := by unfold centroids; rw [hgeo]; rfl
  show 0 < (centroids s c).coord 0 + (centroids s c).coord 1 + (centroids s c).coord 2
  rw [hcen]
  show 0 < cen.x + cen.y + cen.z
  have gp : ∀ n i : Nat, 0 ≤ gridPt (0 : ℝ) 1 n i := fun n i => by unfold gridPt; positivity
  have gp' : ∀ n i : Nat, 0 < n → 0 < gridPt (0 : ℝ) 1 n (i + 1) := fun n i hn => by unfold gridPt; positivity
  have q : ∀ I J L, (V (domOf toyDims toyBox) I J L).x = gridPt 0 1 10 I ∧ (V (domOf toyDims toyBox) I J L).y = gridPt 0 1 5 J ∧
      (V (domOf toyDims toyBox) I J L).z = gridPt 0 1 5 L := by
    intro I J L
    simp only [V, gridCoord_eq _ _ hd.nx, gridCoord_eq _ _ hd.ny, gridCoord_eq _ _ hd.nz, gx, gy, gz]
    simp [domOf, toyDims, toyBox]
  rw [hx, hy, hz, ← e0, ← e6, (q I J L).1, (q I J L).2.1, (q I J L).2.2, (q _ _ _).1, (q _ (J + 1) _).2.1, (q _ _ (L + 1)).2.2]
  have := gp 10 I
  have := gp 5 J
  have := gp 5 L
  have := gp' 10 I (by norm_num)
  have := gp' 5 J (by norm_num)
  have := gp' 5 L (by norm_num)
  linarith

theorem sum_pos_of {l : List Nat} {f : Nat → ℝ} (hl : l ≠ []) (h : ∀ x ∈ l, 0 < f x) : 0 < (l.map f).sum := by
  cases l with
  | nil => exact absurd rfl hl
  | cons a l =>
    rw [List.map_cons, List.sum_cons]
    refine add_pos_of_pos_of_nonneg (h a (by simp)) (List.sum_nonneg ?_)
    intro y hy
    obtain ⟨x, hx, rfl⟩ := List.mem_map.mp hy
    exact (h x (by simp [hx])).le

/-- **C170 is false of the example program itself**: run on one rank, ToyNumerics gets every one of its 250 averages wrong, all of them too big. -/
theorem toy_numerics_false (h : RegularMesh s (domOf toyDims toyBox) (wholeBlk toyDims) g r) :
    ∃ k M, s.j.buildTiles3 r 1 10 = some (k, M) ∧ ∀ c < 250, ∃ l v, Neighbours s.j c l ∧ l ≠ [] ∧
      averages (s.j.asked3 (centroids s)) M.tiles (density (s.j.asked3 (centroids s)) (s.j.m.cellIds3 s.j.bg).owned) c = some v ∧
      total (density (s.j.asked3 (centroids s)) (s.j.m.cellIds3 s.j.bg).owned) l / l.length < v := by
  have hd := goodDomOf toy_proper
  have hb := goodWhole toy_proper
  have ho := regular_owned toy_proper h
  have hs := h.solid hd hb
  obtain ⟨k, M, e, bad⟩ := toy_averages_false s.j r h.made hs.polygons hs.regions 1 10 (by decide) (centroids s)
    (density (s.j.asked3 (centroids s)) (s.j.m.cellIds3 s.j.bg).owned)
  obtain ⟨hl, hf, -⟩ := Partition.byIndexSpace_partition (s.j.m.cellIds3 s.j.bg).owned.length 10 (by decide)
  obtain ⟨k', M', e', hparts, _⟩ := tiles_of_parts3 s.j r h.made hs.polygons hs.regions 1 10 (by decide) _ hl (by rw [hf])
  have e'' : s.j.buildTiles3 r 1 10 = some (k', M') := e'
  rw [e] at e''; cases e''
  have hlen : (s.j.m.cellIds3 s.j.bg).owned.length = 250 := by rw [ho, List.length_range]; rfl
  rw [hlen, toy_parts] at hparts
  have tile_of : ∀ x < 250, ∃ t ∈ M.tiles, x ∈ t.cells.owned ∧ ∀ c < 250, c / 26 ≠ x / 26 → c ∉ t.cells.owned := by
    intro x hx
    have : List.range' (26 * (x / 26)) (min 26 (250 - 26 * (x / 26))) ∈ M.tiles.map (·.cells.owned) := by
      rw [hparts]; exact List.mem_map.mpr ⟨x / 26, List.mem_range.mpr (by omega), rfl⟩
    obtain ⟨t, ht, et⟩ := List.mem_map.mp this
    refine ⟨t, ht, ?_, ?_⟩
    · rw [et, List.mem_range'_1]; omega
    · intro c hc hne; rw [et, List.mem_range'_1]; omega
  refine ⟨k, M, e, fun c hc => ?_⟩
  obtain ⟨l, hN, hbad, _⟩ := bad c (by rw [ho]; exact List.mem_range.mpr hc)
  obtain ⟨i, hi, j, hj, q, hq, hne, n1, n2, n3, n4, n5, n6⟩ := toy_neighbour c hc
  have hx : (i * 5 + j) * 5 + q < 250 := by omega
  have hp : Simple.CellIn toyDims ⟨c / 25, c / 5 % 5, c % 5⟩ := ⟨by simp only [toyDims]; omega, by simp only [toyDims]; omega, by simp only [toyDims]; omega⟩
  have hq' : Simple.CellIn toyDims ⟨i, j, q⟩ := ⟨hi, hj, hq⟩
  have hshare := near_share toy_proper h hp hq' ⟨n1, n2, n3, n4, n5, n6⟩
  have ec : mstkCell toyDims ⟨c / 25, c / 5 % 5, c % 5⟩ = c := by simp only [mstkCell, toyDims]; omega
  have ex : mstkCell toyDims ⟨i, j, q⟩ = (i * 5 + j) * 5 + q := rfl
  rw [ec, ex] at hshare
  have hmem : (i * 5 + j) * 5 + q ∈ l := (hN.2 _).mpr ⟨fun e => hne (by rw [e]), hshare⟩
  obtain ⟨t, ht, t1, t2⟩ := tile_of _ hx
  have hpos : 0 < total (density (s.j.asked3 (centroids s)) (s.j.m.cellIds3 s.j.bg).owned) l := by
    refine sum_pos_of (List.ne_nil_of_mem hmem) fun x hxl => toy_positive h ?_
    obtain ⟨_, n, _, hn⟩ := (hN.2 x).mp hxl
    obtain ⟨rg, _, hat, _⟩ := (has_cellNodes3 _ _).mp hn
    have := (s.j.m.rnum s.j.bg).lt_of_at hat
    have hnr : s.j.m.nr = 250 := by
      obtain ⟨hg, ⟨G⟩⟩ := grid_of_build hd hb h.generated h.held
      rw [(same_counts G).1]; rfl
    omega
  obtain ⟨v, hv, hlt⟩ := hbad _ hmem le_rfl ⟨t, ht, t1, t2 c hc (fun e => hne e.symm)⟩ hpos
  exact ⟨l, v, hN, List.ne_nil_of_mem hmem, hv, hlt⟩

/-- there is such a mesh -/
example : ∃ (s : Source ℝ) (g : RegMesh ℝ) (r : MeshCache.Request), RegularMesh s (domOf toyDims toyBox) (wholeBlk toyDims) g r := by
  obtain ⟨s, g, r, h, _⟩ := same_mesh_exists toy_proper
  exact ⟨s, g, r, h⟩

end Jali.MstkGen
