import Verif.Props.MstkTiles
/-
C165: the partitioner that was asked for.
-/
namespace Jali.Partition

/-- **C165** Whatever partitioner but BLOCK is asked for, in builds with METIS and without, in any dimension: there is one list per part, and each
owned cell is in exactly one list. METIS is only supposed to answer with part numbers in range. -/
theorem any_partitioner (env : Env) (spaceDim : Nat) (p : Partitioner) (ncells numParts : Nat) (hp : 1 ≤ numParts) (hb : p ≠ .BLOCK)
    (hm : ∀ c < ncells, env.idxpart c < numParts) :
    ∃ parts, getPartitioning env spaceDim p ncells numParts = some parts ∧ parts.length = numParts ∧
      parts.flatten.Perm (List.range ncells) := by
  have hi : ∃ parts, some (byIndexSpace ncells numParts) = some parts ∧ parts.length = numParts ∧ parts.flatten.Perm (List.range ncells) := by
    obtain ⟨h1, h2, _⟩ := byIndexSpace_partition ncells numParts hp
    exact ⟨_, rfl, h1, by rw [h2]⟩
  obtain ⟨q, h1, h2, _, h4⟩ := withMetis_partition ncells numParts env.idxpart hm
  unfold getPartitioning route
  cases p
  case BLOCK => exact absurd rfl hb
  case METIS =>
    by_cases hd : spaceDim = 1
    · simp only [hd]; exact hi
    · cases hh : env.haveMetis
      · simp [hd, -List.length_range]; simpa using hi
      · simp only [hd, hh, ne_eq, not_false_eq_true, and_self, if_true]; exact ⟨q, h1, h2, h4⟩
  all_goals
    by_cases hd : spaceDim = 1
    · simp only [hd]; exact hi
    · simp [hd]; simpa using hi

/-- **C165** METIS is used exactly if it is asked for, built in and the mesh is not one-dimensional; BLOCK exactly if it is asked for; in all
other cases the cells are divided by their ids. (ZOLTAN is never used.) -/
theorem which_partitioner (env : Env) (spaceDim : Nat) (p : Partitioner) (ncells numParts : Nat) :
    (p = .METIS → env.haveMetis = true → spaceDim ≠ 1 →
      getPartitioning env spaceDim p ncells numParts = withMetis ncells numParts env.idxpart) ∧
    (p = .BLOCK → getPartitioning env spaceDim p ncells numParts = env.blocks) ∧
    (p ≠ .BLOCK → ¬ (p = .METIS ∧ env.haveMetis = true ∧ spaceDim ≠ 1) →
      getPartitioning env spaceDim p ncells numParts = some (byIndexSpace ncells numParts)) := by
  refine ⟨?_, ?_, ?_⟩
  · rintro rfl h1 h2
    simp [getPartitioning, route, h1, h2]
  · rintro rfl
    simp [getPartitioning, route]
  · intro h1 h2
    unfold getPartitioning route
    cases p
    case BLOCK => exact absurd rfl h1
    case METIS =>
      by_cases hd : spaceDim = 1
      · simp [hd]
      · cases hh : env.haveMetis
        · simp [hd]
        · exact absurd ⟨rfl, hh, hd⟩ h2
    all_goals
      by_cases hd : spaceDim = 1
      · simp [hd]
      · simp [hd]

example : getPartitioning ⟨true, fun c => c % 2, none⟩ 2 .METIS 5 2 = some [[0, 2, 4], [1, 3]] ∧
    getPartitioning ⟨true, fun c => c % 2, none⟩ 1 .METIS 5 2 = some [[0, 1, 2], [3, 4]] ∧
    getPartitioning ⟨true, fun c => c % 2, none⟩ 3 .ZOLTAN_RCB 5 2 = some [[0, 1, 2], [3, 4]] ∧
    getPartitioning ⟨true, fun c => c % 2, none⟩ 3 .BLOCK 5 2 = none := by decide +kernel

end Jali.Partition

namespace Jali.Mstk
open Jali.Partition

/-- **C165** (3D) Tiles with any partitioner but BLOCK: each owned cell is owned by one tile, and so on; the tiles own the lists of the partitioner. -/
theorem tiles_any_partitioner3 (j : JMesh) (r : MeshCache.Request) (h : j.Made3 r) (hp : j.m.Polygons) (hr : j.m.Regions)
    (layers numTiles : Nat) (hnt : 1 ≤ numTiles) (p : Partitioner) (hb : p ≠ .BLOCK) (env : Env)
    (hm : ∀ c < (j.m.cellIds3 j.bg).owned.length, env.idxpart c < numTiles) :
    ∃ k M, j.buildTilesBy3 r layers numTiles p env = some (k, M) ∧
      getPartitioning env 3 p (j.m.cellIds3 j.bg).owned.length numTiles = some (M.tiles.map (·.cells.owned)) ∧
      TilesOk M r numTiles layers (j.m.cellIds3 j.bg) (fun c n => Has (j.cellNodes3 c) n) (fun c f => HasFst (j.cellGetFaces3 c) f)
        (fun c e => Has (j.cellGetEdges3 c) e) (WedgeOf k) (CornerOf k) := by
  obtain ⟨parts, e, hl, hf⟩ := any_partitioner env 3 p _ numTiles hnt hb hm
  obtain ⟨k, M, e1, e2, _, ok⟩ := tiles_of_parts3 j r h hp hr layers numTiles hnt parts hl hf
  refine ⟨k, M, ?_, by rw [e, e2], ok⟩
  unfold JMesh.buildTilesBy3
  rw [e]
  exact e1

/-- **C165** (2D and surface meshes, without boundary ghosts) -/
theorem tiles_any_partitioner2 (j : JMesh) (r : MeshCache.Request) (h : j.Made2 r) (hp : j.m.Polygons) (hr : j.m.OrientedCells)
    (sdim layers numTiles : Nat) (hnt : 1 ≤ numTiles) (p : Partitioner) (hb : p ≠ .BLOCK) (env : Env)
    (hm : ∀ c < (j.m.cellIds2 j.bg).owned.length, env.idxpart c < numTiles) :
    ∃ k M, j.buildTilesBy2 sdim r layers numTiles p env = some (k, M) ∧
      getPartitioning env sdim p (j.m.cellIds2 j.bg).owned.length numTiles = some (M.tiles.map (·.cells.owned)) ∧
      TilesOk M r numTiles layers (j.m.cellIds2 j.bg) (fun c n => Has (j.cellNodes2 c) n) (fun c f => HasFst (j.cellGetFaces2 c) f)
        (fun c e => Has (j.cellGetEdges2 sdim c) e) (WedgeOf k) (CornerOf k) := by
  obtain ⟨parts, e, hl, hf⟩ := any_partitioner env sdim p _ numTiles hnt hb hm
  obtain ⟨k, M, e1, e2, _, ok⟩ := tiles_of_parts2 j r h hp hr sdim layers numTiles hnt parts hl hf
  refine ⟨k, M, ?_, by rw [e, e2], ok⟩
  unfold JMesh.buildTilesBy2
  rw [e]
  exact e1

/-- **C165 is false of the BLOCK partitioner.** On a mesh it does not recognise as regular it leaves all lists empty (C63); the tiles are built all the
same, none of them owns a cell, and no cell has a master tile. -/
theorem tiles_block_partitioner_lose_cells (j : JMesh) (r : MeshCache.Request) (h : j.Made3 r) (hp : j.m.Polygons) (hr : j.m.Regions)
    (layers numTiles : Nat) (hnt : 1 ≤ numTiles) (env : Env) (hb : env.blocks = some (List.replicate numTiles [])) :
    ∃ k M, j.buildTilesBy3 r layers numTiles .BLOCK env = some (k, M) ∧ M.tiles.length = numTiles ∧
      (∀ t ∈ M.tiles, t.cells.owned = []) ∧ ∀ c < j.m.nr, M.masterOfCell c = some (-1) := by
  obtain ⟨_, _, h1, _⟩ := tiles_of_mesh3 j r h hp hr layers 1 (by decide)
  obtain ⟨k, hk⟩ : ∃ k, Types.cacheExtra (j.base3 r) = some k := by
    obtain ⟨k, hk, _⟩ := Option.bind_eq_some_iff.mp h1
    exact ⟨k, hk⟩
  have hfl : (List.replicate numTiles ([] : List Nat)).flatten = [] := by
    rw [List.flatten_eq_nil_iff]
    intro l hl
    exact (List.mem_replicate.1 hl).2
  have hne : List.replicate numTiles ([] : List Nat) ≠ [] := by
    intro e
    have := congrArg List.length e
    simp at this
    omega
  obtain ⟨M, e, hid, ho, hc, _⟩ := Tile.tiles_own_disjointly (j.tileTopo3 k) (tileFlags r) (tileTopo3_valid j r h k) layers
    (List.replicate numTiles []) hne (by rw [hfl]; intro c hc; cases hc) (by rw [hfl]; exact List.nodup_nil)
  refine ⟨k, M, ?_, ?_, ?_, ?_⟩
  · unfold JMesh.buildTilesBy3
    rw [((which_partitioner env 3 .BLOCK _ _).2.1 rfl), hb, Option.bind_some]
    unfold JMesh.buildParts3
    rw [hk, Option.bind_some, e]
    rfl
  · have := congrArg List.length ho
    simpa using this
  · intro t ht
    have : t.cells.owned ∈ M.tiles.map (·.cells.owned) := List.mem_map_of_mem ht
    rw [ho] at this
    exact (List.mem_replicate.1 this).2
  · intro c hcl
    refine ((hc c ?_).2 ?_).2
    · show c < (j.m.cellIds3 j.bg).all.length
      rw [(len_ids j.m j.bg).2.2.2.1]; exact hcl
    · rw [hfl]; exact List.not_mem_nil

example : ∃ k M, sample3.buildTilesBy3 reqAll 1 2 .METIS ⟨true, fun _ => 1, none⟩ = some (k, M) ∧ M.tiles.length = 2 := by
  obtain ⟨k, M, e, _, ok⟩ := tiles_any_partitioner3 sample3 reqAll sample3_made sample3_ok.2 sample3_ok.1 1 2 (by decide) .METIS (by decide)
    ⟨true, fun _ => 1, none⟩ (by intro c _; show 1 < 2; decide)
  exact ⟨k, M, e, ok.count⟩

example : ∃ k M, sample2.buildTilesBy2 2 reqAll 1 2 .ZOLTAN_RCB ⟨false, fun _ => 1, none⟩ = some (k, M) ∧ M.tiles.length = 2 := by
  obtain ⟨k, M, e, _, ok⟩ := tiles_any_partitioner2 sample2 reqAll sample2_made sample2_ok.1 sample2_ok.2 2 1 2 (by decide) .ZOLTAN_RCB (by decide)
    ⟨false, fun _ => 1, none⟩ (by intro c _; show 1 < 2; decide)
  exact ⟨k, M, e, ok.count⟩

example : ∃ k M, sample3.buildTilesBy3 reqAll 1 2 .BLOCK ⟨true, fun _ => 1, some [[], []]⟩ = some (k, M) ∧ M.masterOfCell 0 = some (-1) := by
  obtain ⟨k, M, e, _, _, h⟩ := tiles_block_partitioner_lose_cells sample3 reqAll sample3_made sample3_ok.2 sample3_ok.1 1 2 (by decide)
    ⟨true, fun _ => 1, some [[], []]⟩ rfl
  exact ⟨k, M, e, h 0 (by decide)⟩

end Jali.Mstk
