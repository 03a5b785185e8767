import Verif.Props.SameMesh
import Verif.Props.BlockSearch
/-
C158: the BLOCK partitioner on the regular meshes of Mesh_MSTK.
-/
namespace Jali.BlockSearch
open Jali.Geom Jali.Geom.Spec Jali.Geom.Point Jali.MeshGeom Jali.MeshGeom.Spec Jali.Simple Jali.Simple.Spec Jali.SimpleGeom
  BlockPartition BlockPartition.Spec

variable {d : Dims} {b : Box} {m : GMesh} {cell face : Nat → Nat}

theorem renumbers_perm {n : Nat} {f : Nat → Nat} (h : Renumbers n f) : ((List.range n).map f).Perm (List.range n) := by
  refine (List.perm_ext_iff_of_nodup (Simple.map_nodup_on List.nodup_range ?_) List.nodup_range).2 ?_
  · intro a ha a' ha' e
    exact h.inj a (List.mem_range.1 ha) a' (List.mem_range.1 ha') e
  · intro k
    rw [List.mem_map, List.mem_range]
    constructor
    · rintro ⟨i, hi, rfl⟩; exact h.into i (List.mem_range.1 hi)
    · intro hk
      obtain ⟨i, hi, e⟩ := h.onto k hk
      exact ⟨i, List.mem_range.2 hi, e⟩

theorem widen_comm (dir : Nat) (l : ℝ × ℝ) (p q : Point) : widen dir (widen dir l p) q = widen dir (widen dir l q) p := by
  unfold widen
  dsimp only
  refine Prod.ext ?_ ?_ <;> dsimp only <;> split_ifs <;> linarith

/-- the limits do not depend on the order of cells and nodes -/
theorem limits_same (S : SameMesh m (simpleMesh d b) (numCells d) (numFaces d) cell face) (dir : Nat) :
    limits m (cellIds d) dir = limits (simpleMesh d b) (cellIds d) dir := by
  unfold limits
  have hp : ((cellIds d).flatMap m.cellCoords).Perm ((cellIds d).flatMap (simpleMesh d b).cellCoords) := by
    have h1 : ((cellIds d).flatMap m.cellCoords).Perm ((cellIds d).flatMap fun c => (simpleMesh d b).cellCoords (cell c)) :=
      List.Perm.flatMap_left _ fun c hc => S.cellCoords c (List.mem_range.1 hc)
    refine h1.trans ?_
    rw [← List.flatMap_map]
    exact (renumbers_perm S.cells).flatMap_right _
  exact hp.foldl_eq' (fun x _ y _ z => widen_comm dir z x y) _

theorem corner_same (S : SameMesh m (simpleMesh d b) (numCells d) (numFaces d) cell face) (hs : m.spaceDim = 3) (h0 : cell 0 = 0)
    (h : Proper d b) (hb : Bounded b) : corner m (cellIds d) (fun k => (limits m (cellIds d) k).1) = some 0 := by
  have e0 : cellIdx d ⟨0, 0, 0⟩ = 0 := by simp [cellIdx, cellIndex]
  have h000 : CellIn d ⟨0, 0, 0⟩ := ⟨h.nx, h.ny, h.nz⟩
  have hpos : 0 < numCells d := e0 ▸ cellIdx_lt d h000
  have hc := List.find?_some (corner_simple h hb)
  simp only [← limits_same S] at hc
  obtain ⟨n, hn⟩ : ∃ n, numCells d = n + 1 := ⟨numCells d - 1, by omega⟩
  unfold corner
  rw [e0] at hc
  have hp := S.cellCoords 0 hpos
  rw [h0] at hp
  rw [show cellIds d = 0 :: (List.range n).map Nat.succ by rw [cellIds, hn, List.range_succ_eq_map], List.find?_cons_of_pos]
  rw [show 0 :: (List.range n).map Nat.succ = cellIds d by rw [cellIds, hn, List.range_succ_eq_map], hs]
  rw [List.any_eq_true] at hc ⊢
  obtain ⟨x, hx, hd⟩ := hc
  exact ⟨x, hp.mem_iff.2 hx, hd⟩

/-- the scan finds the only face whose normal points in the direction -/
theorem scan_only {owned : Nat → Bool} {hi : ℝ} {dir c f0 : Nat} : ∀ {fs : List Nat}, f0 ∈ fs →
    (∀ f ∈ fs, f ≠ f0 → ∃ n, faceNormal m f (some c) = some n ∧ ¬ Aligned m.spaceDim dir n) →
    ∃ rest, scan m owned hi dir c fs = scan m owned hi dir c (f0 :: rest)
  | [], h, _ => absurd h List.not_mem_nil
  | f :: fs, h, hn => by
    by_cases e : f = f0
    · exact ⟨fs, by rw [e]⟩
    · obtain ⟨n, h1, h2⟩ := hn f List.mem_cons_self e
      rw [scan_skip h1 h2]
      exact scan_only ((List.mem_cons.1 h).resolve_left (Ne.symm e)) fun g hg => hn g (List.mem_cons_of_mem _ hg)

/-- the other faces of a cell do not point in the direction -/
theorem near_not_aligned (h : Proper d b) {p : Pos} (hp : CellIn d p) {dir : Nat} (hdir : dir < 3) {g : FacePos} (hg : g ∈ cellFaces p)
    (hne : g ≠ farFace dir p) : ∃ n, faceNormal (simpleMesh d b) (faceIdx d g) (some (cellIdx d p)) = some n ∧ ¬ Aligned 3 dir n := by
  have hx := hx_pos h
  have hy := hy_pos h
  have hz := hz_pos h
  have e1 := mul_pos hx hz
  have e2 := mul_pos hy hz
  have e3 := mul_pos hx hy
  obtain ⟨n1, n2, n3, n4, n5, n6⟩ := normals6 (b := b) hp
  simp only [cellFaces, List.mem_cons, List.not_mem_nil, or_false] at hg
  have hd : dir = 0 ∨ dir = 1 ∨ dir = 2 := by omega
  rcases hg with rfl | rfl | rfl | rfl | rfl | rfl
  · exact ⟨_, n1, not_aligned e1 (by ring) hdir (by rcases hd with rfl | rfl | rfl <;> simp [coord, mk3])⟩
  · refine ⟨_, n2, not_aligned e2 (by ring) hdir ?_⟩
    rcases hd with rfl | rfl | rfl
    · exact absurd rfl hne
    all_goals simp [coord, mk3]
  · refine ⟨_, n3, not_aligned e1 (by ring) hdir ?_⟩
    rcases hd with rfl | rfl | rfl
    · simp [coord, mk3]
    · exact absurd rfl hne
    · simp [coord, mk3]
  · exact ⟨_, n4, not_aligned e2 (by ring) hdir (by rcases hd with rfl | rfl | rfl <;> simp [coord, mk3])⟩
  · exact ⟨_, n5, not_aligned e3 (by ring) hdir (by rcases hd with rfl | rfl | rfl <;> simp [coord, mk3])⟩
  · refine ⟨_, n6, not_aligned e3 (by ring) hdir ?_⟩
    rcases hd with rfl | rfl | rfl
    · simp [coord, mk3]
    · simp [coord, mk3]
    · exact absurd rfl hne

/-- one turn of the walk on a mesh that is the structured mesh up to numbers -/
theorem scan_same (S : SameMesh m (simpleMesh d b) (numCells d) (numFaces d) cell face) (hs : m.spaceDim = 3) (h : Proper d b) {p : Pos}
    (hp : CellIn d p) {dir : Nat} (hdir : dir < 3) {c : Nat} (hc : c < numCells d) (hcp : cell c = cellIdx d p) :
    (∀ c' < numCells d, CellIn d (bump dir p) → cell c' = cellIdx d (bump dir p) →
      scan m (fun _ => true) (top b dir) dir c ((m.cellFaces c).map Prod.fst) = .next c') ∧
    (¬ CellIn d (bump dir p) → scan m (fun _ => true) (top b dir) dir c ((m.cellFaces c).map Prod.fst) = .reached) := by
  have hl : ((simpleMesh d b).cellFaces (cellIdx d p)).map Prod.fst = (cellFaces p).map (faceIdx d) := by
    rw [cellFaces_eq d b hp, List.map_fst_zip (by simp [cellFaces, dirs])]
  have hcf := S.cellFaces c hc
  rw [hcp, hl] at hcf
  have hfar := farFace_mem dir hdir p
  obtain ⟨q0, hq0, ef0⟩ := List.mem_map.1 (hcf.mem_iff.2 (List.mem_map_of_mem hfar))
  obtain ⟨hq0lt, n, hn, hn'⟩ := S.normal c hc q0 hq0
  rw [hcp, ef0] at hn'
  obtain ⟨n', _, hn2, ha, _⟩ := scan_far h hp hdir (hi := top b dir)
  rw [hn'] at hn2
  cases hn2
  rw [← hs] at ha
  obtain ⟨rest, e⟩ := scan_only (m := m) (owned := fun _ => true) (hi := top b dir) (dir := dir) (c := c) (f0 := q0.1)
    (fs := (m.cellFaces c).map Prod.fst) (List.mem_map_of_mem hq0) (by
      intro f hf hne
      obtain ⟨q, hq, rfl⟩ := List.mem_map.1 hf
      obtain ⟨hqlt, k, hk, hk'⟩ := S.normal c hc q hq
      have hm : face q.1 ∈ (cellFaces p).map (faceIdx d) := hcf.mem_iff.1 (List.mem_map_of_mem (f := fun q : Nat × Int => face q.1) hq)
      obtain ⟨g, hg, eg⟩ := List.mem_map.1 hm
      have hgne : g ≠ farFace dir p := by
        rintro rfl
        exact hne (S.faces.inj _ hqlt _ hq0lt (eg.symm.trans ef0.symm))
      obtain ⟨k', hk2, hna⟩ := near_not_aligned h hp hdir hg hgne
      rw [hcp, ← eg, hk2] at hk'
      cases hk'
      exact ⟨_, hk, by rw [hs]; exact hna⟩)
  rw [e]
  have hin := cellFaces_in d hp hfar
  have hfc := S.faceCells q0.1 hq0lt
  rw [ef0] at hfc
  obtain ⟨c1, c2⟩ := far_cells (b := b) hp hdir
  constructor
  · intro c' hc' hb hcb
    obtain ⟨x, y, hxy, he⟩ := c1 hb
    obtain ⟨hnd, hmem⟩ := MstkGen.simple_face_cells (bx := b) hin
    have hC : cellIdx d p ∈ [x, y] := hxy ▸ (hmem _).2 ⟨p, hp, hfar, rfl⟩
    have hne : cellIdx d (bump dir p) ≠ cellIdx d p := fun e => bump_ne dir p (cellIdx_inj d hp hb e.symm)
    rw [hxy] at hfc
    have hlen := hfc.length_eq
    rw [List.length_map] at hlen
    obtain ⟨u, v, huv⟩ := List.length_eq_two.1 hlen
    rw [huv] at hfc
    have hu := S.listed q0.1 hq0lt u (by rw [huv]; simp)
    have hv := S.listed q0.1 hq0lt v (by rw [huv]; simp)
    rw [scan_pair hn ha (by rw [huv]; rfl)]
    congr 1
    have hset : ∀ k, (k = cell u ∨ k = cell v) ↔ (k = cellIdx d p ∨ k = cellIdx d (bump dir p)) := by
      intro k
      have := hfc.mem_iff (a := k)
      simp only [List.map_cons, List.map_nil, List.mem_cons, List.not_mem_nil, or_false] at this hC
      rw [this]
      by_cases hx : x = cellIdx d p
      · rw [if_pos hx] at he
        rw [hx, he]
      · rw [if_neg hx] at he
        rcases hC with hC | hC
        · exact absurd hC.symm hx
        · rw [he, ← hC, or_comm]
    by_cases huc : u = c
    · rw [if_pos huc]
      apply S.cells.inj _ hv _ hc'
      rw [hcb]
      have := (hset _).2 (Or.inr rfl)
      rw [huc, hcp] at this
      exact (this.resolve_left hne).symm
    · rw [if_neg huc]
      apply S.cells.inj _ hu _ hc'
      rw [hcb]
      have := (hset (cell u)).1 (Or.inl rfl)
      exact this.resolve_left fun e => huc (S.cells.inj _ hu _ hc (e.trans hcp.symm))
  · intro hb
    have hxy := c2 hb
    rw [hxy] at hfc
    have hlen := hfc.length_eq
    rw [List.length_map] at hlen
    obtain ⟨u, huv⟩ := List.length_eq_one_iff.1 hlen
    obtain ⟨area, cen, ns, ns', g1, g2, _⟩ := S.area q0.1 hq0lt
    refine scan_last hn ha (by rw [huv]; rfl) g1 ?_
    have := centroid3 (m := simpleMesh d b) rfl g2
    simp only at this ⊢
    rw [this, ef0]
    exact far_centroid h hp hdir hb

theorem walk_same (S : SameMesh m (simpleMesh d b) (numCells d) (numFaces d) cell face) (hs : m.spaceDim = 3) (h0 : cell 0 = 0)
    (h : Proper d b) {dir : Nat} (hdir : dir < 3) {fuel : Nat} (hf : cellsIn d dir ≤ fuel) :
    walk m (fun _ => true) (top b dir) dir fuel 0 1 = .count (cellsIn d dir) := by
  have hn : 0 < cellsIn d dir := by
    unfold cellsIn; split
    · exact h.nx
    · split
      · exact h.ny
      · exact h.nz
  have hd : dir = 0 ∨ dir = 1 ∨ dir = 2 := by omega
  have hin : ∀ i < cellsIn d dir, CellIn d (along dir i) := by
    intro i hi
    have := h.nx; have := h.ny; have := h.nz
    rcases hd with rfl | rfl | rfl <;> simp [cellsIn] at hi <;> simp [along, CellIn, Pos.In, *]
  have hbump : ∀ i, bump dir (along dir i) = along dir (i + 1) := by
    intro i
    rcases hd with rfl | rfl | rfl <;> simp [bump, along]
  have hout : ¬ CellIn d (along dir (cellsIn d dir)) := by
    rcases hd with rfl | rfl | rfl <;> simp [along, CellIn, Pos.In, cellsIn]
  have hinv : ∀ k, ∃ c, k < numCells d → c < numCells d ∧ cell c = k := by
    intro k
    by_cases hk : k < numCells d
    · obtain ⟨c, h1, h2⟩ := S.cells.onto k hk
      exact ⟨c, fun _ => ⟨h1, h2⟩⟩
    · exact ⟨0, fun h => absurd h hk⟩
  choose inv hinv using hinv
  have hi : ∀ i < cellsIn d dir, inv (cellIdx d (along dir i)) < numCells d ∧ cell (inv (cellIdx d (along dir i))) = cellIdx d (along dir i) :=
    fun i hi => hinv _ (cellIdx_lt d (hin i hi))
  have h00 : inv (cellIdx d (along dir 0)) = 0 := by
    have e0 : cellIdx d (along dir 0) = 0 := by simp [along, cellIdx, cellIndex]
    obtain ⟨a1, a2⟩ := hi 0 hn
    refine S.cells.inj _ a1 _ (by omega) ?_
    rw [a2, h0, e0]
  have := walk_chain (m := m) (owned := fun _ => true) (hi := top b dir) (d := dir) (fun i => inv (cellIdx d (along dir i))) (cellsIn d dir)
    (fun i hi' => by
      obtain ⟨a1, a2⟩ := hi i (by omega)
      obtain ⟨b1, b2⟩ := hi (i + 1) hi'
      exact (scan_same S hs h (hin i (by omega)) hdir a1 a2).1 _ b1 (by rw [hbump]; exact hin _ hi') (by rw [hbump]; exact b2))
    (by
      obtain ⟨a1, a2⟩ := hi (cellsIn d dir - 1) (by omega)
      exact (scan_same S hs h (hin _ (by omega)) hdir a1 a2).2 (by rw [hbump, Nat.sub_add_cancel hn]; exact hout))
    (cellsIn d dir - 1) 0 fuel 1 (by omega) (by omega) hn
  simp only [h00] at this
  rw [this]
  congr 1; omega

/-- the search finds the number of cells in each direction -/
theorem search_same (S : SameMesh m (simpleMesh d b) (numCells d) (numFaces d) cell face) (hs : m.spaceDim = 3) (h0 : cell 0 = 0)
    (h : Proper d b) (hb : Bounded b) {fuel : Nat} (hx : d.nx ≤ fuel) (hy : d.ny ≤ fuel) (hz : d.nz ≤ fuel) :
    search fuel m (cellIds d) (fun _ => true) = .regular [d.nx, d.ny, d.nz] := by
  unfold search
  rw [corner_same S hs h0 h hb]
  dsimp only
  rw [hs]
  have w : ∀ dir < 3, cellsIn d dir ≤ fuel →
      walk m (fun _ => true) (limits m (cellIds d) dir).2 dir fuel 0 1 = .count (cellsIn d dir) := by
    intro dir hdir hf
    rw [limits_same S, limits_simple h hb hdir]
    exact walk_same S hs h0 h hdir hf
  simp only [List.range_succ, List.range_zero, List.nil_append, List.cons_append, walks, w 0 (by decide) hx, w 1 (by decide) hy, w 2 (by decide) hz]
  rfl

/-- the partitioner on a mesh that is the structured mesh up to numbers -/
theorem blocks_same (S : SameMesh m (simpleMesh d b) (numCells d) (numFaces d) cell face) (hs : m.spaceDim = 3) (h0 : cell 0 = 0)
    (h : Proper d b) (hb : Bounded b) (numParts : Nat) (h1 : 1 ≤ numParts) (hn : numParts ≤ numCells d)
    (fuel : Nat) (hf : numParts ≤ fuel) (hx : d.nx ≤ fuel) (hy : d.ny ≤ fuel) (hz : d.nz ≤ fuel) :
    ∃ (blocks : List Block) (parts : List (List Nat)), Tiles 3 ![d.nx, d.ny, d.nz] blocks ∧
      partition fuel m (cellIds d) (fun _ => true) numParts = .parts parts ∧
      parts.length = numParts ∧ parts.flatten.Perm (cellIds d) ∧
      ∀ i, (hi : i < parts.length) → ∃ hb : i < blocks.length, ∀ p : Pos, p.In d.nx d.ny d.nz → ∀ c < numCells d,
        cell c = cellIdx d p → (c ∈ parts[i] ↔ InBlock 3 blocks[i] ![p.i, p.j, p.k]) := by
  have hex : ∀ c, ∃ q : Pos, c ∈ cellIds d → q.In d.nx d.ny d.nz ∧ cellIdx d q = cell c := by
    intro c
    by_cases hc : c ∈ cellIds d
    · obtain ⟨p, hp, e⟩ := cellIdx_surj d (S.cells.into c (List.mem_range.1 hc))
      exact ⟨p, fun _ => ⟨hp, e⟩⟩
    · exact ⟨⟨0, 0, 0⟩, fun h => absurd h hc⟩
  choose q hq using hex
  let r : Partition.Regular ℝ := ⟨fun k => (limits m (cellIds d) k).1, fun k => (limits m (cellIds d) k).2,
    fun k => [d.nx, d.ny, d.nz].getD k 0⟩
  have hrn : r.n = ![d.nx, d.ny, d.nz] := by
    funext k
    match k with
    | 0 => rfl
    | 1 => rfl
    | 2 => rfl
  have lim : ∀ k < 3, r.lo k = bot b k ∧ r.hi k = top b k := by
    intro k hk
    have := limits_simple h hb hk
    rw [← limits_same S] at this
    exact ⟨congrArg Prod.fst this, congrArg Prod.snd this⟩
  let ccen : Nat → Nat → ℝ := fun c k => match computeCellGeometry m c with
    | some g => coord g.2 k
    | none => 0
  obtain ⟨blocks, parts, hok, hT, hby, hlen, hperm, hmem⟩ := Partition.byBlocks_partition (K := ℝ) 3 numParts r (cellIds d)
    (fun c => ![(q c).i, (q c).j, (q c).k]) ccen (by decide) (by decide)
    (by
      intro k _
      match k with
      | 0 => exact h.nx
      | 1 => exact h.ny
      | 2 => exact h.nz)
    h1 hn
    (by
      intro k hk
      rw [(lim k hk).1, (lim k hk).2]
      have hd : k = 0 ∨ k = 1 ∨ k = 2 := by omega
      have := h.x; have := h.y; have := h.z
      rcases hd with rfl | rfl | rfl <;> simp [top, bot] <;> assumption)
    (by
      intro c hc k hk
      obtain ⟨i1, i2, i3⟩ := (hq c hc).1
      match k with
      | 0 => exact i1
      | 1 => exact i2
      | 2 => exact i3)
    (by
      intro c hc k hk
      obtain ⟨hin, hidx⟩ := hq c hc
      have hg := simple_cell_geometry h hin
      rw [hidx] at hg
      obtain ⟨vol, cen, cen', g1, g2, _, ex, ey, ez⟩ := S.volume c (List.mem_range.1 hc)
      rw [hg] at g2
      injection g2 with g2
      have g3 := congrArg Prod.snd g2
      simp only at g3
      rw [← g3] at ex ey ez
      simp only [ccen, g1]
      match k with
      | 0 => rw [(lim (0 : Fin 3) (by decide)).1, (lim (0 : Fin 3) (by decide)).2]; exact ex
      | 1 => rw [(lim (1 : Fin 3) (by decide)).1, (lim (1 : Fin 3) (by decide)).2]; exact ey
      | 2 => rw [(lim (2 : Fin 3) (by decide)).1, (lim (2 : Fin 3) (by decide)).2]; exact ez)
    fuel hf
  refine ⟨blocks, parts, by rw [← hrn]; exact hT, ?_, hlen, hperm, ?_⟩
  · unfold partition
    rw [search_same S hs h0 h hb hx hy hz, hs]
    dsimp only
    show (match Partition.byBlocks fuel 3 numParts (some r) (cellIds d) ccen with
      | .error _ => Outcome.asserts
      | .ok none => .outOfRange
      | .ok (some l) => .parts l) = _
    rw [hby]
  · intro i hi
    have hbl : i < blocks.length := by
      obtain ⟨bl, hl, hok'⟩ := blockPartition_returns_request 3 r.n numParts (by decide) (by decide) (by
        intro k _
        match k with
        | 0 => exact h.nx
        | 1 => exact h.ny
        | 2 => exact h.nz) h1 hn
      have e := hok' fuel hf
      rw [hok] at e
      injection e with e
      subst e
      omega
    refine ⟨hbl, fun p hp c hc hcp => ?_⟩
    have hc' : c ∈ cellIds d := List.mem_range.mpr hc
    obtain ⟨hin, hidx⟩ := hq _ hc'
    have e := cellIdx_inj d hin hp (hidx.trans hcp)
    rw [hmem i hi hbl c, e]
    exact ⟨fun h => h.2, fun h => ⟨hc', h⟩⟩

open Jali.MstkGen Jali.Mstk in
/-- **C158.** On every regular mesh that Mesh_MSTK generates on one rank and for every number of parts from one to the number of cells,
the BLOCK partitioner recognises the mesh and divides its cells into boxes of lattice cells: there are blocks tiling the lattice such
that part `n` contains exactly the cells in block `n`; the parts together contain each cell exactly once. -/
theorem blocks_of_mstk_mesh {s : Source ℝ} {g : RegMesh ℝ} {r : MeshCache.Request} (h : Proper d b) (hb : Bounded b)
    (hm : RegularMesh s (domOf d b) (wholeBlk d) g r) (numParts : Nat) (h1 : 1 ≤ numParts) (hn : numParts ≤ d.nx * d.ny * d.nz)
    (fuel : Nat) (hf : numParts ≤ fuel) (hx : d.nx ≤ fuel) (hy : d.ny ≤ fuel) (hz : d.nz ≤ fuel) :
    ∃ (blocks : List Block) (parts : List (List Nat)), Tiles 3 ![d.nx, d.ny, d.nz] blocks ∧
      partition fuel s.gmesh (List.range s.j.m.nr) (fun _ => true) numParts = .parts parts ∧
      parts.length = numParts ∧ parts.flatten.Perm (List.range s.j.m.nr) ∧
      ∀ n, (hn : n < parts.length) → ∃ hb : n < blocks.length, ∀ i j k, i < d.nx → j < d.ny → k < d.nz →
        ((i * d.ny + j) * d.nz + k ∈ parts[n] ↔ InBlock 3 blocks[n] ![i, j, k]) := by
  obtain ⟨cell, face, nr, nf, S, num⟩ := same_mesh h hm
  have h0 : cell 0 = 0 := by simpa using num 0 0 0 h.nx h.ny h.nz
  obtain ⟨blocks, parts, T, e, hl, hp, hmem⟩ := blocks_same S hm.space h0 h hb numParts h1 hn fuel hf hx hy hz
  refine ⟨blocks, parts, T, by rw [nr]; exact e, hl, by rw [nr]; exact hp, ?_⟩
  intro n hn'
  obtain ⟨hbl, H⟩ := hmem n hn'
  refine ⟨hbl, fun i j k hi hj hk => H ⟨i, j, k⟩ ⟨hi, hj, hk⟩ _ ?_ ?_⟩
  · have a1 : i * d.ny + j < d.nx * d.ny := by nlinarith
    show _ < d.nx * d.ny * d.nz
    nlinarith
  · rw [num i j k hi hj hk]
    simp only [cellIdx, cellIndex]
    ring

/-- a 2 × 3 × 4 mesh in five parts -/
example : ∃ (s : Jali.Mstk.Source ℝ) (blocks : List Block) (parts : List (List Nat)), s.j.m.nr = 24 ∧ Tiles 3 ![2, 3, 4] blocks ∧
    partition 5 s.gmesh (List.range s.j.m.nr) (fun _ => true) 5 = .parts parts ∧ parts.length = 5 := by
  have hp : Proper ⟨2, 3, 4⟩ ⟨-1, 0, 2, 1, 9, 4⟩ := by constructor <;> norm_num
  have hb : Bounded ⟨-1, 0, 2, 1, 9, 4⟩ := by constructor <;> norm_num
  obtain ⟨s, g, r, h, _⟩ := Jali.MstkGen.same_mesh_exists hp
  obtain ⟨cell, face, h1, _⟩ := Jali.MstkGen.same_mesh hp h
  obtain ⟨blocks, parts, T, e, hl, _⟩ := blocks_of_mstk_mesh hp hb h 5 (by decide) (by decide) 5 (by decide) (by decide) (by decide) (by decide)
  exact ⟨s, blocks, parts, h1, T, e, hl⟩

end Jali.BlockSearch
