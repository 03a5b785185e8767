import Verif.Proof.Partition
import Verif.Props.BlockPartition
/-! Property theorems C15, C16, C17, C62: partitioners. -/
namespace Jali.Partition
open BlockPartition BlockPartition.Spec

/-- **C15.** The INDEX partitioner yields exactly `p` lists; put one after the other they are the cells
`0, 1, ..., ncells-1` in order (so each cell is in exactly one list and each list is a contiguous ascending
run), and no list has more than `ceil(ncells/p + 1/2)` cells. -/
theorem byIndexSpace_partition (ncells p : Nat) (hp : 1 ≤ p) :
    (byIndexSpace ncells p).length = p ∧
    (byIndexSpace ncells p).flatten = List.range ncells ∧
    ∀ l ∈ byIndexSpace ncells p, (l.length : Int) ≤ ((ncells : Rat) / (p : Rat) + 1 / 2).ceil ∧
      ∃ a, l = List.range' a l.length := by
  refine ⟨fillParts_length _ _ _ _, ?_, ?_⟩
  · rw [byIndexSpace, fillParts_flatten _ _ _ _ (Nat.zero_le _)]
    have := le_mul_max ncells p hp
    rw [Nat.min_eq_right (by omega), List.range_eq_range', Nat.sub_zero]
  · intro l hl
    obtain ⟨i, hi, rfl⟩ := List.getElem_of_mem hl
    simp only [byIndexSpace] at hi ⊢
    rw [fillParts_get _ _ _ _ (Nat.zero_le _) i hi]
    refine ⟨?_, ⟨_, by rw [List.length_range']⟩⟩
    rw [List.length_range']
    have h : ((maxCellsPerTile ncells p : Nat) : Int) = ((ncells : Rat) / (p : Rat) + 1 / 2).ceil := by
      unfold maxCellsPerTile
      apply Int.toNat_of_nonneg
      have h := Rat.le_ceil (x := (ncells : Rat) / (p : Rat) + 1 / 2)
      have h0 : (0 : Rat) ≤ (ncells : Rat) / p := by positivity
      have : (0 : Rat) ≤ ((((ncells : Rat) / (p : Rat) + 1 / 2).ceil : Int) : Rat) := by linarith
      exact_mod_cast this
    omega

example : byIndexSpace 10 3 = [[0, 1, 2, 3], [4, 5, 6, 7], [8, 9]] := by decide +kernel

/-- **C16 (what holds).** Part `i` is non-empty exactly when `i * ceil(ncells/p + 1/2) < ncells`. -/
theorem byIndexSpace_nonempty_partial (ncells p i : Nat) (hp : 1 ≤ p)
    (hi : i < (byIndexSpace ncells p).length) :
    (byIndexSpace ncells p)[i] ≠ [] ↔ i * ((ncells : Rat) / (p : Rat) + 1 / 2).ceil.toNat < ncells := by
  have hm := le_mul_max ncells p hp
  simp only [byIndexSpace] at hi ⊢
  rw [fillParts_get _ _ _ _ (Nat.zero_le _) i hi]
  change _ ↔ i * maxCellsPerTile ncells p < ncells
  have hm0 : 0 < maxCellsPerTile ncells p ∨ ncells = 0 := by
    rcases Nat.eq_zero_or_pos (maxCellsPerTile ncells p) with h | h
    · rw [h] at hm; right; omega
    · left; exact h
  rw [ne_eq, List.range'_eq_nil_iff]
  omega

/-- **C16 is false of the code.** Whenever there are as many cells as parts (and at least two), the last part is
empty. -/
theorem byIndexSpace_leaves_part_empty (p : Nat) (hp : 2 ≤ p) :
    ∃ h : p - 1 < (byIndexSpace p p).length, (byIndexSpace p p)[p - 1] = [] := by
  have hl : p - 1 < (byIndexSpace p p).length := by
    rw [(byIndexSpace_partition p p (by omega)).1]; omega
  refine ⟨hl, ?_⟩
  by_contra hne
  have h := (byIndexSpace_nonempty_partial p p (p - 1) (by omega) hl).1 hne
  have hp' : (p : Rat) ≠ 0 := by have : p ≠ 0 := by omega
                                 exact_mod_cast this
  rw [div_self hp'] at h
  have h2 : ((1 : Rat) + 1 / 2).ceil.toNat = 2 := by decide +kernel
  rw [h2] at h
  omega

example : byIndexSpace 4 3 = [[0, 1], [2, 3], []] := by decide +kernel

/-- **C17.** Whatever part numbers in range the graph partitioner assigns, the caller gets one list per part,
containing exactly the cells of that part in ascending order; together the lists contain each cell once. -/
theorem withMetis_partition (ncells p : Nat) (idxpart : Nat → Nat) (h : ∀ c < ncells, idxpart c < p) :
    ∃ parts, withMetis ncells p idxpart = some parts ∧ parts.length = p ∧
      (∀ i, (hi : i < parts.length) → parts[i] = (List.range ncells).filter fun c => idxpart c = i) ∧
      parts.flatten.Perm (List.range ncells) := by
  have hb := bucket_eq idxpart (List.range ncells) (List.replicate p [])
    (by intro c hc; simpa using h c (List.mem_range.1 hc))
  have e : ((List.replicate p ([] : List Nat)).mapIdx fun i l =>
      l ++ (List.range ncells).filter fun c => idxpart c = i) =
      (List.range p).map fun i => (List.range ncells).filter fun c => idxpart c = i := by
    apply List.ext_getElem
    · simp
    · intro i h1 h2; simp
  rw [e] at hb
  refine ⟨_, hb, by simp, fun i hi => by simp, filter_parts_perm idxpart p _ ?_⟩
  intro c hc; exact h c (List.mem_range.1 hc)

example : withMetis 5 2 (fun c => c % 2) = some [[0, 2, 4], [1, 3]] := by decide

/-- **C62.** The BLOCK partitioner on a mesh recognised as regular: if the centroid of each owned cell is the
midpoint of its lattice cell then, with exact arithmetic, every part is the list of the cells inside one
block, and each cell is in exactly one part. -/
theorem byBlocks_partition {K : Type} [Field K] [LinearOrder K] [IsStrictOrderedRing K] (dim numParts : Nat) (r : Regular K) (cellList : List Nat)
    (pos : Nat → Fin 3 → Nat) (ccen : Nat → Nat → K)
    (h1 : 1 ≤ dim) (h3 : dim ≤ 3) (hn : ∀ d : Fin 3, d.val < dim → 0 < r.n d)
    (hr : 1 ≤ numParts) (hv : numParts ≤ gridSize dim r.n)
    (hlim : ∀ d : Nat, d < dim → r.lo d < r.hi d)
    (hpos : ∀ c ∈ cellList, InGrid dim r.n (pos c))
    (hcen : ∀ c ∈ cellList, ∀ d : Fin 3, d.val < dim →
      ccen c d = r.lo d + ((pos c d : K) + 1 / 2) * ((r.hi d - r.lo d) / (r.n d : K)))
    (fuel : Nat) (hf : numParts ≤ fuel) :
    ∃ blocks parts, blockPartition fuel dim r.n numParts = .ok blocks ∧ Tiles dim r.n blocks ∧
      byBlocks fuel dim numParts (some r) cellList ccen = .ok (some parts) ∧
      parts.length = numParts ∧ parts.flatten.Perm cellList ∧
      ∀ i, (hi : i < parts.length) → (hb : i < blocks.length) → ∀ c,
        c ∈ parts[i] ↔ c ∈ cellList ∧ InBlock dim blocks[i] (pos c) := by
  obtain ⟨blocks, hlen, hok⟩ := blockPartition_returns_request dim r.n numParts h1 h3 hn hr hv
  have hT := blockPartition_tiles dim r.n numParts h1 h3 hn hr hv fuel hf blocks (hok fuel hf)
  have key : ∀ c ∈ cellList, ∀ b : Block,
      (insideBlock dim (blockLimits r.lo (fun d => (r.hi d - r.lo d) /
        (if h : d < 3 then (r.n ⟨d, h⟩ : K) else 1)) b).1
        (blockLimits r.lo (fun d => (r.hi d - r.lo d) /
        (if h : d < 3 then (r.n ⟨d, h⟩ : K) else 1)) b).2 (ccen c) = true ↔ InBlock dim b (pos c)) := by
    intro c hc b
    simp only [insideBlock, List.all_eq_true, List.mem_range, Bool.and_eq_true, decide_eq_true_eq,
      InBlock]
    have one : ∀ d : Fin 3, d.val < dim →
        ((r.lo d + (b.lo d : K) * ((r.hi d - r.lo d) / (r.n d : K)) < ccen c d ∧
          ccen c d < r.lo d + (b.lo d : K) * ((r.hi d - r.lo d) / (r.n d : K)) +
            (b.num d : K) * ((r.hi d - r.lo d) / (r.n d : K))) ↔
          (b.lo d ≤ pos c d ∧ pos c d < b.lo d + b.num d)) := by
      intro d hd
      have hnd := hn d hd
      have hh : 0 < (r.hi d - r.lo d) / (r.n d : K) :=
        div_pos (by have := hlim d hd; linarith) (by exact_mod_cast hnd)
      rw [hcen c hc d hd]
      generalize (r.hi d - r.lo d) / (r.n d : K) = s at hh
      have e1 : r.lo d + (b.lo d : K) * s < r.lo d + ((pos c d : K) + 1 / 2) * s ↔
          (b.lo d : K) < (pos c d : K) + 1 / 2 := by
        rw [add_lt_add_iff_left, mul_lt_mul_iff_left₀ hh]
      have e2 : r.lo d + ((pos c d : K) + 1 / 2) * s < r.lo d + (b.lo d : K) * s + (b.num d : K) * s ↔
          (pos c d : K) + 1 / 2 < (b.lo d : K) + (b.num d : K) := by
        rw [show r.lo d + (b.lo d : K) * s + (b.num d : K) * s =
          r.lo d + ((b.lo d : K) + (b.num d : K)) * s by ring, add_lt_add_iff_left,
          mul_lt_mul_iff_left₀ hh]
      rw [e1, e2]
      constructor
      · rintro ⟨g1, g2⟩
        constructor
        · by_contra hlt
          have : (pos c d : K) + 1 ≤ (b.lo d : K) := by
            have : pos c d + 1 ≤ b.lo d := by omega
            exact_mod_cast this
          linarith
        · by_contra hge
          have : (b.lo d : K) + (b.num d : K) ≤ (pos c d : K) := by
            have : b.lo d + b.num d ≤ pos c d := by omega
            exact_mod_cast this
          linarith
      · rintro ⟨g1, g2⟩
        have g1' : (b.lo d : K) ≤ (pos c d : K) := by exact_mod_cast g1
        have g2' : (pos c d : K) + 1 ≤ (b.lo d : K) + (b.num d : K) := by
          have : pos c d + 1 ≤ b.lo d + b.num d := by omega
          exact_mod_cast this
        constructor <;> linarith
    constructor
    · intro h d hd
      have := h d.val hd
      simp only [blockLimits, d.isLt, dif_pos, Fin.eta] at this
      exact (one d hd).1 this
    · intro h d hd
      have hd3 : d < 3 := by omega
      have := (one ⟨d, hd3⟩ hd).2 (h ⟨d, hd3⟩ hd)
      simp only [blockLimits, hd3, dif_pos]
      exact this
  -- which block a cell belongs to
  have hfind : ∀ c ∈ cellList, ∃ i : Fin blocks.length,
      findBlock dim (blocks.map (blockLimits r.lo (fun d => (r.hi d - r.lo d) /
        (if h : d < 3 then (r.n ⟨d, h⟩ : K) else 1)))) (ccen c) = some i.val ∧
      InBlock dim blocks[i] (pos c) ∧ ∀ j : Fin blocks.length, InBlock dim blocks[j] (pos c) → j = i := by
    intro c hc
    obtain ⟨i, hi, hu⟩ := hT.cover (pos c) (hpos c hc)
    refine ⟨i, ?_, hi, hu⟩
    rw [findBlock, List.findIdx?_eq_some_iff_getElem]
    refine ⟨by simp, ?_, ?_⟩
    · rw [List.getElem_map, key c hc]; exact hi
    · intro j hj
      rw [List.getElem_map, key c hc]
      intro hb
      have hjl : j < blocks.length := by omega
      have := hu ⟨j, hjl⟩ hb
      rw [← this] at hj
      simp at hj
  classical
  let f : Nat → Nat := fun c => if h : c ∈ cellList then (hfind c h).choose.val else 0
  have hfs : ∀ c (h : c ∈ cellList), f c = (hfind c h).choose.val := by
    intro c h; simp only [f, dif_pos h]
  have hfl : ∀ c ∈ cellList, f c < numParts := by
    intro c h; rw [hfs c h, ← hlen]; exact (hfind c h).choose.isLt
  have hbk := bucket_eq f cellList (List.replicate numParts []) (by simpa using hfl)
  have e : ((List.replicate numParts ([] : List Nat)).mapIdx fun i l =>
      l ++ cellList.filter fun c => f c = i) =
      (List.range numParts).map fun i => cellList.filter fun c => f c = i := by
    apply List.ext_getElem
    · simp
    · intro i h1 h2; simp
  rw [e] at hbk
  refine ⟨blocks, _, hok fuel hf, hT, ?_, ?_, filter_parts_perm f numParts cellList hfl, ?_⟩
  · simp only [byBlocks, hok fuel hf]
    rw [distribute_eq_bucket dim _ ccen f cellList _ ?_, hbk]
    intro c hc
    rw [hfs c hc]
    exact (hfind c hc).choose_spec.1
  · simp
  · intro i hi hb c
    simp only [List.getElem_map, List.getElem_range, List.mem_filter, decide_eq_true_eq]
    constructor
    · rintro ⟨hc, rfl⟩
      refine ⟨hc, ?_⟩
      have := (hfind c hc).choose_spec.2.1
      simp only [hfs c hc]; exact this
    · rintro ⟨hc, hin⟩
      refine ⟨hc, ?_⟩
      have := (hfind c hc).choose_spec.2.2 ⟨i, hb⟩ hin
      rw [hfs c hc, ← this]

example : ∃ blocks parts, blockPartition 2 2 (fun _ => 2) 2 = .ok blocks ∧
      byBlocks (K := Rat) 2 2 2 (some ⟨fun _ => 0, fun _ => 2, fun _ => 2⟩) [0, 1, 2, 3]
        (fun c d => if d = 0 then (c % 2 : Nat) + 1 / 2 else (c / 2 : Nat) + 1 / 2) = .ok (some parts) ∧
      parts.length = 2 ∧ blocks.length = 2 ∧ parts.flatten.Perm [0, 1, 2, 3] := by
  obtain ⟨bl, ps, hb, _, h, hl, hp, _⟩ := byBlocks_partition (K := Rat) 2 2 ⟨fun _ => 0, fun _ => 2, fun _ => 2⟩ [0, 1, 2, 3]
    (fun c d => if d = 0 then c % 2 else c / 2)
    (fun c d => if d = 0 then (c % 2 : Nat) + 1 / 2 else (c / 2 : Nat) + 1 / 2)
    (by omega) (by omega) (by decide) (by omega) (by decide) (by simp)
    (by
      intro c hc d _
      simp only [List.mem_cons, List.not_mem_nil, or_false] at hc
      rcases hc with rfl | rfl | rfl | rfl <;> dsimp only <;> split <;> omega)
    (by
      intro c hc d hd
      simp only [List.mem_cons, List.not_mem_nil, or_false] at hc
      have : d = 0 ∨ d = 1 := by
        obtain ⟨d, h⟩ := d; simp only at hd
        have : d = 0 ∨ d = 1 := by omega
        rcases this with rfl | rfl <;> simp
      rcases this with rfl | rfl <;> rcases hc with rfl | rfl | rfl | rfl <;> norm_num)
    2 (by omega)
  obtain ⟨bl', hbl, hok⟩ := blockPartition_returns_request 2 (fun _ => 2) 2 (by omega) (by omega) (by decide)
    (by omega) (by decide)
  have := hok 2 (by omega)
  simp only [hb, Except.ok.injEq] at this
  exact ⟨bl, ps, hb, h, hl, by rw [this]; exact hbl, hp⟩

/-- **C63 is false of the code.** When the mesh is not recognised as regular, the BLOCK partitioner returns
normally with all parts empty: every owned cell is lost. -/
theorem byBlocks_unrecognised_loses_cells {K : Type} [Field K] [LinearOrder K] (fuel dim numParts : Nat) (cellList : List Nat)
    (ccen : Nat → Nat → K) (hc : cellList ≠ []) :
    ∃ parts, byBlocks fuel dim numParts none cellList ccen = .ok (some parts) ∧
      ¬ parts.flatten.Perm cellList := by
  refine ⟨_, rfl, ?_⟩
  have : (List.replicate numParts ([] : List Nat)).flatten = [] := by
    rw [List.flatten_eq_nil_iff]
    intro l hl
    exact (List.mem_replicate.1 hl).2
  rw [this]
  intro h
  exact hc (List.nil_perm.1 h)

example : ([3, 4] : List Nat) ≠ [] := by decide

end Jali.Partition
