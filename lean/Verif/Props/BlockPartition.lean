import Verif.Proof.BlockPartition
/-! Property theorems C01, C02, C03: `block_partition_regular_mesh`. -/
namespace Jali.BlockPartition
open Spec

/-- **C01.** For every grid in 1, 2 or 3 dimensions with at least one cell in each direction and every
request `1 ≤ nreq ≤ number of cells`, the function terminates (within `nreq` iterations of either loop)
and returns exactly `nreq` blocks. -/
theorem blockPartition_returns_request (dim : Nat) (n : Fin 3 → Nat) (nreq : Nat)
    (h1 : 1 ≤ dim) (h3 : dim ≤ 3) (hn : ∀ d : Fin 3, d.val < dim → 0 < n d)
    (hr : 1 ≤ nreq) (hv : nreq ≤ gridSize dim n) :
    ∃ bs : List Block, bs.length = nreq ∧
      ∀ fuel, nreq ≤ fuel → blockPartition fuel dim n nreq = .ok bs := by
  obtain ⟨l, _, h2, h4⟩ := blockPartition_spec h1 hn hr (by rw [← gridSize_eq_vol h1 h3]; exact hv)
  exact ⟨l, h2, h4⟩

example : ∃ bs : List Block, bs.length = 7 ∧
    ∀ fuel, 7 ≤ fuel → blockPartition fuel 3 (fun d => if d = 0 then 5 else if d = 1 then 4 else 3) 7
      = .ok bs :=
  blockPartition_returns_request 3 _ 7 (by omega) (by omega) (by decide) (by omega) (by decide)

/-- **C02.** The blocks returned tile the grid: every cell is in exactly one block, all blocks are
non-empty and inside the grid. -/
theorem blockPartition_tiles (dim : Nat) (n : Fin 3 → Nat) (nreq : Nat)
    (h1 : 1 ≤ dim) (h3 : dim ≤ 3) (hn : ∀ d : Fin 3, d.val < dim → 0 < n d)
    (hr : 1 ≤ nreq) (hv : nreq ≤ gridSize dim n)
    (fuel : Nat) (hf : nreq ≤ fuel) (bs : List Block)
    (hbs : blockPartition fuel dim n nreq = .ok bs) : Tiles dim n bs := by
  obtain ⟨l, hg, h2, h4⟩ := blockPartition_spec h1 hn hr (by rw [← gridSize_eq_vol h1 h3]; exact hv)
  rw [h4 fuel hf] at hbs
  cases hbs
  exact ⟨fun c hc => exists_unique_of_sum _ (hg.cnt c hc), fun b hb => (hg.ok b hb).nonempty,
    fun b hb => (hg.ok b hb).inside⟩

example : ∃ bs, blockPartition 9 2 (fun d => if d = 0 then 3 else 5) 4 = .ok bs ∧
    Tiles 2 (fun d => if d = 0 then 3 else 5) bs := by
  obtain ⟨bs, _, h⟩ := blockPartition_returns_request 2 (fun d => if d = 0 then 3 else 5) 4
    (by omega) (by omega) (by decide) (by omega) (by decide)
  exact ⟨bs, h 9 (by omega), blockPartition_tiles 2 _ 4 (by omega) (by omega) (by decide) (by omega)
    (by decide) 9 (by omega) bs (h 9 (by omega))⟩

/-- **C03 (part that holds).** A positive request is either honoured exactly or stopped by the `assert`;
missing: request 0, see the two theorems below. -/
theorem blockPartition_honours_or_rejects_partial (dim : Nat) (n : Fin 3 → Nat) (nreq : Nat)
    (h1 : 1 ≤ dim) (h3 : dim ≤ 3) (hn : ∀ d : Fin 3, d.val < dim → 0 < n d) (hr : 1 ≤ nreq) :
    (∃ bs : List Block, bs.length = nreq ∧
      ∀ fuel, nreq ≤ fuel → blockPartition fuel dim n nreq = .ok bs) ∨
    (gridSize dim n < nreq ∧ ∀ fuel, blockPartition fuel dim n nreq = .error .assertFailed) := by
  by_cases hv : nreq ≤ gridSize dim n
  · exact Or.inl (blockPartition_returns_request dim n nreq h1 h3 hn hr hv)
  · refine Or.inr ⟨by omega, fun fuel => ?_⟩
    simp only [blockPartition, ncellsTotal_eq, ← gridSize_eq_vol h1 h3, hv, if_false]

example : ∀ fuel, blockPartition fuel 1 (fun _ => 3) 4 = .error .assertFailed := by
  rcases blockPartition_honours_or_rejects_partial 1 (fun _ => 3) 4 (by omega) (by omega) (by simp)
    (by omega) with ⟨bs, _, h⟩ | ⟨_, h⟩
  · have := h 4 (by omega)
    simp [blockPartition, ncellsTotal] at this
  · exact h

/-- **C03 is false of the code (i).** When zero blocks are requested, the function never returns zero
blocks: on every grid it returns two, if it returns at all. -/
theorem blockPartition_zero_request_gives_two (dim : Nat) (n : Fin 3 → Nat)
    (h1 : 1 ≤ dim) (hn : ∀ d : Fin 3, d.val < dim → 0 < n d)
    (fuel : Nat) (bs : List Block) (h : blockPartition fuel dim n 0 = .ok bs) : bs.length = 2 := by
  simp only [blockPartition, Nat.zero_le, if_true, bisect] at h
  have hz : populate dim (bInit dim n) = [{
      lo := fun d => if d = 0 then 0 * (bInit dim n).nblockcellsInDir 0
        else if d = 1 then (if dim > 1 then 0 * (bInit dim n).nblockcellsInDir 1 else 0)
        else (if dim > 2 then 0 * (bInit dim n).nblockcellsInDir 2 else 0)
      num := fun d => if d = 0 then (bInit dim n).nblockcellsInDir 0
        else if d = 1 then (if dim > 1 then (bInit dim n).nblockcellsInDir 1 else 0)
        else (if dim > 2 then (bInit dim n).nblockcellsInDir 2 else 0) }] := rfl
  simp only [show ¬ (0 > 1) by omega, if_false, hz] at h
  have h0 : (0 : Nat) < n 0 := hn 0 h1
  generalize hb : (Block.mk _ _) = b at h
  have hbl : isBlank b = false := by
    subst hb
    simp [isBlank, bInit, show 0 < dim from h1]; omega
  simp only [bInit, ne_eq, Nat.one_ne_zero, not_false_eq_true, if_true] at h
  clear hz hb hn h0
  induction fuel with
  | zero => simp [splitLoop] at h
  | succ f ih =>
    simp only [splitLoop] at h
    rcases dirLoop_single (dim := dim) [0, 1, 2] b hbl with hd | ⟨x, y, hd⟩
    · simp only [hd] at h
      exact ih h
    · simp only [hd, if_true] at h
      cases h; rfl

example : ∃ bs, blockPartition 3 1 (fun _ => 2) 0 = .ok bs ∧ bs.length = 2 := by
  refine ⟨_, rfl, rfl⟩

/-- **C03 is false of the code (ii).** On a grid with a single cell, a request for zero blocks never
terminates: no amount of fuel suffices. -/
theorem blockPartition_zero_request_diverges (fuel : Nat) :
    blockPartition fuel 1 (fun _ => 1) 0 = .error .outOfFuel := by
  have hloop : ∀ fuel, splitLoop 1 0 fuel (populate 1 (bInit 1 (fun _ => 1))) = .error .outOfFuel := by
    intro fuel
    induction fuel with
    | zero => rfl
    | succ f ih =>
      have : dirLoop 1 0 [0, 1, 2] (populate 1 (bInit 1 (fun _ => 1))) =
          (populate 1 (bInit 1 (fun _ => 1)), false) := by rfl
      simp only [splitLoop, this]
      exact ih
  exact hloop fuel

end Jali.BlockPartition
