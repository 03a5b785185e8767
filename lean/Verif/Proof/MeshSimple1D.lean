import Verif.Model.MeshSimple1D
import Verif.Proof.Blocks
/-! Helper lemmas for the 1D structured mesh. -/
namespace Jali.Simple1D

theorem read2 {α : Type} (nx : Nat) (vals : Nat → List α) (hl : ∀ i, (vals i).length = 2) (v : Nat → α)
    (ws : List (Nat × α)) (hw : ws = (List.range nx).flatMap fun i => blockAt 2 i (vals i))
    (c : Nat) (hc : c < nx) :
    (List.range 2).map (fun r => runWrites v ws (2 * c + r)) = vals c := by
  subst hw
  exact read_block (List.range nx) id vals 2 (fun i _ => hl i) (fun _ _ _ _ h => h) v c (by simpa using hc)

theorem valsFor_cells (nx n : Nat) : valsFor (nodeToCellOps nx) n =
    (List.range nx).filter fun c => n = c ∨ n = c + 1 := by
  have : nodeToCellOps nx = (List.range nx).flatMap fun c => [c, c + 1].map fun k => (k, c) := rfl
  rw [this, valsFor_items (List.range nx) (fun c => [c, c + 1]) (fun c => c) n (by simp)]
  simp

theorem cap_cells (nx n : Nat) : (valsFor (nodeToCellOps nx) n).length < 3 := by
  rw [valsFor_cells]
  have : ((List.range nx).filter fun c => n = c ∨ n = c + 1) ⊆ [n, n - 1] := by
    intro c hc
    simp only [List.mem_filter, decide_eq_true_eq] at hc
    simp only [List.mem_cons, List.not_mem_nil, or_false]
    omega
  have := length_le_of_nodup_subset (List.nodup_range.filter _) this
  simp only [List.length_cons, List.length_nil] at this
  omega

theorem valsFor_faces (nx n : Nat) : valsFor (nodeToFaceOps nx) n =
    (List.range (nx + 1)).filter fun f => n = f := by
  have : nodeToFaceOps nx = (List.range (nx + 1)).flatMap fun c => [c].map fun k => (k, c) := by
    simp [nodeToFaceOps]; induction nx + 1 with
    | zero => rfl
    | succ m ih => rw [List.range_succ]; simp [ih]
  rw [this, valsFor_items (List.range (nx + 1)) (fun c => [c]) (fun c => c) n (by simp)]
  simp

theorem cap_faces (nx n : Nat) : (valsFor (nodeToFaceOps nx) n).length < 2 := by
  rw [valsFor_faces]
  have : ((List.range (nx + 1)).filter fun c => n = c) ⊆ [n] := by
    intro c hc
    simp only [List.mem_filter, decide_eq_true_eq] at hc
    simp only [List.mem_cons, List.not_mem_nil, or_false]
    omega
  have := length_le_of_nodup_subset (List.nodup_range.filter _) this
  simp only [List.length_cons, List.length_nil] at this
  omega

theorem mem_ftc (nx a : Nat) (x : Int) : (a, x) ∈ faceToCellWrites nx ↔
    ∃ c : Nat, c < nx ∧ x = c ∧ (a = 2 * (c + 1) + 1 ∨ a = 2 * c) := by
  simp only [faceToCellWrites, List.mem_flatMap, List.mem_range, List.mem_cons, List.not_mem_nil, or_false,
    Prod.mk.injEq]
  constructor
  · rintro ⟨c, hc, ⟨h, h'⟩ | ⟨h, h'⟩⟩ <;> exact ⟨c, hc, h', by omega⟩
  · rintro ⟨c, hc, h, h' | h'⟩
    · exact ⟨c, hc, Or.inl ⟨h', h⟩⟩
    · exact ⟨c, hc, Or.inr ⟨h', h⟩⟩

theorem ftc_functional (nx : Nat) : Functional (faceToCellWrites nx) := by
  intro a x y hx hy
  rw [mem_ftc] at hx hy
  obtain ⟨c, _, rfl, h⟩ := hx
  obtain ⟨c', _, rfl, h'⟩ := hy
  have : c = c' := by omega
  rw [this]

theorem ftc_even (nx f : Nat) : faceToCell nx (2 * f) = if f < nx then (f : Int) else -1 := by
  split
  · next h => exact runWrites_mem _ (ftc_functional nx) _ _ _ ((mem_ftc nx _ _).2 ⟨f, h, rfl, by omega⟩)
  · next h =>
    apply runWrites_not_mem
    intro x hx
    obtain ⟨c, hc, _, h'⟩ := (mem_ftc nx _ _).1 hx
    omega

theorem ftc_odd (nx f : Nat) (hf : f < nx + 1) :
    faceToCell nx (2 * f + 1) = if 0 < f then ((f - 1 : Nat) : Int) else -1 := by
  split
  · next h =>
    exact runWrites_mem _ (ftc_functional nx) _ _ _ ((mem_ftc nx _ _).2 ⟨f - 1, by omega, rfl, by omega⟩)
  · next h =>
    apply runWrites_not_mem
    intro x hx
    obtain ⟨c, hc, _, h'⟩ := (mem_ftc nx _ _).1 hx
    omega

end Jali.Simple1D
