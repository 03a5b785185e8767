import Verif.Proof.MeshSimple1D
/-! Property theorems C14: the 1D structured mesh on `nx + 1` points (`nx` cells). -/
namespace Jali.Simple1D

/-- **C14.** Cell `c` has nodes `c`, `c+1` and faces `c`, `c+1` with directions -1, +1; face `f` has
node `f`. -/
theorem downward (nx : Nat) :
    (∀ c < numCells nx, cellGetNodes nx c = [c, c + 1] ∧ cellGetFaces nx c = [c, c + 1] ∧
      cellGetFaceDirs nx c = [-1, 1]) ∧
    ∀ f < numFaces nx, faceGetNodes nx f = [f] := by
  refine ⟨fun c hc => ⟨?_, ?_, ?_⟩, fun f hf => ?_⟩
  · exact read2 nx (fun c => [c, c + 1]) (fun _ => rfl) _ _ rfl c hc
  · exact read2 nx (fun c => [c, c + 1]) (fun _ => rfl) _ _ rfl c hc
  · exact read2 nx (fun _ => [-1, 1]) (fun _ => rfl) _ _ rfl c hc
  · have : Functional (faceToNodeWrites nx) := by
      intro a x y hx hy
      simp only [faceToNodeWrites, List.mem_map, List.mem_range, Prod.mk.injEq] at hx hy
      omega
    simp only [faceGetNodes, List.range_one, List.map_cons, List.map_nil]
    rw [runWrites_mem _ this _ _ f]
    simp only [faceToNodeWrites, List.mem_map, List.mem_range, Prod.mk.injEq]
    exact ⟨f, hf, by omega, rfl⟩

example : cellGetNodes 3 2 = [2, 3] ∧ cellGetFaceDirs 3 2 = [-1, 1] := by decide

/-- **C14, upward.** `node_get_cells`, `node_get_faces` and `face_get_cells` are exact inverses of the downward
adjacencies, list each entity once, and the per-node slots are never overrun. -/
theorem upward (nx : Nat) :
    (∀ n < numNodes nx, (nodeGetCells nx n).Nodup ∧
      ∀ c, c ∈ nodeGetCells nx n ↔ c < numCells nx ∧ n ∈ cellGetNodes nx c) ∧
    (∀ n < numNodes nx, (nodeGetFaces nx n).Nodup ∧
      ∀ f, f ∈ nodeGetFaces nx n ↔ f < numFaces nx ∧ n ∈ faceGetNodes nx f) ∧
    (∀ f < numFaces nx, (faceGetCells nx f).Nodup ∧
      ∀ x : Int, x ∈ faceGetCells nx f ↔
        ∃ c : Nat, x = c ∧ c < numCells nx ∧ f ∈ cellGetFaces nx c) := by
  obtain ⟨hd1, hd2⟩ := downward nx
  refine ⟨fun n hn => ?_, fun n hn => ?_, fun f hf => ?_⟩
  · rw [nodeGetCells, slotRead_runAppends _ (cap_cells nx), valsFor_cells]
    refine ⟨List.nodup_range.filter _, fun c => ?_⟩
    simp only [List.mem_filter, List.mem_range, decide_eq_true_eq]
    constructor
    · rintro ⟨h1, h2⟩; refine ⟨h1, ?_⟩; rw [(hd1 c h1).1]; simpa using h2
    · rintro ⟨h1, h2⟩; refine ⟨h1, ?_⟩; rw [(hd1 c h1).1] at h2; simpa using h2
  · rw [nodeGetFaces, slotRead_runAppends _ (cap_faces nx), valsFor_faces]
    refine ⟨List.nodup_range.filter _, fun f => ?_⟩
    simp only [List.mem_filter, List.mem_range, decide_eq_true_eq]
    constructor
    · rintro ⟨h1, h2⟩; refine ⟨h1, ?_⟩; rw [hd2 f h1]; simpa using h2
    · rintro ⟨h1, h2⟩; refine ⟨h1, ?_⟩; rw [hd2 f h1] at h2; simpa using h2
  · have hf' : f < nx + 1 := hf
    simp only [faceGetCells, ftc_even, ftc_odd nx f hf']
    refine ⟨?_, fun x => ?_⟩
    · by_cases h1 : f < nx <;> by_cases h2 : 0 < f
      · have a1 : ((f : Nat) : Int) ≠ -1 := by omega
        have a2 : ((f - 1 : Nat) : Int) ≠ -1 := by omega
        simp only [h1, h2, if_true, ne_eq, a1, a2, not_false_eq_true]
        simp; omega
      · simp [h1, h2]
      · simp only [h1, h2, if_true, if_false]
        simp
      · simp [h1, h2]
    · constructor
      · intro h
        by_cases h1 : f < nx <;> by_cases h2 : 0 < f <;>
          simp only [h1, h2, if_true, if_false] at h
        · have a1 : ((f : Nat) : Int) ≠ -1 := by omega
          have a2 : ((f - 1 : Nat) : Int) ≠ -1 := by omega
          simp only [ne_eq, a1, a2, not_false_eq_true, if_true, List.mem_append, List.mem_singleton] at h
          rcases h with h | h
          · exact ⟨f, h, h1, by rw [(hd1 f h1).2.1]; simp⟩
          · refine ⟨f - 1, h, by simp only [numCells]; omega, ?_⟩
            rw [(hd1 (f - 1) (by simp only [numCells]; omega)).2.1]
            simp; omega
        · have a1 : ((f : Nat) : Int) ≠ -1 := by omega
          simp [a1] at h
          exact ⟨f, h, h1, by rw [(hd1 f h1).2.1]; simp⟩
        · have a2 : ((f - 1 : Nat) : Int) ≠ -1 := by omega
          simp only [ne_eq, a2, not_true_eq_false, not_false_eq_true, if_true, if_false, List.nil_append,
            List.mem_singleton] at h
          refine ⟨f - 1, h, by simp only [numCells]; omega, ?_⟩
          rw [(hd1 (f - 1) (by simp only [numCells]; omega)).2.1]
          simp; omega
        · simp at h
      · rintro ⟨c, rfl, hc, h⟩
        rw [(hd1 c hc).2.1] at h
        have hc' : c < nx := hc
        simp only [List.mem_cons, List.not_mem_nil, or_false] at h
        simp only [List.mem_append]
        rcases h with rfl | rfl
        · left
          have a1 : ((f : Nat) : Int) ≠ -1 := by omega
          simp [hc', a1]
        · right
          have a1 : ((c : Nat) : Int) ≠ -1 := by omega
          simp [a1]

example : (2 : Nat) ∈ nodeGetCells 3 2 ∧ (1 : Int) ∈ faceGetCells 3 2 := by
  refine ⟨(((upward 3).1 2 (by decide)).2 2).2 (by decide), (((upward 3).2.2 2 (by decide)).2 1).2 ?_⟩
  exact ⟨1, rfl, by decide, by decide⟩

end Jali.Simple1D
