import Verif.Model.StateOrphans
import Verif.Props.State
import Verif.Props.StateCopy
/-! Property theorems C153: state vectors that outlive their state manager. -/
namespace Jali.St
open Jali.MSet
variable {V : Type}

/-! ### while the manager lives -/

theorem weakIndex_alive (s : State V) (c m : Nat) (h : ∀ a ∈ s.mats, a < s.w.heap.length) :
    weakIndex (some s) c m = cellIndexInMaterial s c m := by
  unfold weakIndex cellIndexInMaterial weakMaterialSet weakNumMaterials numMaterials
  dsimp only
  by_cases hm : m < s.mats.length
  · rw [if_pos hm]
    have hlt := h _ (List.getElem_mem hm)
    have : matSet s m = some (s.w.heap[s.mats[m]]'hlt) := by
      unfold matSet; rw [List.getElem?_eq_getElem hm]; dsimp only; rw [List.getElem?_eq_getElem hlt]
    rw [this]
    rfl
  · rw [if_neg hm]
    have : matSet s m = none := by
      unfold matSet; rw [List.getElem?_eq_none (by omega)]
    rw [this]

theorem weakCells_alive (s : State V) (as : List Nat) : ∀ m : Nat, s.mats.drop m = as →
    weakCells (some s) m as = allCells s.w.heap as := by
  induction as with
  | nil => intro m _; rfl
  | cons a as ih =>
    intro m hm
    have h1 : s.mats[m]? = some a := by
      have := congrArg (fun l : List Nat => l[0]?) hm
      simpa using this
    have h2 : s.mats.drop (m + 1) = as := by
      have := congrArg (fun l : List Nat => l.drop 1) hm
      simpa [List.drop_drop] using this
    have h3 : matSet s m = s.w.heap[a]? := by unfold matSet; rw [h1]
    unfold weakCells allCells weakMaterialSet
    dsimp only
    rw [h3, ih (m + 1) h2]
    cases s.w.heap[a]? <;> rfl

theorem weakCells_congr (st : Option (State V)) (l : List Nat) : ∀ (l' : List Nat) (m : Nat), l.length = l'.length →
    weakCells st m l = weakCells st m l' := by
  induction l with
  | nil => intro l' m h; cases l' with
    | nil => rfl
    | cons _ _ => simp at h
  | cons x l ih => intro l' m h; cases l' with
    | nil => simp at h
    | cons y l' => unfold weakCells; rw [ih l' (m + 1) (by simpa using h)]

theorem weakCells_all (s : State V) :
    weakCells (some s) 0 (List.range (weakNumMaterials (some s))) = allCells s.w.heap s.mats := by
  rw [weakCells_congr _ _ s.mats 0 (by simp [weakNumMaterials, numMaterials])]
  exact weakCells_alive s s.mats 0 rfl

/-- **C153**, while the manager lives (the ground of C43, C79): reading, writing and assigning through the weak
pointer are the operations with the manager at hand. -/
theorem weak_alive (zero x : V) (s : State V) (v : Vec) (i j : Nat) (layout : Layout) (data : List (List V))
    (h : ∀ a ∈ s.mats, a < s.w.heap.length) :
    weakRead zero (some s) s.blocks v i j layout = multiRead zero s v i j layout ∧
    ((weakWrite (some s) s.blocks v i j layout x).map fun b => { s with blocks := b }) =
      multiWrite s v i j layout x ∧
    ((weakFill (some s) s.blocks v x).map fun b => { s with blocks := b }) = multiFill s v x ∧
    ((weakAssign (some s) s.blocks v layout data).map fun b => { s with blocks := b }) =
      multiAssign s v layout data := by
  refine ⟨?_, ?_, ?_, ?_⟩
  · unfold weakRead multiRead; rw [weakIndex_alive s _ _ h]; rfl
  · unfold weakWrite multiWrite
    rw [weakIndex_alive s _ _ h]
    cases cellIndexInMaterial s (cellOf i j layout) (matOf i j layout) with
    | error e => rfl
    | ok cloc =>
      dsimp only
      by_cases hc : cloc = -1
      · rw [if_pos hc, if_pos hc]; rfl
      · rw [if_neg hc, if_neg hc]
        cases s.blocks[v.data]? with
        | none => rfl
        | some b =>
          cases b with
          | uni l => rfl
          | multi l =>
            dsimp only
            cases slot l (matOf i j layout) cloc <;> rfl
  · unfold weakFill multiFill
    rw [weakCells_all]
    cases allCells s.w.heap s.mats with
    | error e => rfl
    | ok cells =>
      dsimp only
      cases s.blocks[v.data]? with
      | none => rfl
      | some b => cases b <;> rfl
  · unfold weakAssign multiAssign
    rw [weakCells_all]
    cases allCells s.w.heap s.mats with
    | error e => rfl
    | ok cells =>
      dsimp only
      cases s.blocks[v.data]? with
      | none => rfl
      | some b =>
        cases b with
        | uni l => rfl
        | multi l => dsimp only; cases assignFrom layout data 0 cells <;> rfl

/-! ### after the manager is gone -/

/-- **C153** fails for multi-material vectors: once the manager is gone no element can be read or written — the
program aborts, whatever the vector, material and cell. -/
theorem orphan_elements (zero x : V) (blocks : List (Block V)) (v : Vec) (i j : Nat) (layout : Layout) :
    weakRead zero none blocks v i j layout = .error .assertFailed ∧
    weakWrite none blocks v i j layout x = .error .assertFailed := by
  unfold weakRead weakWrite weakIndex weakNumMaterials
  simp

/-- **C153** fails for multi-material vectors: `assign`, of a value or of an array, succeeds, leaves the vector without
any material and any value, and touches no other vector. -/
theorem orphan_assign (x : V) (blocks : List (Block V)) (v : Vec) (layout : Layout) (data l : List (List V))
    (hl : rows blocks v = some l) :
    ∃ b, weakFill none blocks v x = .ok b ∧ weakAssign none blocks v layout data = .ok b ∧ rows b v = some [] ∧
      ∀ u : Vec, u.data ≠ v.data → rows b u = rows blocks u ∧ elements b u = elements blocks u := by
  unfold rows at hl
  split at hl
  · rename_i l' hb
    cases hl
    have hlt := (List.getElem?_eq_some_iff.1 hb).1
    refine ⟨blocks.set v.data (.multi []), ?_, ?_, ?_, ?_⟩
    · simp only [weakFill, weakNumMaterials, List.range_zero, weakCells, hb, assignValue, List.map_nil]
    · simp only [weakAssign, weakNumMaterials, List.range_zero, weakCells, hb, assignFrom]
    · simp only [rows, List.getElem?_set_self hlt]
    · intro u hu
      simp only [rows, elements, List.getElem?_set_ne (Ne.symm hu), and_self]
  · cases hl

/-- **C153** for the members that do not ask the manager. A copy taken from any vector in any reachable state; then any
history of the manager that does not write through the copy, then the manager is destroyed: the copy has the elements
(or rows) its original had when it was copied. -/
theorem orphan_copy_partial (zero : V) (count : Count) (mesh : Nat) (w : Reg.World) (ops ops' : List (Op V))
    (ps ps' : List (Option Nat)) (s s1 s2 : State V) (h : run zero count (create mesh w) ops = .ok (ps, s)) (v u : Vec)
    (hc : copyVec s v = .ok (u, s1)) (h' : run zero count s1 ops' = .ok (ps', s2))
    (ht : ∀ o ∈ ops', ∀ t, o.target = some t → t.data ≠ u.data) :
    elements s2.blocks u = elements s.blocks v ∧ rows s2.blocks u = rows s.blocks v := by
  obtain ⟨-, -, -, hk, -⟩ := copy_is_deep mesh w zero count ops ps s s1 h v u hc
  have he : s2.blocks[u.data]? = s.blocks[v.data]? := hk ops' ps' s2 h' ht
  unfold elements rows
  rw [he]
  exact ⟨rfl, rfl⟩

/-! ### examples -/

/-- a manager with a material and a multi-material vector -/
def orphanOps : List (Op Int) :=
  [.addMaterial "steel" [1, 2], .add ⟨.MULTIVAL, 0, "rho", .mesh 0, .CELL, .ALL, .value 7⟩,
   .add ⟨.UNIVAL, 0, "p", .mesh 0, .CELL, .ALL, .value 3⟩]

/-- the two vectors -/
abbrev orphanRho : Vec := ⟨"rho", .mesh 0, .CELL, .ALL, .MULTIVAL, 0, 0⟩

example : ∃ ps s, run 0 exCount (create 0 exWorld) orphanOps = .ok (ps, s) ∧
    (∀ a ∈ s.mats, a < s.w.heap.length) ∧ rows s.blocks orphanRho = some [[7, 7]] ∧ weakRead 0 (some s) s.blocks orphanRho 0 1 .MATERIAL_CENTRIC = .ok 7 := by
  have h : (match run 0 exCount (create 0 exWorld) orphanOps with
    | .ok (_, s) => decide ((∀ a ∈ s.mats, a < s.w.heap.length) ∧ rows s.blocks orphanRho = some [[7, 7]] ∧
        weakRead 0 (some s) s.blocks orphanRho 0 1 .MATERIAL_CENTRIC = .ok 7)
    | .error _ => false) = true := by decide +kernel
  cases hr : run 0 exCount (create 0 exWorld) orphanOps with
  | error e => rw [hr] at h; cases h
  | ok r =>
    rw [hr] at h
    exact ⟨r.1, r.2, rfl, of_decide_eq_true h⟩

/-- the univalued vector -/
abbrev orphanP : Vec := ⟨"p", .mesh 0, .CELL, .ALL, .UNIVAL, 0, 1⟩

example : (match run 0 exCount (create 0 exWorld) orphanOps with
    | .ok (_, s) =>
      (match copyVec s orphanP with
      | .ok (u, s1) =>
        (match run 0 exCount s1 [.uniWrite orphanP 0 9, .addMaterial "air" [0]] with
        | .ok (_, s2) => decide (elements s2.blocks u = some [3, 3, 3, 3] ∧ elements s2.blocks orphanP = some [9, 3, 3, 3])
        | .error _ => false)
      | .error _ => false)
    | .error _ => false) = true := by decide +kernel

end Jali.St
