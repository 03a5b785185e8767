import Verif.Props.RemMaterial
/-! Property theorems C43: reading, writing and assigning multi-material vectors. -/
namespace Jali.St
open Jali.MSet
variable {V : Type}

/-- first argument of `operator()` for cell `c` and material `m` in a layout -/
def firstArg (layout : Layout) (c m : Nat) : Nat :=
  match layout with
  | .CELL_CENTRIC => c
  | .MATERIAL_CENTRIC => m

/-- second argument of `operator()` for cell `c` and material `m` in a layout -/
def secondArg (layout : Layout) (c m : Nat) : Nat :=
  match layout with
  | .CELL_CENTRIC => m
  | .MATERIAL_CENTRIC => c

/-- the value a 2D array gives for cell `c` and material `m` in a layout, if it is large enough -/
def given (layout : Layout) (data : List (List V)) (c m : Nat) : Option V :=
  (data[firstArg layout c m]?).bind fun row => row[secondArg layout c m]?

theorem given_eq (layout : Layout) (data : List (List V)) (c m : Nat) : elemAt layout data c m = given layout data c m := by
  cases layout with
  | CELL_CENTRIC =>
    simp only [elemAt, elem, given, firstArg, secondArg]
    cases data[c]? <;> rfl
  | MATERIAL_CENTRIC =>
    simp only [elemAt, elem, given, firstArg, secondArg]
    cases data[m]? <;> rfl

theorem args_mat (layout : Layout) (c m : Nat) :
    matOf (firstArg layout c m) (secondArg layout c m) layout = m ∧
    cellOf (firstArg layout c m) (secondArg layout c m) layout = c := by
  cases layout <;> exact ⟨rfl, rfl⟩

/-- the position of a cell in a material that never got cells late -/
theorem index_of {w : Reg.World} {s : State V} {A : Mats} (hi : MInv w s A) {m : Nat} {x : Mat}
    (hx : A.mats[m]? = some x) (hl : x.late = false) : ∃ o : Obj, matSet s m = some o ∧ o.all.Perm x.cells ∧ o.all.Nodup ∧
      ∀ c, c < (w.view .CELL).nAll → cellIndexInMaterial s c m = .ok (posOrNeg o.all c) := by
  obtain ⟨a, o, -, ho, -, hs⟩ := matSet_of hi hx
  obtain ⟨hp, he⟩ := hs.exact hl
  refine ⟨o, ho, hs.perm, hp.nodup, fun c hc => ?_⟩
  simp only [cellIndexInMaterial, ho, he c hc]
  rfl

theorem read_eq {zero : V} {s : State V} {v : Vec} {lay : Layout} {c m : Nat} {i : Int}
    (h : cellIndexInMaterial s c m = .ok i) : multiRead zero s v (firstArg lay c m) (secondArg lay c m) lay =
      if i ≠ -1 then
        (match s.blocks[v.data]? with
        | some (.multi l) => slot l m i
        | _ => .error .undefinedBehaviour)
      else .ok zero := by
  unfold multiRead
  rw [(args_mat lay c m).1, (args_mat lay c m).2, h]
  rfl

theorem posOrNeg_ne {l : List Nat} {c : Nat} (h : c ∈ l) : posOrNeg l c ≠ -1 ∧ ¬ posOrNeg l c < 0 ∧
    (posOrNeg l c).toNat = l.idxOf c := by
  rw [posOrNeg_of_mem h]
  refine ⟨by omega, by omega, by simp⟩

/-- **C43**, assign and read. After any allowed history, assign a 2D array in either layout to a multi-material vector
and read in either layout: element (cell, material) is the value the array gives if the cell has the
material, otherwise zero — and writing there is refused.
Missing: materials that got cells by `add_cells_to_material` when they had some already
(`late_cell_unreachable`). -/
theorem multi_assign_read_partial (w : Reg.World) (s s' : State V) (A : Mats) (h : Reached w s A) (zero : V) (v : Vec)
    (layout : Layout) (data : List (List V)) (hr : multiAssign s v layout data = .ok s') (m : Nat) (x : Mat)
    (hx : A.mats[m]? = some x) (hl : x.late = false) (c : Nat) (hc : c < (w.view .CELL).nAll) (lay : Layout) :
    (c ∈ x.cells → ∃ y, given layout data c m = some y ∧
      multiRead zero s' v (firstArg lay c m) (secondArg lay c m) lay = .ok y) ∧
    (c ∉ x.cells → multiRead zero s' v (firstArg lay c m) (secondArg lay c m) lay = .ok zero ∧
      ∀ y, multiWrite s' v (firstArg lay c m) (secondArg lay c m) lay y = .error .thrown) := by
  have hi := h.inv
  obtain ⟨o, ho, hperm, hnd, hidx⟩ := index_of hi hx hl
  unfold multiAssign at hr
  split at hr
  · cases hr
  · rename_i cells hcells
    split at hr
    · rename_i l0 hl0
      split at hr
      · cases hr
      · rename_i xs hxs
        injection hr with hr
        subst hr
        have hidx' : ∀ s2 : State V, s2.w = s.w → s2.mats = s.mats → cellIndexInMaterial s2 c m = .ok (posOrNeg o.all c) := by
          intro s2 h1 h2
          have := hidx c hc
          unfold cellIndexInMaterial matSet at this ⊢
          rw [h1, h2]; exact this
        have hI := hidx' { s with blocks := s.blocks.set v.data (.multi xs) } rfl rfl
        constructor
        · intro hcx
          have hco : c ∈ o.all := hperm.mem_iff.2 hcx
          obtain ⟨a, ha⟩ := getS hi hx
          have hoa : s.w.heap[a]? = some o := by
            unfold matSet at ho; rw [ha] at ho; exact ho
          have hcell := (allCells_spec _ _ _ hcells).2 m a o ha hoa
          obtain ⟨row, hrow, hcopy⟩ := (assignFrom_ok cells hxs).2 m o.all hcell
          rw [Nat.zero_add] at hcopy
          have hk : o.all[o.all.idxOf c]? = some c := by
            rw [List.getElem?_eq_getElem (List.idxOf_lt_length_iff.2 hco)]
            simp
          obtain ⟨y, hy, hyr⟩ := (copyCells_ok o.all hcopy).2 _ c hk
          rw [given_eq] at hy
          refine ⟨y, hy, ?_⟩
          obtain ⟨p1, p2, p3⟩ := posOrNeg_ne hco
          rw [read_eq hI, if_pos p1]
          have hlt : v.data < s.blocks.length := (List.getElem?_eq_some_iff.1 hl0).1
          simp only [List.getElem?_set_self hlt, slot, if_neg p2, p3, elem, hrow, hyr]
        · intro hcx
          have hco : c ∉ o.all := fun hh => hcx (hperm.mem_iff.1 hh)
          rw [posOrNeg_of_not_mem hco] at hI
          refine ⟨by rw [read_eq hI]; simp, fun y => ?_⟩
          unfold multiWrite
          rw [(args_mat lay c m).1, (args_mat lay c m).2, hI]
          simp
    · cases hr

/-- **C43**, assigning succeeds if the array has a value for every cell of every material. -/
theorem multi_assign_succeeds_partial (w : Reg.World) (s : State V) (A : Mats) (h : Reached w s A) (v : Vec)
    (hv : v ∈ s.vecs) (hm : v.vectype = .MULTIVAL) (layout : Layout) (data : List (List V))
    (hd : ∀ (m : Nat) (x : Mat), A.mats[m]? = some x → ∀ c ∈ x.cells, ∃ y, given layout data c m = some y) :
    ∃ s', multiAssign s v layout data = .ok s' := by
  have hi := h.inv
  obtain ⟨cells, hcells⟩ := hi.cellsTotal
  obtain ⟨-, l0, hl0, -⟩ := hi.multi v hv hm
  have hcopy : ∀ (m : Nat) (cs : List Nat), (∀ c ∈ cs, ∃ y, elemAt layout data c m = some y) →
      ∃ xs, copyCells layout data m cs = .ok xs := by
    intro m cs
    induction cs with
    | nil => intro _; exact ⟨[], rfl⟩
    | cons c cs ih =>
      intro hh
      obtain ⟨y, hy⟩ := hh c (by simp)
      obtain ⟨ys, hys⟩ := ih (fun a ha => hh a (by simp [ha]))
      exact ⟨y :: ys, by simp only [copyCells, hy, hys]⟩
  have hassign : ∀ (cs : List (List Nat)) (m : Nat), (∀ (i : Nat) (l : List Nat), cs[i]? = some l →
      ∀ c ∈ l, ∃ y, elemAt layout data c (m + i) = some y) → ∃ xs, assignFrom layout data m cs = .ok xs := by
    intro cs
    induction cs with
    | nil => intro m _; exact ⟨[], rfl⟩
    | cons l cs ih =>
      intro m hh
      obtain ⟨xs, hxs⟩ := hcopy m l (fun c hc => hh 0 l rfl c hc)
      obtain ⟨ys, hys⟩ := ih (m + 1) (fun i l' hl' c hc => by
        have := hh (i + 1) l' (by simpa using hl') c hc
        rwa [show m + 1 + i = m + (i + 1) by omega])
      exact ⟨xs :: ys, by simp only [assignFrom, hxs, hys]⟩
  obtain ⟨xs, hxs⟩ := hassign cells 0 (fun i l hl c hc => by
    have hlt : i < A.mats.length := by
      have h1 := (allCells_spec _ _ _ hcells).1
      have h2 := (List.getElem?_eq_some_iff.1 hl).1
      rw [← hi.len]; omega
    have hx : A.mats[i]? = some A.mats[i] := List.getElem?_eq_getElem hlt
    obtain ⟨a, o, ha, -, ho, hs⟩ := matSet_of hi hx
    rw [(allCells_spec _ _ _ hcells).2 i a o ha ho] at hl
    injection hl with hl
    rw [← hl] at hc
    rw [Nat.zero_add, given_eq]
    exact hd i _ hx c (hs.perm.mem_iff.1 hc))
  exact ⟨_, by simp only [multiAssign, hcells, hl0, hxs]; rfl⟩

/-- **C43**, write and read. Writing element (cell, material) of a vector of the state manager succeeds if the cell has the
material and is refused otherwise; reading it back in either layout gives the value written, and no
other element changes. -/
theorem multi_write_read_partial (w : Reg.World) (s : State V) (A : Mats) (h : Reached w s A) (zero : V) (v : Vec)
    (hv : v ∈ s.vecs) (hmv : v.vectype = .MULTIVAL) (m : Nat) (x : Mat) (hx : A.mats[m]? = some x)
    (hl : x.late = false) (c : Nat) (hc : c < (w.view .CELL).nAll) (lay : Layout) (y : V) :
    (c ∉ x.cells → multiWrite s v (firstArg lay c m) (secondArg lay c m) lay y = .error .thrown) ∧
    (c ∈ x.cells → ∃ s', multiWrite s v (firstArg lay c m) (secondArg lay c m) lay y = .ok s' ∧
      ∀ (m2 : Nat) (x2 : Mat) (c2 : Nat) (lay2 : Layout), A.mats[m2]? = some x2 → x2.late = false →
        c2 < (w.view .CELL).nAll →
        multiRead zero s' v (firstArg lay2 c2 m2) (secondArg lay2 c2 m2) lay2 =
          if c2 = c ∧ m2 = m then .ok y
          else multiRead zero s v (firstArg lay2 c2 m2) (secondArg lay2 c2 m2) lay2) := by
  have hi := h.inv
  obtain ⟨o, ho, hperm, hnd, hidx⟩ := index_of hi hx hl
  have hI := hidx c hc
  constructor
  · intro hcx
    have hco : c ∉ o.all := fun hh => hcx (hperm.mem_iff.1 hh)
    rw [posOrNeg_of_not_mem hco] at hI
    unfold multiWrite
    rw [(args_mat lay c m).1, (args_mat lay c m).2, hI]
    simp
  · intro hcx
    have hco : c ∈ o.all := hperm.mem_iff.2 hcx
    obtain ⟨p1, p2, p3⟩ := posOrNeg_ne hco
    obtain ⟨-, l, hlb, hll⟩ := hi.multi v hv hmv
    have hlen : l.length = A.mats.length := by simpa using congrArg List.length hll
    have hmlt : m < l.length := by rw [hlen]; exact (List.getElem?_eq_some_iff.1 hx).1
    have hrow : l[m]? = some l[m] := List.getElem?_eq_getElem hmlt
    have hrl : l[m].length = x.cells.length := by
      have := congrArg (fun l : List Nat => l[m]?) hll
      simpa [hrow, hx] using this
    have hk : o.all.idxOf c < l[m].length := by
      rw [hrl, ← hperm.length_eq]; exact List.idxOf_lt_length_iff.2 hco
    have hslot : slot l m (posOrNeg o.all c) = .ok l[m][o.all.idxOf c] := by
      simp only [slot, if_neg p2, p3, elem, hrow, List.getElem?_eq_getElem hk]
    let l' := l.modify m fun row => row.set (o.all.idxOf c) y
    let s' : State V := { s with blocks := s.blocks.set v.data (.multi l') }
    have hw : multiWrite s v (firstArg lay c m) (secondArg lay c m) lay y = .ok s' := by
      unfold multiWrite
      rw [(args_mat lay c m).1, (args_mat lay c m).2, hI]
      dsimp only
      rw [if_neg p1]
      simp only [hlb, hslot, p3]
      rfl
    refine ⟨s', hw, ?_⟩
    intro m2 x2 c2 lay2 hx2 hl2 hc2
    obtain ⟨o2, ho2, hperm2, hnd2, hidx2⟩ := index_of hi hx2 hl2
    have hI2 := hidx2 c2 hc2
    have hI2' : cellIndexInMaterial s' c2 m2 = .ok (posOrNeg o2.all c2) := hI2
    rw [read_eq hI2', read_eq hI2]
    have hlt : v.data < s.blocks.length := (List.getElem?_eq_some_iff.1 hlb).1
    have hb' : s'.blocks[v.data]? = some (.multi l') := by simp only [s', List.getElem?_set_self hlt]
    simp only [hb', hlb]
    by_cases hc2o : c2 ∈ o2.all
    · obtain ⟨q1, q2, q3⟩ := posOrNeg_ne hc2o
      simp only [if_pos q1]
      by_cases hmm : m2 = m
      · subst hmm
        rw [hx] at hx2; injection hx2 with hx2; subst hx2
        rw [ho] at ho2; injection ho2 with ho2; subst ho2
        have hl'm : l'[m2]? = some (l[m2].set (o.all.idxOf c) y) := by
          simp only [l', List.getElem?_modify, hrow]
          simp
        by_cases hcc : c2 = c
        · subst hcc
          simp only [slot, if_neg q2, q3, elem, hl'm, and_self, if_true, List.getElem?_set_self hk]
        · have hne : o.all.idxOf c ≠ o.all.idxOf c2 := by
            intro he
            exact hcc ((List.idxOf_inj hc2o).1 he.symm)
          simp only [slot, if_neg q2, q3, elem, hl'm, hrow, hcc, false_and, if_false, List.getElem?_set_ne hne]
      · have hl'm : l'[m2]? = l[m2]? := by
          simp only [l', List.getElem?_modify]
          have : ¬ m = m2 := fun e => hmm e.symm
          simp [this]
        simp only [slot, elem, hl'm, hmm, and_false, if_false]
    · rw [posOrNeg_of_not_mem hc2o]
      have hnot : ¬ (c2 = c ∧ m2 = m) := by
        rintro ⟨rfl, rfl⟩
        rw [ho] at ho2; injection ho2 with ho2; subst ho2
        exact hc2o hco
      simp only [ne_eq, not_true_eq_false, if_false, if_neg hnot]

/-- **C43** fails after `add_cells_to_material`: one more owned cell for a material with owned cells makes this very cell
unreachable in every multi-material vector, although it is listed in `material_cells`: reads give zero, writes
are refused. -/
theorem late_cell_unreachable (w : Reg.World) (s : State V) (A : Mats) (h : Reached w s A) (zero : V) (m : Nat) (x : Mat)
    (hx : A.mats[m]? = some x) (hl : x.late = false) (hne : x.cells ≠ [])
    (hown : ∀ c ∈ x.cells, (w.view .CELL).typeOf c = .PARALLEL_OWNED) (e : Nat) (he : e < (w.view .CELL).nAll)
    (hna : e ∉ x.cells) (ht : (w.view .CELL).typeOf e = .PARALLEL_OWNED) :
    ∃ s', addCells zero s m [e] = .ok s' ∧ e ∈ materialCells s' m ∧ ∀ (v : Vec) (lay : Layout),
      multiRead zero s' v (firstArg lay e m) (secondArg lay e m) lay = .ok zero ∧
      ∀ y, multiWrite s' v (firstArg lay e m) (secondArg lay e m) lay y = .error .thrown := by
  have hi := h.inv
  have hc : NewCells (w.view .CELL) x.cells [e] :=
    ⟨by simp, by simpa using hna, by simpa using he, by simp [ht], fun _ => ⟨e, by simp, ht⟩⟩
  obtain ⟨s', h1, h2, -⟩ := addCells_ok zero hi m [e] x hx hc
  obtain ⟨a, o, ha, ho, hoa, hs⟩ := matSet_of hi hx
  obtain ⟨hp, hex⟩ := hs.exact hl
  have hghost : o.ghost = [] := by
    rw [List.eq_nil_iff_forall_not_mem]
    intro g hg
    have h3 := hp.ghost_type g hg
    have h4 : g ∈ x.cells := hs.perm.mem_iff.1 (by rw [hp.all_eq]; simp [hg])
    rw [hown g h4] at h3; cases h3
  have howned : o.owned ≠ [] := by
    intro h0
    have hall : o.all = [] := by rw [hp.all_eq, h0, hghost]; rfl
    have := hs.perm
    rw [hall] at this
    exact hne this.symm.eq_nil
  obtain ⟨o', hadd, hmem, hidx, -⟩ := add_entities_index_wrong (w.view .CELL) o e hp hs.map hex he ht
    (fun hh => hna (hs.perm.mem_iff.1 hh)) hghost howned
  have hset' : matSet s' m = some o' := by
    unfold addCells at h1
    rw [ha] at h1
    dsimp only at h1
    have hgrow : growSet s.w a [e] = .ok { s.w with heap := s.w.heap.set a o' } := by
      unfold growSet
      simp only [hoa, hi.view, hadd]
    rw [hgrow] at h1
    dsimp only at h1
    have halt : a < s.w.heap.length := (List.getElem?_eq_some_iff.1 hoa).1
    split at h1
    · cases h1
    · split at h1
      · cases h1
      · injection h1 with h1
        subst h1
        unfold matSet
        dsimp only
        rw [ha]
        simp [halt]
  have hI : cellIndexInMaterial s' e m = .ok (-1) := by
    simp only [cellIndexInMaterial, hset', hidx]
  refine ⟨s', h1, by simp only [materialCells, hset']; exact hmem, fun v lay => ⟨?_, fun y => ?_⟩⟩
  · rw [read_eq hI]; simp
  · unfold multiWrite
    rw [(args_mat lay e m).1, (args_mat lay e m).2, hI]
    simp

/-! ### Non-vacuity -/

/-- an array with value 10 c + m in both layouts -/
def exData : List (List Int) := (List.range 6).map fun c => (List.range 2).map fun m => (10 * c + m : Int)

-- the two materials of `exTwo` never got cells late, and a full assignment succeeds and reads back
example : (matsAfter exTwo).mats.all (fun x => !x.late) = true := by decide

example : (match run 0 exCount (create 0 exWorld2)
      (exTwo ++ [Op.multiAssign ⟨"vf", .mesh 0, .CELL, .ALL, .MULTIVAL, 0, 0⟩ .CELL_CENTRIC exData]) with
    | .ok (_, s) => decide (multiRead 0 s ⟨"vf", .mesh 0, .CELL, .ALL, .MULTIVAL, 0, 0⟩ 1 2 .MATERIAL_CENTRIC = .ok 21 ∧
        multiRead 0 s ⟨"vf", .mesh 0, .CELL, .ALL, .MULTIVAL, 0, 0⟩ 3 1 .CELL_CENTRIC = .ok 0 ∧
        s.vecs = [⟨"vf", .mesh 0, .CELL, .ALL, .MULTIVAL, 0, 0⟩])
    | .error _ => false) = true := by decide +kernel

example : ∀ (m : Nat) (x : Mat), (matsAfter exTwo).mats[m]? = some x → ∀ c ∈ x.cells,
    ∃ y, given .CELL_CENTRIC exData c m = some y := by
  intro m x hx c hc
  have hmats : (matsAfter exTwo).mats = [⟨"steel", [1, 2], false⟩, ⟨"air", [2, 0], false⟩] := by
    simp [matsAfter, matsFrom, exTwo, exMulti, Op.onMats, Mats.none]
  rw [hmats] at hx
  match m, hx with
  | 0, hx =>
    simp at hx; subst hx
    simp at hc
    rcases hc with rfl | rfl
    exacts [⟨10, rfl⟩, ⟨20, rfl⟩]
  | 1, hx =>
    simp at hx; subst hx
    simp at hc
    rcases hc with rfl | rfl
    exacts [⟨21, rfl⟩, ⟨1, rfl⟩]

-- one more cell for "steel": it cannot be reached
example : (match run 0 exCount (create 0 exWorld2) (exTwo ++ [Op.addCells 0 [3]]) with
    | .ok (_, s) => decide (materialCells s 0 = [3, 1, 2] ∧
        multiRead 7 s ⟨"vf", .mesh 0, .CELL, .ALL, .MULTIVAL, 0, 0⟩ 3 0 .CELL_CENTRIC = .ok (7 : Int))
    | .error _ => false) = true := by decide +kernel

end Jali.St
