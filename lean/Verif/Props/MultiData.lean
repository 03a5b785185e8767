import Verif.Props.MultiVec
import Verif.Model.MultiData
/-! Property theorems C171: the row of a material in a multi-material vector. -/
namespace Jali.St
open Jali.MSet
variable {V : Type}

theorem multiRows_ok {s : State V} {v : Vec} {l : List (List V)} (h : s.blocks[v.data]? = some (.multi l)) :
    multiRows s v = .ok l := by unfold multiRows; rw [h]

theorem matData_ok {s : State V} {v : Vec} {m : Nat} {row : List V} :
    matData s v m = .ok row ↔ ∃ l, s.blocks[v.data]? = some (.multi l) ∧ l[m]? = some row := by
  unfold matData multiRows
  constructor
  · intro h
    split at h
    · cases h
    · rename_i l hl
      split at h
      · rename_i row' hr
        injection h with h
        subst h
        split at hl
        · rename_i l' hb
          injection hl with hl
          subst hl
          exact ⟨_, hb, hr⟩
        · cases hl
      · cases h
  · rintro ⟨l, h1, h2⟩
    simp only [h1, h2]

theorem matData_none {s : State V} {v : Vec} {m : Nat} {l : List (List V)} (h : s.blocks[v.data]? = some (.multi l))
    (hm : l.length ≤ m) : matData s v m = .error .undefinedBehaviour := by
  unfold matData
  rw [multiRows_ok h]
  simp only [List.getElem?_eq_none hm]

/-- **C171**, the row of a material. After every allowed history the vector has as many rows as there are materials; the row of a
material has `num_material_cells` values, and its k-th value is the one `operator()` gives in either layout for the k-th of
`material_cells`; writing the k-th value is writing through `operator()`.
Missing: materials that got cells by `add_cells_to_material` when they had some already (`row_order_false`). -/
theorem row_of_material_partial (w : Reg.World) (s : State V) (A : Mats) (h : Reached w s A) (zero : V) (v : Vec)
    (hv : v ∈ s.vecs) (hmv : v.vectype = .MULTIVAL) :
    multiSize s v = .ok (numMaterials s) ∧ ∀ (m : Nat) (x : Mat), A.mats[m]? = some x →
      ∃ row, matData s v m = .ok row ∧ matSize s v m = .ok (numMaterialCells s m) ∧ row.length = numMaterialCells s m ∧
        (x.late = false → ∀ (k c : Nat), (materialCells s m)[k]? = some c → ∃ y, row[k]? = some y ∧ matGet s v m k = .ok y ∧
          ∀ lay, multiRead zero s v (firstArg lay c m) (secondArg lay c m) lay = .ok y ∧
            ∀ z, matPut s v m k z = multiWrite s v (firstArg lay c m) (secondArg lay c m) lay z ∧
              ∃ s', matPut s v m k z = .ok s') := by
  have hi := h.inv
  obtain ⟨l, hl, hll, hrows⟩ := multi_vector_sizes_partial w s A h v hv hmv
  have hmr := multiRows_ok hl
  refine ⟨by unfold multiSize; rw [hmr]; simp [hll], fun m x hx => ?_⟩
  have hm : m < l.length := by
    rw [hll]; unfold numMaterials; rw [hi.len]; exact (List.getElem?_eq_some_iff.1 hx).1
  have hrow : l[m]? = some l[m] := List.getElem?_eq_getElem hm
  have hmd : matData s v m = .ok l[m] := matData_ok.2 ⟨l, hl, hrow⟩
  have hlen := hrows m _ hrow
  refine ⟨l[m], hmd, by unfold matSize; rw [hmd, ← hlen], hlen, fun hlate k c hc => ?_⟩
  obtain ⟨o, ho, hperm, hnd, hidx⟩ := index_of hi hx hlate
  have hcells : materialCells s m = o.all := by unfold materialCells; rw [ho]; rfl
  have hnum : numMaterialCells s m = o.all.length := by unfold numMaterialCells; rw [ho]; rfl
  rw [hcells] at hc
  obtain ⟨hk, hkc⟩ := List.getElem?_eq_some_iff.1 hc
  have hmem : c ∈ o.all := hkc ▸ List.getElem_mem hk
  have hb : c < (w.view .CELL).nAll := by
    obtain ⟨a, o', -, ho', -, hs⟩ := matSet_of hi hx
    rw [ho] at ho'; injection ho' with ho'; subst ho'
    exact hs.loose.bound c hmem
  have hI := hidx c hb
  obtain ⟨p1, p2, p3⟩ := posOrNeg_ne hmem
  have hix : o.all.idxOf c = k := by
    subst hkc
    exact List.Nodup.idxOf_getElem hnd k hk
  rw [hix] at p3
  have hkr : k < l[m].length := by rw [hlen, hnum]; exact hk
  have hget : l[m][k]? = some l[m][k] := List.getElem?_eq_getElem hkr
  have hslot : slot l m (posOrNeg o.all c) = .ok l[m][k] := by
    simp only [slot, if_neg p2, p3, elem, hrow, hget]
  have hmg : matGet s v m k = .ok l[m][k] := by unfold matGet; rw [hmd]; simp only [hget]
  refine ⟨l[m][k], hget, hmg, fun lay => ⟨?_, fun z => ?_⟩⟩
  · rw [read_eq hI, if_pos p1]
    simp only [hl, hslot]
  · have h1 : matPut s v m k z =
        .ok { s with blocks := s.blocks.set v.data (.multi (l.set m (l[m].set k z))) } := by
      unfold matPut; rw [hmg]
      unfold onRow
      simp only [hmr, hrow]
    have h2 : multiWrite s v (firstArg lay c m) (secondArg lay c m) lay z =
        .ok { s with blocks := s.blocks.set v.data (.multi (l.modify m fun row => row.set k z)) } := by
      unfold multiWrite
      rw [(args_mat lay c m).1, (args_mat lay c m).2, hI]
      dsimp only
      rw [if_neg p1]
      simp only [hl, hslot, p3]
    have h3 : l.modify m (fun row => row.set k z) = l.set m (l[m].set k z) := by
      apply List.ext_getElem?
      intro i
      rw [List.getElem?_modify, List.getElem?_set]
      by_cases hmi : m = i
      · subst hmi; simp [hrow, hm]
      · simp [hmi]
    exact ⟨by rw [h1, h2, h3], _, h1⟩

/-- What a change of one row of one vector may change: the row itself. -/
structure OnlyRow (s s' : State V) (v : Vec) (m : Nat) : Prop where
  world : s'.w = s.w
  materials : s'.mats = s.mats ∧ s'.cellMats = s.cellMats
  vectors : s'.vecs = s.vecs
  rows : ∀ m', m' ≠ m → matData s' v m' = matData s v m'
  count : multiSize s' v = multiSize s v
  blocks : ∀ i, i ≠ v.data → s'.blocks[i]? = s.blocks[i]?

theorem onRow_spec (s : State V) (v : Vec) (m : Nat) (row : List V) (hd : matData s v m = .ok row) (f : List V → List V) :
    ∃ s', onRow s v m f = .ok s' ∧ matData s' v m = .ok (f row) ∧ OnlyRow s s' v m := by
  obtain ⟨l, hl, hrow⟩ := matData_ok.1 hd
  have hmr := multiRows_ok hl
  have hm : m < l.length := (List.getElem?_eq_some_iff.1 hrow).1
  have hb : v.data < s.blocks.length := (List.getElem?_eq_some_iff.1 hl).1
  have hl' : (s.blocks.set v.data (.multi (l.set m (f row))))[v.data]? = some (.multi (l.set m (f row))) :=
    List.getElem?_set_self hb
  refine ⟨{ s with blocks := s.blocks.set v.data (.multi (l.set m (f row))) }, by unfold onRow; simp only [hmr, hrow],
    matData_ok.2 ⟨_, hl', List.getElem?_set_self hm⟩, rfl, ⟨rfl, rfl⟩, rfl, fun m' hm' => ?_, ?_, fun i hi => ?_⟩
  · unfold matData
    rw [hmr, multiRows_ok (s := { s with blocks := _ }) hl']
    simp only [List.getElem?_set_ne (Ne.symm hm')]
  · unfold multiSize
    rw [hmr, multiRows_ok (s := { s with blocks := _ }) hl']
    simp
  · exact List.getElem?_set_ne (Ne.symm hi)

/-- **C171**, changes of a row. Whatever happened before, if the vector has a row for the material, then a write to an existing position,
`resize` and `clear` of the row succeed, do to this row what `std::vector` does, and leave the rows of the other
materials, all other vectors and the materials as they are. -/
theorem row_changes (s : State V) (v : Vec) (m : Nat) (row : List V) (hd : matData s v m = .ok row) :
    (∀ k z, k < row.length → ∃ s', matPut s v m k z = .ok s' ∧ OnlyRow s s' v m ∧ ∃ row', matData s' v m = .ok row' ∧
      row'.length = row.length ∧ row'[k]? = some z ∧ ∀ j, j ≠ k → row'[j]? = row[j]?) ∧
    (∀ n z, ∃ s', matResize s v m n z = .ok s' ∧ OnlyRow s s' v m ∧ ∃ row', matData s' v m = .ok row' ∧
      row'.length = n ∧ ∀ j, j < n → row'[j]? = some ((row[j]?).getD z)) ∧
    (∃ s', matClear s v m = .ok s' ∧ OnlyRow s s' v m ∧ matData s' v m = .ok []) := by
  refine ⟨fun k z hk => ?_, fun n z => ?_, ?_⟩
  · obtain ⟨s', h1, h2, h3⟩ := onRow_spec s v m row hd fun row => row.set k z
    refine ⟨s', ?_, h3, _, h2, by simp, List.getElem?_set_self hk, fun j hj => List.getElem?_set_ne (Ne.symm hj)⟩
    unfold matPut matGet
    rw [hd]
    simp only [List.getElem?_eq_getElem hk, h1]
  · obtain ⟨s', h1, h2, h3⟩ := onRow_spec s v m row hd fun row => resizeTo z row n
    refine ⟨s', h1, h3, _, h2, by simp [resizeTo]; omega, fun j hj => ?_⟩
    unfold resizeTo
    by_cases hjr : j < row.length
    · rw [List.getElem?_append_left (by simp; omega), List.getElem?_take_of_lt hj, List.getElem?_eq_getElem hjr]
      rfl
    · rw [List.getElem?_append_right (by simp; omega), List.getElem?_replicate,
        List.getElem?_eq_none (l := row) (by omega)]
      rw [if_pos (by simp; omega)]
      rfl
  · obtain ⟨s', h1, h2, h3⟩ := onRow_spec s v m row hd fun _ => []
    exact ⟨s', h1, h3, h2⟩

/-- **C171**, the row of another vector: vectors of the state manager do not share rows. -/
theorem row_changes_other (w : Reg.World) (s : State V) (A : Mats) (h : Reached w s A) (v u : Vec) (hv : v ∈ s.vecs)
    (hu : u ∈ s.vecs) (hne : u ≠ v) (m : Nat) (s' : State V) (hc : OnlyRow s s' v m) (m' : Nat) :
    matData s' u m' = matData s u m' := by
  have hi := h.inv
  have hd : u.data ≠ v.data := by
    intro he
    obtain ⟨p, hp, rfl⟩ := List.getElem_of_mem hv
    obtain ⟨q, hq, rfl⟩ := List.getElem_of_mem hu
    have h1 : (s.vecs.map fun v => v.data)[p]? = some s.vecs[p].data := by simp [hp]
    have h2 : (s.vecs.map fun v => v.data)[q]? = some s.vecs[p].data := by simp [hq, he]
    have := (List.getElem?_inj (List.getElem?_eq_some_iff.1 h1).1 hi.dataNodup).1 (h1.trans h2.symm)
    subst this
    exact hne rfl
  unfold matData multiRows
  rw [hc.blocks _ hd]

/-- **C171**, after `clear(m)`, or `resize(m, n)` with n at most the position of the cell: `operator()` still takes the
cell for one of the material, and reading or writing it is undefined behaviour. -/
theorem row_shrunk_false (w : Reg.World) (s : State V) (A : Mats) (h : Reached w s A) (zero : V) (v : Vec)
    (hv : v ∈ s.vecs) (hmv : v.vectype = .MULTIVAL) (m : Nat) (x : Mat) (hx : A.mats[m]? = some x) (hl : x.late = false)
    (n : Nat) (z : V) (s' : State V) (hr : matResize s v m n z = .ok s' ∨ (n = 0 ∧ matClear s v m = .ok s')) (k c : Nat)
    (hk : (materialCells s m)[k]? = some c) (hn : n ≤ k) (lay : Layout) :
    multiRead zero s' v (firstArg lay c m) (secondArg lay c m) lay = .error .undefinedBehaviour ∧
    ∀ y, multiWrite s' v (firstArg lay c m) (secondArg lay c m) lay y = .error .undefinedBehaviour := by
  obtain ⟨row, hd, -⟩ := (row_of_material_partial w s A h zero v hv hmv).2 m x hx
  have hshort : OnlyRow s s' v m ∧ ∃ row', matData s' v m = .ok row' ∧ row'.length ≤ k := by
    rcases hr with hr | ⟨rfl, hr⟩
    · obtain ⟨s1, h1, h2, row', h3, h4, -⟩ := (row_changes s v m row hd).2.1 n z
      rw [h1] at hr; injection hr with hr; subst hr
      exact ⟨h2, row', h3, by omega⟩
    · obtain ⟨s1, h1, h2, h3⟩ := (row_changes s v m row hd).2.2
      rw [h1] at hr; injection hr with hr; subst hr
      exact ⟨h2, [], h3, by simp⟩
  obtain ⟨honly, row', hd', hle⟩ := hshort
  obtain ⟨l', hl', hrow'⟩ := matData_ok.1 hd'
  have hi := h.inv
  obtain ⟨o, ho, hperm, hnd, hidx⟩ := index_of hi hx hl
  have hcells : materialCells s m = o.all := by unfold materialCells; rw [ho]; rfl
  rw [hcells] at hk
  obtain ⟨hko, hkc⟩ := List.getElem?_eq_some_iff.1 hk
  have hmem : c ∈ o.all := hkc ▸ List.getElem_mem hko
  have hb : c < (w.view .CELL).nAll := by
    obtain ⟨a, o', -, ho', -, hs⟩ := matSet_of hi hx
    rw [ho] at ho'; injection ho' with ho'; subst ho'
    exact hs.loose.bound c hmem
  obtain ⟨p1, p2, p3⟩ := posOrNeg_ne hmem
  have hix : o.all.idxOf c = k := by subst hkc; exact List.Nodup.idxOf_getElem hnd k hko
  rw [hix] at p3
  have hI : cellIndexInMaterial s' c m = .ok (posOrNeg o.all c) := by
    rw [← hidx c hb]
    unfold cellIndexInMaterial matSet
    rw [honly.world, honly.materials.1]
  have hslot : slot l' m (posOrNeg o.all c) = .error .undefinedBehaviour := by
    simp only [slot, if_neg p2, p3, elem, hrow', List.getElem?_eq_none hle]
  constructor
  · rw [read_eq hI, if_pos p1]
    simp only [hl', hslot]
  · intro y
    unfold multiWrite
    rw [(args_mat lay c m).1, (args_mat lay c m).2, hI]
    dsimp only
    rw [if_neg p1]
    simp only [hl', hslot]

/-- **C171**, after `clear()` of the vector all rows are gone; a material added afterwards gets the first row, whatever its
number is. -/
theorem clear_renumbers_false (w : Reg.World) (s s1 s2 : State V) (A : Mats) (h : Reached w s A) (zero : V) (v : Vec)
    (hv : v ∈ s.vecs) (hmv : v.vectype = .MULTIVAL) (h1 : multiClear s v = .ok s1) (name : String) (cells : List Nat)
    (hnew : name ∉ A.mats.map fun x => x.name) (h2 : addMaterial zero s1 name cells = .ok s2) :
    multiSize s1 v = .ok 0 ∧ numMaterials s2 = numMaterials s + 1 ∧
      matData s2 v 0 = .ok (List.replicate cells.length zero) ∧
      (numMaterials s ≠ 0 → matData s2 v (numMaterials s) = .error .undefinedBehaviour) := by
  have hi := h.inv
  obtain ⟨l, hl, -, -⟩ := multi_vector_sizes_partial w s A h v hv hmv
  have hb : v.data < s.blocks.length := (List.getElem?_eq_some_iff.1 hl).1
  unfold multiClear at h1
  rw [multiRows_ok hl] at h1
  injection h1 with h1
  have hb1 : s1.blocks[v.data]? = some (.multi []) := by rw [← h1]; exact List.getElem?_set_self hb
  have hvecs : s1.vecs = s.vecs := by rw [← h1]
  have hmats : s1.mats = s.mats := by rw [← h1]
  have hw : s1.w = s.w := by rw [← h1]
  obtain ⟨bs, e1, -, -, e4, -⟩ := forMulti_ok (mvAddMaterial zero cells.length)
    (fun l => l ++ [List.replicate cells.length zero]) s.vecs s1.blocks hi.dataNodup (fun u hu hm => by
      obtain ⟨q1, l', q2, -⟩ := hi.multi u hu hm
      refine ⟨q1, ?_⟩
      by_cases he : u.data = v.data
      · exact ⟨[], by rw [he]; exact hb1, rfl⟩
      · refine ⟨l', ?_, rfl⟩
        rw [← h1]
        exact (List.getElem?_set_ne (fun e => he e.symm)).trans q2)
  have hlast := e4 v hv hmv [] hb1
  have hany : s1.mats.any (fun a => addrNamed s1 name a) = false := by
    have : ¬ s.mats.any (fun a => addrNamed s name a) = true := fun hh => hnew ((any_named hi name).1 hh)
    rw [hmats]
    simp only [addrNamed, hw] at this ⊢
    simpa using this
  unfold addMaterial at h2
  rw [hany] at h2
  simp only [Bool.false_eq_true, if_false] at h2
  split at h2
  · cases h2
  · split at h2
    · cases h2
    · split at h2
      · cases h2
      · rw [hvecs, e1] at h2
        injection h2 with h2
        subst h2
        refine ⟨by unfold multiSize; rw [multiRows_ok hb1]; rfl, by simp [numMaterials, hmats], ?_, fun hn => ?_⟩
        · exact matData_ok.2 ⟨_, hlast, rfl⟩
        · exact matData_none hlast (by simp; omega)

/-! ### Non-vacuity -/

/-- the vector of the example history -/
def exVec : Vec := ⟨"vf", .mesh 0, .CELL, .ALL, .MULTIVAL, 0, 0⟩

/-- a run followed by a test of the result -/
def after (ops : List (Op Int)) (f : State Int → Bool) : Bool :=
  match run 0 exCount (create 0 exWorld2) ops with
  | .ok (_, s) => f s
  | .error _ => false

/-- `o` gives a state that passes the test -/
def andThen (o : Except Err (State Int)) (f : State Int → Bool) : Bool :=
  match o with
  | .ok s => f s
  | .error _ => false

-- the second value of material 1 belongs to cell 0
example : after exTwo (fun s => decide (s.vecs = [exVec] ∧ materialCells s 1 = [2, 0]) &&
    andThen (matPut s exVec 1 1 9) fun s' => decide (matData s' exVec 1 = .ok [0, 9] ∧
      multiRead 0 s' exVec 0 1 .CELL_CENTRIC = .ok 9 ∧ matData s' exVec 0 = .ok [1, 1])) = true := by decide +kernel

-- a longer row, a shorter one, no row
example : after exTwo (fun s => andThen (matResize s exVec 0 4 7) fun s' => decide (matData s' exVec 0 = .ok [1, 1, 7, 7]) &&
    andThen (matResize s' exVec 0 1 7) fun s' => decide (matData s' exVec 0 = .ok [1] ∧
      multiRead 0 s' exVec 0 1 .MATERIAL_CENTRIC = .ok 1 ∧
      multiRead 0 s' exVec 0 2 .MATERIAL_CENTRIC = .error .undefinedBehaviour) &&
    andThen (matClear s' exVec 0) fun s' => decide (matSize s' exVec 0 = .ok 0 ∧ multiSize s' exVec = .ok 2)) = true := by
  decide +kernel

-- a material added after `clear()`
example : after exTwo (fun s => andThen (multiClear s exVec) fun s1 => andThen (addMaterial 0 s1 "void" [4, 3]) fun s2 =>
    decide (materialCells s2 2 = [4, 3] ∧ matData s2 exVec 0 = .ok [0, 0] ∧
      multiRead 0 s2 exVec 2 4 .MATERIAL_CENTRIC = .error .undefinedBehaviour)) = true := by decide +kernel

/-- **C171** fails after `add_cells_to_material`: the new cell comes first in `material_cells`, and `operator()` does not find the first
value of the row for it. -/
theorem row_order_false : ∃ s : State Int, Reached exWorld2 s (matsAfter (exTwo ++ [Op.addCells 0 [3]])) ∧ exVec ∈ s.vecs ∧
    materialCells s 0 = [3, 1, 2] ∧ matData s exVec 0 = .ok [1, 1, 0] ∧
    matGet s exVec 0 0 = .ok 1 ∧ multiRead 0 s exVec 0 3 .MATERIAL_CENTRIC = .ok 0 := by
  obtain ⟨ps, s, hr, hs⟩ := run_of_check (zero := (0 : Int)) (count := exCount) (s0 := create 0 exWorld2)
    (ops := exTwo ++ [Op.addCells 0 [3]])
    (f := fun s => decide (exVec ∈ s.vecs ∧ materialCells s 0 = [3, 1, 2] ∧ matData s exVec 0 = .ok [1, 1, 0] ∧
      matGet s exVec 0 0 = .ok 1 ∧ multiRead 0 s exVec 0 3 .MATERIAL_CENTRIC = .ok 0))
    (by decide +kernel)
  refine ⟨s, ⟨exReg, 0, 0, exCount, _, ps, ?_, hr, rfl⟩, of_decide_eq_true hs⟩
  exact ⟨Or.inr ⟨by decide +kernel, exNew _ _ (by decide) (by decide) (by decide) (by decide)⟩, fun _ => ⟨0, rfl⟩,
    Or.inr ⟨by decide +kernel, exNew _ _ (by decide) (by decide) (by decide) (by decide)⟩,
    ⟨⟨"steel", [1, 2], false⟩, rfl, exNew _ _ (by decide) (by decide) (by decide) (by decide)⟩, trivial⟩

end Jali.St
