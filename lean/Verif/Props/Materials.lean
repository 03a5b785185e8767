import Verif.Proof.Materials2
import Verif.Props.State
/-! Property theorems C41, C79: materials and the size of multi-material vectors. -/
namespace Jali.St
open Jali.MSet
variable {V : Type}

theorem Reached.inv {w : Reg.World} {s : State V} {A : Mats} (h : Reached w s A) : MInv w s A := by
  obtain ⟨hw, mesh, zero, count, ops, ps, ha, hr, rfl⟩ := h
  exact minv_run ops (minv_create mesh w hw) ha hr

theorem Reached.next {w : Reg.World} {zero : V} {count : Count} {s s' : State V} {A : Mats} {mesh : Nat}
    {ops : List (Op V)} {ps : List (Option Nat)} {o : Op V} {p : Option Nat}
    (hw : RegOk w) (ha : AllowedFrom w Mats.none (ops ++ [o]))
    (hr : run zero count (create mesh w) ops = .ok (ps, s)) (hA : A = matsAfter ops)
    (ho : o.run zero count s = .ok (p, s')) : Reached w s' (o.onMats A) := by
  have hrun : ∀ (os : List (Op V)) (s0 : State V) (qs : List (Option Nat)), run zero count s0 os = .ok (qs, s) →
      run zero count s0 (os ++ [o]) = .ok (qs ++ [p], s') := by
    intro os
    induction os with
    | nil => intro s0 qs h; cases h; simp [run, ho]
    | cons o1 os ih =>
      intro s0 qs h
      obtain ⟨p1, ps1, s1, rfl, h1, h2⟩ := run_cons h
      simp [run, h1, ih s1 ps1 h2]
  refine ⟨hw, mesh, zero, count, ops ++ [o], ps ++ [p], ha, hrun ops _ ps hr, ?_⟩
  rw [hA]
  simp [matsAfter, matsFrom, List.foldl_append]

theorem matSet_of {w : Reg.World} {s : State V} {A : Mats} (h : MInv w s A) {i : Nat} {x : Mat}
    (hx : A.mats[i]? = some x) : ∃ a o, s.mats[i]? = some a ∧ matSet s i = some o ∧ s.w.heap[a]? = some o ∧
      SetOk (w.view .CELL) x o := by
  obtain ⟨a, ha⟩ := getS h hx
  obtain ⟨o, ho, hs⟩ := h.sets i a x ha hx
  exact ⟨a, o, ha, by simp only [matSet, ha, ho], ho, hs⟩

theorem matSet_none {w : Reg.World} {s : State V} {A : Mats} (h : MInv w s A) {i : Nat}
    (hx : A.mats[i]? = none) : matSet s i = none := by
  have : s.mats[i]? = none := by
    rw [List.getElem?_eq_none_iff] at hx ⊢
    rw [h.len]; exact hx
  simp only [matSet, this]

theorem cellMaterials_of {w : Reg.World} {s : State V} {A : Mats} (h : MInv w s A) {c : Nat}
    (hc : c < (w.view .CELL).nAll) : cellMaterials s c = .ok (A.cell c) := by
  unfold cellMaterials
  by_cases h0 : A.mats = []
  · have : s.mats.length = 0 := by rw [h.len, h0]; rfl
    rw [if_neg (by omega), h.cellNil h0]
  · have hne : s.mats.length ≠ 0 := by rw [h.len]; exact fun he => h0 (List.length_eq_zero_iff.1 he)
    rw [if_pos hne]
    have hlt : c < s.cellMats.length := by rw [h.cellLen h0]; exact hc
    rw [List.getElem?_eq_getElem hlt]
    exact congrArg _ (h.cell c _ (List.getElem?_eq_getElem hlt))

/-- **C41.** After every allowed history of additions of materials, cells and vectors, writes and copies: the materials
are those asked for, in order, under their names; the cells of a material are those given for it;
`cell_materials` lists the materials of a cell in the order in which the cell got them, and is the
inverse of `material_cells`; `material_index_by_name` inverts `material_name`.
Missing: names of cell sets the mesh has already (see `material_takes_over_set`), repeated cells, cells that
are all ghosts (the set operation is undefined then, C24), multi-material vectors on tiles (see
`tile_vector_undefined`). -/
theorem materials_agree_partial (w : Reg.World) (s : State V) (A : Mats) (h : Reached w s A) :
    numMaterials s = A.mats.length ∧
    (∀ (i : Nat) (x : Mat), A.mats[i]? = some x → materialName s i = x.name ∧
      materialIndexByName s x.name = some i ∧ (materialCells s i).Perm x.cells ∧
      numMaterialCells s i = x.cells.length) ∧
    (∀ n i, materialIndexByName s n = some i ↔ i < numMaterials s ∧ materialName s i = n) ∧
    (∀ c, c < (w.view .CELL).nAll → cellMaterials s c = .ok (A.cell c) ∧
      numCellMaterials s c = .ok (A.cell c).length) ∧
    Inverse s := by
  have hi := h.inv
  have hname : ∀ (i : Nat) (x : Mat), A.mats[i]? = some x → materialName s i = x.name := by
    intro i x hx
    obtain ⟨a, o, -, ho, -, hs⟩ := matSet_of hi hx
    simp only [materialName, ho, hs.name]
  have hidx : ∀ n (i : Nat), materialIndexByName s n = some i ↔ i < numMaterials s ∧ materialName s i = n := by
    intro n i
    unfold materialIndexByName numMaterials
    rw [List.findIdx?_eq_some_iff_getElem]
    constructor
    · rintro ⟨hlt, hn, -⟩
      have hi' : s.mats[i]? = some s.mats[i] := List.getElem?_eq_getElem hlt
      obtain ⟨x, hx⟩ := getA hi hi'
      refine ⟨hlt, ?_⟩
      rw [hname i x hx]
      exact (addrNamed_iff hi hi' hx).1 hn
    · rintro ⟨hlt, hn⟩
      have hi' : s.mats[i]? = some s.mats[i] := List.getElem?_eq_getElem hlt
      obtain ⟨x, hx⟩ := getA hi hi'
      rw [hname i x hx] at hn
      refine ⟨hlt, (addrNamed_iff hi hi' hx).2 hn, ?_⟩
      intro j hj hjn
      have hj' : s.mats[j]? = some (s.mats[j]'(by omega)) := List.getElem?_eq_getElem (by omega)
      obtain ⟨y, hy⟩ := getA hi hj'
      have hyn := (addrNamed_iff hi hj' hy).1 hjn
      have h1 : (A.mats.map fun x => x.name)[i]? = some n := by rw [List.getElem?_map, hx]; simp [hn]
      have h2 : (A.mats.map fun x => x.name)[j]? = some n := by rw [List.getElem?_map, hy]; simp [hyn]
      have := (List.getElem?_inj (List.getElem?_eq_some_iff.1 h1).1 hi.names).1 (h1.trans h2.symm)
      omega
  refine ⟨hi.len, ?_, hidx, ?_, ?_⟩
  · intro i x hx
    obtain ⟨a, o, ha, ho, -, hs⟩ := matSet_of hi hx
    refine ⟨hname i x hx, ?_, ?_, ?_⟩
    · rw [hidx]
      exact ⟨(List.getElem?_eq_some_iff.1 ha).1, hname i x hx⟩
    · simp only [materialCells, ho]; exact hs.perm
    · simp only [numMaterialCells, ho]; exact hs.perm.length_eq
  · intro c hc
    have := cellMaterials_of hi hc
    exact ⟨this, by simp only [numCellMaterials, this]⟩
  · intro c hc
    rw [hi.view] at hc
    refine ⟨A.cell c, cellMaterials_of hi hc, hi.cellNodup c, fun m => ?_⟩
    rw [hi.inv c m]
    constructor
    · rintro ⟨x, hx, hcx⟩
      obtain ⟨a, o, -, ho, -, hs⟩ := matSet_of hi hx
      simp only [materialCells, ho]
      exact hs.perm.mem_iff.2 hcx
    · intro hm
      cases hx : A.mats[m]? with
      | none => simp [materialCells, matSet_none hi hx] at hm
      | some x =>
        obtain ⟨a, o, -, ho, -, hs⟩ := matSet_of hi hx
        simp only [materialCells, ho] at hm
        exact ⟨x, rfl, hs.perm.mem_iff.1 hm⟩

/-- **C41**, additions succeed: `add_material` and `add_cells_to_material` have a defined result whenever they are
allowed. -/
theorem material_additions_succeed (w : Reg.World) (s : State V) (A : Mats) (h : Reached w s A) (zero : V) :
    (∀ n cs, (Op.addMaterial (V := V) n cs).Allowed w A → ∃ s', addMaterial zero s n cs = .ok s') ∧
    (∀ i cs, (Op.addCells (V := V) i cs).Allowed w A → ∃ s', addCells zero s i cs = .ok s') := by
  constructor
  · intro n cs ha
    by_cases hn : n ∈ A.mats.map (fun x => x.name)
    · exact ⟨s, by unfold addMaterial; rw [if_pos ((any_named h.inv n).2 hn)]⟩
    · have ha' := Or.resolve_left ha hn
      obtain ⟨s', h1, -⟩ := addMaterial_new zero h.inv n cs hn ha'.1 ha'.2
      exact ⟨s', h1⟩
  · rintro i cs ⟨x, hx, hc⟩
    obtain ⟨s', h1, -⟩ := addCells_ok zero h.inv i cs x hx hc
    exact ⟨s', h1⟩

/-- **C41** fails for names of existing cell sets: the material then has the cells of this set as well, but
`cell_materials` does not know. -/
theorem material_takes_over_set (mesh : Nat) (w : Reg.World) (zero : V) (n : String) (cs : List Nat) (a : Nat) (o : Obj)
    (ha : Reg.findMeshset w n .CELL = some a) (ho : w.heap[a]? = some o) (hp : Proper (w.view .CELL) o)
    (hc : NewCells (w.view .CELL) o.all cs) :
    ∃ s', addMaterial zero (create mesh w) n cs = .ok s' ∧ numMaterials s' = 1 ∧
      ∀ c ∈ o.all, c ∈ materialCells s' 0 ∧ cellMaterials s' c = .ok [] := by
  obtain ⟨o', hadd, -, -, hperm, -⟩ := addEntities_loose (w.view .CELL) o cs (Proper.loose hp)
    ⟨hc.nodup, hc.absent, hc.bound, hc.typed, hc.some_owned⟩
  have hset : materialSetFor w n = .ok (a, w) := by simp only [materialSetFor, ha]
  have hgrow : growSet w a cs = .ok { w with heap := w.heap.set a o' } := by
    simp only [growSet, ho, hadd]
  obtain ⟨cm, hpush, hcml, hcmc⟩ := pushMats_ok 0 cs (List.replicate (w.view .CELL).nAll []) hc.nodup
    (fun c hcc => by rw [List.length_replicate]; exact hc.bound c hcc)
  have halt : a < w.heap.length := (List.getElem?_eq_some_iff.1 ho).1
  refine ⟨{ mesh := mesh, w := { w with heap := w.heap.set a o' }, blocks := [], vecs := [], indexes := fun _ => [],
            names := [], mats := [a], cellMats := cm }, ?_, ?_⟩
  · simp only [addMaterial, create, List.any_nil, Bool.false_eq_true, if_false, hset, hgrow, sizedCellMats,
      List.length_nil, if_true, hpush, forMulti, List.nil_append]
  · refine ⟨rfl, fun c hcc => ⟨?_, ?_⟩⟩
    · simp only [materialCells, matSet, List.getElem?_cons_zero, List.getElem?_set_self halt]
      exact hperm.mem_iff.2 (List.mem_append_left _ hcc)
    · have hb := hp.bound c hcc
      have hnc : c ∉ cs := fun hx => hc.absent c hx hcc
      have := hcmc c
      simp [hb, hnc] at this
      simp [cellMaterials, this]

/-- **C41** fails with a multi-material vector on a tile: `add_cells_to_material` dereferences a null pointer, for
every material and all cells. -/
theorem tile_vector_undefined (zero : V) (s : State V) (m : Nat) (cs : List Nat) (v : Vec) (t : Nat) (hv : v ∈ s.vecs)
    (hm : v.vectype = .MULTIVAL) (hd : v.domain = .tile t) : ∀ s', addCells zero s m cs ≠ .ok s' := by
  have key : ∀ (f : List (List V) → Except Err (List (List V))) (vs : List Vec), v ∈ vs → ∀ bs bs',
      forMultiUnchecked f vs bs ≠ .ok bs' := by
    intro f vs
    induction vs with
    | nil => intro h; cases h
    | cons u us ih =>
      intro hmem bs bs' h
      unfold forMultiUnchecked at h
      rcases List.mem_cons.1 hmem with rfl | hmem
      · rw [if_pos hm, hd] at h
        simp [onMesh] at h
      · split at h
        · split at h
          · split at h
            · cases h
            · exact ih hmem _ _ h
          · cases h
        · exact ih hmem _ _ h
  intro s' h
  unfold addCells at h
  repeat' split at h
  all_goals first
    | (cases h; done)
    | (rename_i hk; exact key _ _ hv _ _ hk)

/-- **C79.** After every allowed history each multi-material vector of the state manager has one entry for every cell of
every material. -/
theorem multi_vector_sizes_partial (w : Reg.World) (s : State V) (A : Mats) (h : Reached w s A) (v : Vec)
    (hv : v ∈ s.vecs) (hm : v.vectype = .MULTIVAL) :
    ∃ l, s.blocks[v.data]? = some (.multi l) ∧ l.length = numMaterials s ∧
      ∀ (i : Nat) (row : List V), l[i]? = some row → row.length = numMaterialCells s i := by
  have hi := h.inv
  obtain ⟨-, l, h1, h2⟩ := hi.multi v hv hm
  have hl : l.length = A.mats.length := by simpa using congrArg List.length h2
  refine ⟨l, h1, hl.trans hi.len.symm, ?_⟩
  intro i row hrow
  have hlt : i < A.mats.length := by rw [← hl]; exact (List.getElem?_eq_some_iff.1 hrow).1
  have hx : A.mats[i]? = some A.mats[i] := List.getElem?_eq_getElem hlt
  have := congrArg (fun l : List Nat => l[i]?) h2
  simp only [List.getElem?_map, hrow, hx, Option.map_some, Option.some.injEq] at this
  rw [this]
  exact ((materials_agree_partial w s A h).2.1 i _ hx).2.2.2.symm

/-- **C79**, values: adding a material or cells keeps the values a multi-material vector has and appends zeros; univalued
vectors are not touched. -/
theorem multi_vector_values_kept_partial (w : Reg.World) (s : State V) (A : Mats) (h : Reached w s A) (zero : V) :
    (∀ n cs s', n ∉ A.mats.map (fun x => x.name) → (Op.addMaterial (V := V) n cs).Allowed w A →
      addMaterial zero s n cs = .ok s' → s'.vecs = s.vecs ∧
      (∀ v ∈ s.vecs, v.vectype = .MULTIVAL → ∀ l, s.blocks[v.data]? = some (.multi l) →
        s'.blocks[v.data]? = some (.multi (l ++ [List.replicate cs.length zero]))) ∧
      ∀ v ∈ s.vecs, v.vectype = .UNIVAL → s'.blocks[v.data]? = s.blocks[v.data]?) ∧
    (∀ i cs s', (Op.addCells (V := V) i cs).Allowed w A → addCells zero s i cs = .ok s' → s'.vecs = s.vecs ∧
      (∀ v ∈ s.vecs, v.vectype = .MULTIVAL → ∀ l, s.blocks[v.data]? = some (.multi l) →
        s'.blocks[v.data]? = some (.multi (l.modify i fun row => row ++ List.replicate cs.length zero))) ∧
      ∀ v ∈ s.vecs, v.vectype = .UNIVAL → s'.blocks[v.data]? = s.blocks[v.data]?) := by
  have hi := h.inv
  have huni : ∀ v ∈ s.vecs, v.vectype = .UNIVAL → ¬ Touched s.vecs v.data := by
    rintro v hv hu ⟨u, hu', hm, he⟩
    obtain ⟨p, hp, rfl⟩ := List.getElem_of_mem hv
    obtain ⟨q, hq, rfl⟩ := List.getElem_of_mem hu'
    have h1 : (s.vecs.map fun v => v.data)[p]? = some s.vecs[p].data := by simp [hp]
    have h2 : (s.vecs.map fun v => v.data)[q]? = some s.vecs[p].data := by simp [hq, he]
    have := (List.getElem?_inj (List.getElem?_eq_some_iff.1 h1).1 hi.dataNodup).1 (h1.trans h2.symm)
    subst this
    rw [hm] at hu; cases hu
  constructor
  · intro n cs s' hn ha hr
    have ha' := Or.resolve_left ha hn
    obtain ⟨s1, h1, -, h3⟩ := addMaterial_new zero hi n cs hn ha'.1 ha'.2
    rw [h1] at hr
    injection hr with hr; subst hr
    exact ⟨h3.vecs, h3.multi, fun v hv hu => h3.other _ (huni v hv hu)⟩
  · rintro i cs s' ⟨x, hx, hc⟩ hr
    obtain ⟨s1, h1, -, h3⟩ := addCells_ok zero hi i cs x hx hc
    rw [h1] at hr
    injection hr with hr; subst hr
    exact ⟨h3.vecs, h3.multi, fun v hv hu => h3.other _ (huni v hv hu)⟩

/-! ### Non-vacuity -/

/-- six cells, cell 5 a ghost; the mesh has a node set called like a material, and a cell set "old" -/
def exWorld2 : Reg.World :=
  ⟨fun _ => ⟨fun e => if e = 5 then .PARALLEL_GHOST else .PARALLEL_OWNED, 5, 1⟩,
    [⟨"steel", 0, .NODE, [0], [], [0], false, []⟩, ⟨"old", 0, .CELL, [3], [], [3], true, [-1, -1, -1, 0, -1, -1]⟩], [0, 1]⟩

/-- a multi-material vector by value -/
def exMulti : Op Int := .add ⟨.MULTIVAL, 0, "vf", .mesh 0, .CELL, .ALL, .value 1⟩

/-- two materials sharing cells, cells added later, a refused name, a multi-material vector in between -/
def exMats : List (Op Int) :=
  [exRho, .addMaterial "steel" [1, 2], exMulti, .addMaterial "air" [2, 5, 0], .addMaterial "steel" [4],
    .addCells 0 [3], .addMaterial "void" []]

theorem exNew (old cs : List Nat) (h1 : cs.Nodup) (h2 : ∀ c ∈ cs, c ∉ old) (h3 : ∀ c ∈ cs, c < 6)
    (h4 : cs ≠ [] → ∃ c ∈ cs, c ≠ 5) : NewCells (exWorld2.view .CELL) old cs :=
  ⟨h1, h2, h3, fun c _ => by by_cases h : c = 5 <;> simp [exWorld2, h],
    fun h => by obtain ⟨c, hc, hne⟩ := h4 h; exact ⟨c, hc, by simp [exWorld2, hne]⟩⟩

theorem exMats_allowed : AllowedFrom exWorld2 Mats.none exMats := by
  refine ⟨(fun h => by cases h), Or.inr ⟨by decide +kernel, exNew _ _ (by decide) (by decide) (by decide) (by decide)⟩,
    fun _ => ⟨0, rfl⟩, Or.inr ⟨by decide +kernel, exNew _ _ (by decide) (by decide) (by decide) (by decide)⟩,
    Or.inl (by decide +kernel), ⟨⟨"steel", [1, 2], false⟩, rfl, exNew _ _ (by decide) (by decide) (by decide) (by decide)⟩,
    Or.inr ⟨by decide +kernel, exNew _ _ (by decide) (by decide) (by decide) (by decide)⟩, trivial⟩

/-- a run that passes a test has a result that passes it -/
theorem run_of_check {zero : V} {count : Count} {s0 : State V} {ops : List (Op V)} {f : State V → Bool}
    (h : (match run zero count s0 ops with | .ok (_, s) => f s | .error _ => false) = true) :
    ∃ ps s, run zero count s0 ops = .ok (ps, s) ∧ f s = true := by
  cases hr : run zero count s0 ops with
  | error e => rw [hr] at h; cases h
  | ok r => rw [hr] at h; exact ⟨r.1, r.2, rfl, h⟩

theorem exReg : RegOk exWorld2 := by unfold RegOk; decide

theorem exMats_reached : ∃ s : State Int, Reached exWorld2 s (matsAfter exMats) ∧ s.vecs.length = 2 ∧
    cellMaterials s 2 = .ok [0, 1] ∧ materialCells s 1 = [2, 0, 5] := by
  obtain ⟨ps, s, hr, hs⟩ := run_of_check (zero := (0 : Int)) (count := exCount) (s0 := create 0 exWorld2) (ops := exMats)
    (f := fun s => decide (s.vecs.length = 2 ∧ cellMaterials s 2 = .ok [0, 1] ∧ materialCells s 1 = [2, 0, 5]))
    (by decide +kernel)
  have := of_decide_eq_true hs
  exact ⟨s, ⟨exReg, 0, 0, exCount, exMats, ps, exMats_allowed, hr, rfl⟩, this⟩

-- the multi-material vector after this history: one row per material, zeros where cells came later
example : (match run 0 exCount (create 0 exWorld2) exMats with
    | .ok (_, s) => decide (s.blocks[1]? = some (.multi [[1, 1, 0], [0, 0, 0], []]))
    | .error _ => false) = true := by decide +kernel

-- a material named like the cell set "old"
example : ∃ a o, Reg.findMeshset exWorld2 "old" .CELL = some a ∧ exWorld2.heap[a]? = some o ∧
    Proper (exWorld2.view .CELL) o ∧ NewCells (exWorld2.view .CELL) o.all [1, 2] ∧ o.all ≠ [] := by
  refine ⟨1, ⟨"old", 0, .CELL, [3], [], [3], true, [-1, -1, -1, 0, -1, -1]⟩, by decide +kernel, rfl,
    ⟨rfl, by decide, ?_, ?_, ?_, rfl⟩, exNew _ _ (by decide) (by decide) (by decide) (by decide), by decide⟩ <;>
    decide

-- a multi-material vector on a tile
example : (match run 0 exCount (create 0 exWorld2)
      [.addMaterial "steel" [1], .add ⟨.MULTIVAL, 0, "t", .tile 3, .CELL, .ALL, .value 1⟩] with
    | .ok (_, s) => decide (∃ v ∈ s.vecs, v.vectype = .MULTIVAL ∧ v.domain = .tile 3)
    | .error _ => false) = true := by decide +kernel

end Jali.St
