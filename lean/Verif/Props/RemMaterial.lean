import Verif.Props.Materials
/-! Property theorems C42: removing a material. -/
namespace Jali.St
open Jali.MSet
variable {V : Type}

theorem eraseLoop_append (m : Nat) (is js : List Nat) : ∀ l, eraseLoop m (is ++ js) l =
    match eraseLoop m is l with
    | .ok l' => eraseLoop m js l'
    | .error e => .error e := by
  induction is with
  | nil => intro l; rfl
  | cons i is ih =>
    intro l
    rw [List.cons_append, eraseLoop, eraseLoop]
    cases l[i]? with
    | none => rfl
    | some x =>
      dsimp only
      split
      · exact ih _
      · exact ih _

theorem eraseLoop_absent (m : Nat) (is : List Nat) : ∀ l, m ∉ l →
    ((∀ i ∈ is, i < l.length) → eraseLoop m is l = .ok l) ∧
    ((∃ i ∈ is, l.length ≤ i) → eraseLoop m is l = .error .undefinedBehaviour) := by
  induction is with
  | nil => intro l _; exact ⟨fun _ => rfl, by simp⟩
  | cons i is ih =>
    intro l hm
    obtain ⟨h1, h2⟩ := ih l hm
    by_cases hi : i < l.length
    · have hne : ¬ m = l[i] := fun he => hm (he ▸ List.getElem_mem hi)
      have hstep : eraseLoop m (i :: is) l = eraseLoop m is l := by
        simp [eraseLoop, hi, hne]
      rw [hstep]
      refine ⟨fun h => h1 (fun j hj => h j (by simp [hj])), ?_⟩
      rintro ⟨j, hj, hjl⟩
      rcases List.mem_cons.1 hj with rfl | hj
      · omega
      · exact h2 ⟨j, hj, hjl⟩
    · refine ⟨fun h => absurd (h i (by simp)) hi, fun _ => ?_⟩
      simp [eraseLoop, List.getElem?_eq_none (Nat.le_of_not_lt hi)]

/-- the loop on a list that holds the material once: fine if it is the last entry, otherwise past the end -/
theorem eraseLoop_once (m : Nat) (l1 l2 : List Nat) (h1 : m ∉ l1) (h2 : m ∉ l2) :
    eraseLoop m (List.range (l1 ++ m :: l2).length) (l1 ++ m :: l2) =
      if l2 = [] then .ok l1 else .error .undefinedBehaviour := by
  have hr : List.range (l1 ++ m :: l2).length =
      List.range l1.length ++ (l1.length :: (List.range l2.length).map (l1.length + 1 + ·)) := by
    rw [List.length_append, List.length_cons, Nat.add_comm l2.length 1, ← Nat.add_assoc, List.range_add,
      List.range_succ, List.append_assoc]
    rfl
  rw [hr, eraseLoop_append]
  have hfirst : ∀ is : List Nat, (∀ i ∈ is, i < l1.length) →
      eraseLoop m is (l1 ++ m :: l2) = .ok (l1 ++ m :: l2) := by
    intro is
    induction is with
    | nil => intro _; rfl
    | cons i is ih =>
      intro h
      have hi := h i (by simp)
      have hne : ¬ m = l1[i] := fun he => h1 (he ▸ List.getElem_mem hi)
      unfold eraseLoop
      rw [List.getElem?_append_left hi, List.getElem?_eq_getElem hi]
      dsimp only
      rw [if_neg hne]
      exact ih (fun j hj => h j (by simp [hj]))
  rw [hfirst _ (by simp)]
  dsimp only
  have hstep : eraseLoop m (l1.length :: (List.range l2.length).map (l1.length + 1 + ·)) (l1 ++ m :: l2) =
      eraseLoop m ((List.range l2.length).map (l1.length + 1 + ·)) (l1 ++ l2) := by
    rw [eraseLoop]
    rw [List.getElem?_append_right (Nat.le_refl _), Nat.sub_self]
    simp only [List.getElem?_cons_zero, if_true]
    congr 1
    rw [List.eraseIdx_append_of_length_le (Nat.le_refl _), Nat.sub_self]
    rfl
  rw [hstep]
  by_cases hl2 : l2 = []
  · subst hl2
    simp [eraseLoop]
  · rw [if_neg hl2]
    have hm : m ∉ l1 ++ l2 := by simp [h1, h2]
    apply (eraseLoop_absent m _ _ hm).2
    have hpos := List.length_pos_iff.2 hl2
    refine ⟨l1.length + 1 + (l2.length - 1), List.mem_map.2 ⟨l2.length - 1, List.mem_range.2 (by omega), rfl⟩, ?_⟩
    rw [List.length_append]; omega

/-- a list without repetition that holds `m`, split there -/
theorem split_once {l : List Nat} {m : Nat} (hn : l.Nodup) (hm : m ∈ l) :
    ∃ l1 l2, l = l1 ++ m :: l2 ∧ m ∉ l1 ∧ m ∉ l2 := by
  obtain ⟨l1, l2, rfl⟩ := List.append_of_mem hm
  rw [List.nodup_append, List.nodup_cons] at hn
  exact ⟨l1, l2, rfl, fun h => hn.2.2 m h m (by simp) rfl, hn.2.1.1⟩

theorem eraseLoop_cases {l : List Nat} {m : Nat} (hn : l.Nodup) (hm : m ∈ l) :
    (l.getLast? = some m → eraseLoop m (List.range l.length) l = .ok (l.filter fun k => k ≠ m)) ∧
    (l.getLast? ≠ some m → eraseLoop m (List.range l.length) l = .error .undefinedBehaviour) := by
  obtain ⟨l1, l2, rfl, h1, h2⟩ := split_once hn hm
  rw [eraseLoop_once m l1 l2 h1 h2]
  by_cases hl2 : l2 = []
  · subst hl2
    refine ⟨fun _ => ?_, fun h => absurd (by simp) h⟩
    rw [if_pos rfl]
    congr 1
    rw [List.filter_append]
    have : l1.filter (fun k => decide (k ≠ m)) = l1 := by
      rw [List.filter_eq_self]
      intro a ha
      simp only [decide_eq_true_eq]
      rintro rfl; exact h1 ha
    rw [this]
    simp
  · refine ⟨fun h => ?_, fun _ => by rw [if_neg hl2]⟩
    exfalso
    apply h2
    obtain ⟨a, r, hr⟩ := List.exists_cons_of_ne_nil hl2
    rw [hr] at h ⊢
    rw [List.getLast?_append, List.getLast?_cons_cons] at h
    obtain ⟨y, hy⟩ : ∃ y, (a :: r).getLast? = some y := by
      cases hg : (a :: r).getLast? with
      | none => simp at hg
      | some y => exact ⟨y, rfl⟩
    rw [hy] at h
    simp at h
    subst h
    exact List.mem_of_getLast? hy

theorem eraseCells_ok (m : Nat) (cs : List Nat) : ∀ cm : List (List Nat), cs.Nodup →
    (∀ c ∈ cs, ∃ l, cm[c]? = some l ∧ l.Nodup ∧ m ∈ l ∧ l.getLast? = some m) →
    ∃ cm', eraseCells m cs cm = .ok cm' ∧ cm'.length = cm.length ∧
      ∀ c, cm'[c]? = (cm[c]?).map fun l => if c ∈ cs then l.filter (fun k => k ≠ m) else l := by
  induction cs with
  | nil => intro cm _ _; exact ⟨cm, rfl, rfl, fun c => by simp⟩
  | cons c cs ih =>
    intro cm hn h
    rw [List.nodup_cons] at hn
    obtain ⟨l, hl, hln, hm, hlast⟩ := h c (by simp)
    have hlt := (List.getElem?_eq_some_iff.1 hl).1
    obtain ⟨cm', e1, e2, e3⟩ := ih (cm.set c (l.filter fun k => decide (k ≠ m))) hn.2 (fun a ha => by
      have hca : c ≠ a := fun e => hn.1 (e ▸ ha)
      rw [List.getElem?_set_ne hca]
      exact h a (by simp [ha]))
    refine ⟨cm', ?_, by rw [e2, List.length_set], fun a => ?_⟩
    · unfold eraseCells
      simp only [hl, (eraseLoop_cases hln hm).1 hlast, e1]
    · rw [e3]
      by_cases hca : c = a
      · subst hca
        rw [List.getElem?_set_self hlt, hl]
        simp [hn.1]
      · have hac : a ≠ c := fun e => hca e.symm
        rw [List.getElem?_set_ne hca]
        simp [hac]

theorem eraseCells_undefined (m : Nat) (cs : List Nat) : ∀ cm : List (List Nat), cs.Nodup →
    (∀ c ∈ cs, ∃ l, cm[c]? = some l ∧ l.Nodup ∧ m ∈ l) →
    (∃ c ∈ cs, ∀ l, cm[c]? = some l → l.getLast? ≠ some m) →
    eraseCells m cs cm = .error .undefinedBehaviour := by
  induction cs with
  | nil => rintro cm _ _ ⟨c, hc, -⟩; cases hc
  | cons c cs ih =>
    intro cm hn h hex
    rw [List.nodup_cons] at hn
    obtain ⟨l, hl, hln, hm⟩ := h c (by simp)
    unfold eraseCells
    by_cases hlast : l.getLast? = some m
    · simp only [hl, (eraseLoop_cases hln hm).1 hlast]
      apply ih _ hn.2
      · intro a ha
        have hca : c ≠ a := fun e => hn.1 (e ▸ ha)
        rw [List.getElem?_set_ne hca]
        exact h a (by simp [ha])
      · obtain ⟨a, ha, hbad⟩ := hex
        rcases List.mem_cons.1 ha with rfl | ha
        · exact absurd hlast (hbad l hl)
        · have hca : c ≠ a := fun e => hn.1 (e ▸ ha)
          exact ⟨a, ha, fun l' hl' => hbad l' (by rwa [List.getElem?_set_ne hca] at hl')⟩
    · simp only [hl, (eraseLoop_cases hln hm).2 hlast]

/-- The material numbers of the cells of `x` all end with `m`. -/
def LastEverywhere (A : Mats) (m : Nat) (x : Mat) : Prop := ∀ c ∈ x.cells, (A.cell c).getLast? = some m

theorem remMaterial_facts {w : Reg.World} {s : State V} {A : Mats} (hi : MInv w s A) {m : Nat} {x : Mat}
    (hx : A.mats[m]? = some x) :
    (¬ LastEverywhere A m x → remMaterial s m = .error .undefinedBehaviour) ∧
    (LastEverywhere A m x → ∃ s', remMaterial s m = .ok s' ∧ s'.w = s.w ∧ s'.mats = s.mats.eraseIdx m ∧
      s'.vecs = s.vecs ∧ s'.cellMats.length = (w.view .CELL).nAll ∧
      (∀ (c : Nat) (l : List Nat), s'.cellMats[c]? = some l → l = (A.cell c).filter fun k => k ≠ m) ∧
      ∀ v ∈ s.vecs, v.vectype = .MULTIVAL → ∀ l, s.blocks[v.data]? = some (.multi l) →
        s'.blocks[v.data]? = some (.multi (l.eraseIdx m))) := by
  obtain ⟨a, o, ha, hset, ho, hs⟩ := matSet_of hi hx
  have hne : A.mats ≠ [] := by rintro h0; rw [h0] at hx; cases hx
  have hcl := hi.cellLen hne
  have hmem : ∀ c, c ∈ entities o .ALL ↔ c ∈ x.cells := fun c => hs.perm.mem_iff
  have hlist : ∀ c ∈ entities o .ALL, s.cellMats[c]? = some (A.cell c) ∧ (A.cell c).Nodup ∧ m ∈ A.cell c := by
    intro c hc
    have hb : c < s.cellMats.length := by rw [hcl]; exact hs.loose.bound c hc
    have hg : s.cellMats[c]? = some s.cellMats[c] := List.getElem?_eq_getElem hb
    have he := hi.cell c _ hg
    rw [he] at hg
    exact ⟨hg, hi.cellNodup c, (hi.inv c m).2 ⟨x, hx, (hmem c).1 hc⟩⟩
  constructor
  · intro hbad
    unfold LastEverywhere at hbad
    simp only [Classical.not_forall] at hbad
    obtain ⟨c, hc, hb⟩ := hbad
    unfold remMaterial
    simp only [hset]
    rw [eraseCells_undefined m (entities o .ALL) s.cellMats hs.loose.nodup
      (fun c hc => ⟨_, hlist c hc⟩)
      ⟨c, (hmem c).2 hc, fun l hl => by rw [(hlist c ((hmem c).2 hc)).1] at hl; injection hl with hl; rw [← hl]; exact hb⟩]
  · intro hgood
    obtain ⟨cm, hcm, hcml, hcmc⟩ := eraseCells_ok m (entities o .ALL) s.cellMats hs.loose.nodup
      (fun c hc => ⟨_, (hlist c hc).1, (hlist c hc).2.1, (hlist c hc).2.2, hgood c ((hmem c).1 hc)⟩)
    obtain ⟨bs, hfor, -, hbl, hbm, -⟩ := forMulti_ok (mvRemMaterial m) (fun l => l.eraseIdx m) s.vecs s.blocks
      hi.dataNodup (fun v hv hm => by
        obtain ⟨e1, l, e2, e3⟩ := hi.multi v hv hm
        refine ⟨e1, l, e2, ?_⟩
        have hl : l.length = A.mats.length := by simpa using congrArg List.length e3
        have hlt := (List.getElem?_eq_some_iff.1 hx).1
        unfold mvRemMaterial
        rw [if_pos (by omega)])
    refine ⟨{ s with mats := s.mats.eraseIdx m, cellMats := cm, blocks := bs }, ?_, rfl, rfl, rfl,
      by rw [hcml, hcl], ?_, hbm⟩
    · unfold remMaterial
      simp only [hset, hcm, hfor]
    · intro c l hl
      dsimp only at hl
      rw [hcmc] at hl
      obtain ⟨l0, hl0, rfl⟩ := Option.map_eq_some_iff.1 hl
      have := hi.cell c l0 hl0
      subst this
      split
      · rfl
      · rename_i hc
        symm
        rw [List.filter_eq_self]
        intro k hk
        simp only [decide_eq_true_eq]
        rintro rfl
        obtain ⟨y, hy, hcy⟩ := (hi.inv c k).1 hk
        rw [hx] at hy; injection hy with hy; subst hy
        exact hc ((hmem c).2 hcy)

theorem matSet_erase {s s' : State V} {m : Nat} (hw : s'.w = s.w) (hm : s'.mats = s.mats.eraseIdx m) (i : Nat) :
    matSet s' i = matSet s (if i < m then i else i + 1) := by
  unfold matSet
  rw [hm, hw, List.getElem?_eraseIdx]
  by_cases hi : i < m
  · simp only [if_pos hi]
  · simp only [if_neg hi]

/-- **C42**, the tables of materials: where it is defined, `rem_material(m)` removes material `m`; the others keep name
and cells, those above `m` move down by one; every multi-material vector of the state manager loses the row
of `m`; `m` is dropped from `cell_materials`. Missing: histories with names of existing sets, tiles (see C41). -/
theorem rem_material_tables_partial (w : Reg.World) (s s' : State V) (A : Mats) (h : Reached w s A) (m : Nat)
    (hm : m < numMaterials s) (hr : remMaterial s m = .ok s') :
    numMaterials s' + 1 = numMaterials s ∧
    (∀ i, materialName s' i = materialName s (if i < m then i else i + 1) ∧
      materialCells s' i = materialCells s (if i < m then i else i + 1)) ∧
    (∀ c, c < (w.view .CELL).nAll → cellMaterials s' c = .ok ((A.cell c).filter fun k => k ≠ m)) ∧
    ∀ v ∈ s.vecs, v.vectype = .MULTIVAL → ∀ l, s.blocks[v.data]? = some (.multi l) →
      s'.blocks[v.data]? = some (.multi (l.eraseIdx m)) := by
  have hi := h.inv
  have hlt : m < A.mats.length := by rw [← hi.len]; exact hm
  have hx : A.mats[m]? = some A.mats[m] := List.getElem?_eq_getElem hlt
  obtain ⟨hbad, hgood⟩ := remMaterial_facts hi hx
  by_cases hL : LastEverywhere A m A.mats[m]
  · obtain ⟨s1, e1, e2, e3, -, e5, e6, e7⟩ := hgood hL
    rw [e1] at hr
    injection hr with hr; subst hr
    have hlen : s1.mats.length + 1 = s.mats.length := by
      rw [e3, List.length_eraseIdx_of_lt hm]
      unfold numMaterials at hm
      omega
    refine ⟨hlen, fun i => ?_, fun c hc => ?_, e7⟩
    · have := matSet_erase e2 e3 i
      simp only [materialName, materialCells, this, and_self]
    · unfold cellMaterials
      split
      · have hcl : c < s1.cellMats.length := by rw [e5]; exact hc
        rw [List.getElem?_eq_getElem hcl]
        exact congrArg _ (e6 c _ (List.getElem?_eq_getElem hcl))
      · rename_i h0
        have h0' : s1.mats.length = 0 := by omega
        congr 1
        symm
        rw [List.filter_eq_nil_iff]
        intro k hk
        obtain ⟨y, hy, -⟩ := (hi.inv c k).1 hk
        have := (List.getElem?_eq_some_iff.1 hy).1
        have := hi.len
        simp only [decide_eq_true_eq, Classical.not_not]
        omega
  · rw [hbad hL] at hr; cases hr

/-- **C42** fails: if the material is not the last in the list of one of its cells, `rem_material` reads past the end of
that list. -/
theorem rem_material_undefined (w : Reg.World) (s : State V) (A : Mats) (h : Reached w s A) (m c : Nat) (l : List Nat)
    (hc : c ∈ materialCells s m) (hl : cellMaterials s c = .ok l) (hlast : l.getLast? ≠ some m) :
    remMaterial s m = .error .undefinedBehaviour := by
  have hi := h.inv
  cases hx : A.mats[m]? with
  | none => simp [materialCells, matSet_none hi hx] at hc
  | some x =>
    obtain ⟨a, o, -, ho, -, hs⟩ := matSet_of hi hx
    simp only [materialCells, ho] at hc
    have hb := hs.loose.bound c hc
    rw [cellMaterials_of hi hb] at hl
    injection hl with hl
    apply (remMaterial_facts hi hx).1
    intro hL
    apply hlast
    rw [← hl]
    exact hL c (hs.perm.mem_iff.1 hc)

/-- **C42**, exactly when it holds: `rem_material(m)` has a defined result with `cell_materials` still the inverse of
`material_cells` if and only if `m` is the last material of each of its cells and no later material has
cells. -/
theorem rem_material_correct_iff (w : Reg.World) (s : State V) (A : Mats) (h : Reached w s A) (m : Nat)
    (hm : m < numMaterials s) :
    (∃ s', remMaterial s m = .ok s' ∧ Inverse s') ↔
      (∀ c ∈ materialCells s m, ∃ l, cellMaterials s c = .ok l ∧ l.getLast? = some m) ∧
      ∀ i, m < i → materialCells s i = [] := by
  have hi := h.inv
  have hlt : m < A.mats.length := by rw [← hi.len]; exact hm
  have hx : A.mats[m]? = some A.mats[m] := List.getElem?_eq_getElem hlt
  have hcellsOf : ∀ (i : Nat) (y : Mat), A.mats[i]? = some y → ∀ c, c ∈ materialCells s i ↔ c ∈ y.cells := by
    intro i y hy c
    obtain ⟨a, o, -, ho, -, hs⟩ := matSet_of hi hy
    simp only [materialCells, ho]
    exact hs.perm.mem_iff
  have hbound : ∀ i c, c ∈ materialCells s i → c < (w.view .CELL).nAll := by
    intro i c hc
    cases hy : A.mats[i]? with
    | none => simp [materialCells, matSet_none hi hy] at hc
    | some y =>
      obtain ⟨a, o, -, ho, -, hs⟩ := matSet_of hi hy
      simp only [materialCells, ho] at hc
      exact hs.loose.bound c hc
  have hinv : ∀ c i, i ∈ A.cell c ↔ c ∈ materialCells s i := by
    intro c i
    rw [hi.inv c i]
    constructor
    · rintro ⟨y, hy, hcy⟩; exact (hcellsOf i y hy c).2 hcy
    · intro hc
      cases hy : A.mats[i]? with
      | none => simp [materialCells, matSet_none hi hy] at hc
      | some y => exact ⟨y, rfl, (hcellsOf i y hy c).1 hc⟩
  constructor
  · rintro ⟨s', hr, hI⟩
    have hL : LastEverywhere A m A.mats[m] := by
      by_contra hL
      rw [(remMaterial_facts hi hx).1 hL] at hr; cases hr
    obtain ⟨s1, e1, e2, e3, -, -, -, -⟩ := (remMaterial_facts hi hx).2 hL
    have hs1 : s1 = s' := by rw [e1] at hr; injection hr
    subst hs1
    obtain ⟨-, htab, hcm, -⟩ := rem_material_tables_partial w s s1 A h m hm e1
    refine ⟨fun c hc => ⟨A.cell c, cellMaterials_of hi (hbound m c hc), hL c ((hcellsOf m _ hx c).1 hc)⟩, ?_⟩
    -- from the top down
    have key : ∀ d i, m < i → A.mats.length ≤ i + d → materialCells s i = [] := by
      intro d
      induction d with
      | zero =>
        intro i _ hge
        have : A.mats[i]? = none := List.getElem?_eq_none (by omega)
        simp [materialCells, matSet_none hi this]
      | succ d ih =>
        intro i hmi hge
        have hnext := ih (i + 1) (by omega) (by omega)
        rw [List.eq_nil_iff_forall_not_mem]
        intro c hc
        have hb := hbound i c hc
        have hview : s1.w.view .CELL = w.view .CELL := by rw [e2, hi.view]
        obtain ⟨l, hl, -, hl2⟩ := hI c (by rw [hview]; exact hb)
        rw [hcm c hb] at hl
        injection hl with hl
        have h1 : i ∈ l := by
          rw [← hl, List.mem_filter]
          exact ⟨(hinv c i).2 hc, by simp; omega⟩
        have h2 := (hl2 i).1 h1
        rw [(htab i).2, if_neg (by omega), hnext] at h2
        cases h2
    exact fun i hmi => key A.mats.length i hmi (by omega)
  · rintro ⟨hlast, hlater⟩
    have hL : LastEverywhere A m A.mats[m] := by
      intro c hc
      have hc' := (hcellsOf m _ hx c).2 hc
      obtain ⟨l, hl, hl'⟩ := hlast c hc'
      rw [cellMaterials_of hi (hbound m c hc')] at hl
      injection hl with hl
      rw [hl]; exact hl'
    obtain ⟨s1, e1, e2, e3, -, -, -, -⟩ := (remMaterial_facts hi hx).2 hL
    obtain ⟨-, htab, hcm, -⟩ := rem_material_tables_partial w s s1 A h m hm e1
    refine ⟨s1, e1, fun c hc => ?_⟩
    have hview : s1.w.view .CELL = w.view .CELL := by rw [e2, hi.view]
    rw [hview] at hc
    refine ⟨_, hcm c hc, (hi.cellNodup c).filter _, fun i => ?_⟩
    rw [List.mem_filter, (htab i).2]
    simp only [decide_eq_true_eq]
    rw [hinv c i]
    by_cases him : i < m
    · rw [if_pos him]
      exact ⟨fun h => h.1, fun h => ⟨h, by omega⟩⟩
    · rw [if_neg him, hlater (i + 1) (by omega)]
      constructor
      · rintro ⟨h1, h2⟩
        rw [hlater i (by omega)] at h1; cases h1
      · intro h; cases h

/-- **C42**, the name of a removed material cannot be used again: the mesh set survives, so that a new material of this
name gets the cells of the removed one as well. -/
theorem removed_material_returns (w : Reg.World) (s s' : State V) (A : Mats) (h : Reached w s A) (zero : V) (m : Nat)
    (x : Mat) (hx : A.mats[m]? = some x) (hr : remMaterial s m = .ok s') (cs : List Nat)
    (hc : NewCells (w.view .CELL) x.cells cs) :
    ∃ s2, addMaterial zero s' x.name cs = .ok s2 ∧ numMaterials s2 = numMaterials s ∧
      (materialCells s2 (numMaterials s')).Perm (x.cells ++ cs) := by
  have hi := h.inv
  have hL : LastEverywhere A m x := by
    by_contra hL
    rw [(remMaterial_facts hi hx).1 hL] at hr; cases hr
  obtain ⟨a, o, ha, -, ho, hs⟩ := matSet_of hi hx
  obtain ⟨s1, e1, e2, e3, e4, e5, e6, e7⟩ := (remMaterial_facts hi hx).2 hL
  rw [e1] at hr
  injection hr with hr; subst hr
  have hmlt : m < s.mats.length := (List.getElem?_eq_some_iff.1 ha).1
  have hlen : s1.mats.length + 1 = s.mats.length := by
    rw [e3, List.length_eraseIdx_of_lt hmlt]; omega
  have hfind := hi.found m a x ha hx
  have hview : s1.w.view .CELL = w.view .CELL := by rw [e2, hi.view]
  -- no other material has this name
  have hany : s1.mats.any (fun a => addrNamed s1 x.name a) ≠ true := by
    intro hh
    obtain ⟨b, hb, hbn⟩ := List.any_eq_true.1 hh
    obtain ⟨j, hj, rfl⟩ := List.getElem_of_mem hb
    have hj' : s1.mats[j]? = some s1.mats[j] := List.getElem?_eq_getElem hj
    have hj2 : s.mats[if j < m then j else j + 1]? = some s1.mats[j] := by
      rw [← hj']
      conv_rhs => rw [e3]
      rw [List.getElem?_eraseIdx]
      split <;> rfl
    obtain ⟨y, hy⟩ := getA hi hj2
    have hbn' : addrNamed s x.name s1.mats[j] = true := by
      unfold addrNamed at hbn ⊢; rw [e2] at hbn; exact hbn
    have hyn := (addrNamed_iff hi hj2 hy).1 hbn'
    have h1 : (A.mats.map fun x => x.name)[if j < m then j else j + 1]? = some x.name := by
      rw [List.getElem?_map, hy]; simp [hyn]
    have h2 : (A.mats.map fun x => x.name)[m]? = some x.name := by rw [List.getElem?_map, hx]; rfl
    have := (List.getElem?_inj (List.getElem?_eq_some_iff.1 h1).1 hi.names).1 (h1.trans h2.symm)
    split at this <;> omega
  obtain ⟨o', hadd, -, -, hperm, -⟩ := addEntities_loose (w.view .CELL) o cs hs.loose
    ⟨hc.nodup, fun e he hm => hc.absent e he (hs.perm.mem_iff.1 hm), hc.bound, hc.typed, hc.some_owned⟩
  have hset : materialSetFor s1.w x.name = .ok (a, s1.w) := by
    unfold materialSetFor; rw [e2, hfind]
  have hgrow : growSet s1.w a cs = .ok { s1.w with heap := s1.w.heap.set a o' } := by
    unfold growSet
    rw [hview, show s1.w.heap[a]? = some o by rw [e2]; exact ho]
    simp only [hadd]
  have hsz : (sizedCellMats s1).length = (w.view .CELL).nAll := by
    unfold sizedCellMats
    split
    · rw [hview, List.length_replicate]
    · exact e5
  obtain ⟨cm, hpush, -, -⟩ := pushMats_ok s1.mats.length cs (sizedCellMats s1) hc.nodup
    (fun c hcc => by rw [hsz]; exact hc.bound c hcc)
  obtain ⟨bs, hfor, -, -, -, -⟩ := forMulti_ok (mvAddMaterial zero cs.length)
    (fun l => l ++ [List.replicate cs.length zero]) s1.vecs s1.blocks (by rw [e4]; exact hi.dataNodup) (fun v hv hm => by
      rw [e4] at hv
      obtain ⟨d1, l, d2, -⟩ := hi.multi v hv hm
      exact ⟨d1, _, e7 v hv hm l d2, rfl⟩)
  let w2 : Reg.World := { s1.w with heap := s1.w.heap.set a o' }
  let s2 : State V := { s1 with w := w2, mats := s1.mats ++ [a], cellMats := cm, blocks := bs }
  refine ⟨s2, ?_, ?_, ?_⟩
  · unfold addMaterial
    rw [if_neg hany]
    simp only [hset, hgrow, hpush, hfor]
    rfl
  · simp only [s2, numMaterials, List.length_append, List.length_singleton]; exact hlen
  · have halt : a < s1.w.heap.length := by rw [e2]; exact (List.getElem?_eq_some_iff.1 ho).1
    have hms : matSet s2 (numMaterials s1) = some o' := by
      unfold matSet numMaterials
      simp only [s2]
      rw [List.getElem?_append_right (Nat.le_refl _), Nat.sub_self]
      simp [w2, halt]
    simp only [materialCells, hms]
    exact hperm.trans (hs.perm.append_right cs)

/-! ### Non-vacuity -/

/-- "steel" in cells 1 and 2, "air" in cells 2 and 0 -/
def exTwo : List (Op Int) := [.addMaterial "steel" [1, 2], exMulti, .addMaterial "air" [2, 0]]

theorem exTwo_reached : ∃ s : State Int, Reached exWorld2 s (matsAfter exTwo) ∧ numMaterials s = 2 ∧
    materialCells s 0 = [1, 2] ∧ materialCells s 1 = [2, 0] ∧ cellMaterials s 2 = .ok [0, 1] ∧
    cellMaterials s 0 = .ok [1] := by
  obtain ⟨ps, s, hr, hs⟩ := run_of_check (zero := (0 : Int)) (count := exCount) (s0 := create 0 exWorld2) (ops := exTwo)
    (f := fun s => decide (numMaterials s = 2 ∧ materialCells s 0 = [1, 2] ∧ materialCells s 1 = [2, 0] ∧
      cellMaterials s 2 = .ok [0, 1] ∧ cellMaterials s 0 = .ok [1])) (by decide +kernel)
  refine ⟨s, ⟨exReg, 0, 0, exCount, exTwo, ps, ?_, hr, rfl⟩, of_decide_eq_true hs⟩
  exact ⟨Or.inr ⟨by decide +kernel, exNew _ _ (by decide) (by decide) (by decide) (by decide)⟩, fun _ => ⟨0, rfl⟩,
    Or.inr ⟨by decide +kernel, exNew _ _ (by decide) (by decide) (by decide) (by decide)⟩, trivial⟩

-- "air" can be removed …
example : ∃ s : State Int, Reached exWorld2 s (matsAfter exTwo) ∧ ∃ s', remMaterial s 1 = .ok s' ∧ Inverse s' := by
  obtain ⟨s, h, h1, h2, h3, h4, h5⟩ := exTwo_reached
  refine ⟨s, h, (rem_material_correct_iff _ s _ h 1 (by rw [h1]; decide)).2 ⟨?_, ?_⟩⟩
  · intro c hc
    rw [h3] at hc
    simp only [List.mem_cons, List.not_mem_nil, or_false] at hc
    rcases hc with rfl | rfl
    exacts [⟨_, h4, rfl⟩, ⟨_, h5, rfl⟩]
  · intro i hi
    have hn : (matsAfter exTwo).mats[i]? = none := List.getElem?_eq_none (by simp [matsAfter, matsFrom, exTwo, exMulti, Op.onMats, Mats.none]; omega)
    simp [materialCells, matSet_none h.inv hn]

-- … and "steel" cannot: cell 2 has it before "air"
example : ∃ s : State Int, Reached exWorld2 s (matsAfter exTwo) ∧ remMaterial s 0 = .error .undefinedBehaviour := by
  obtain ⟨s, h, h1, h2, h3, h4, h5⟩ := exTwo_reached
  exact ⟨s, h, rem_material_undefined _ s _ h 0 2 [0, 1] (by rw [h2]; decide) h4 (by decide)⟩

-- a removed material whose later neighbour keeps its old number: "b" is material 0 now, cell 3 says 1
example : (match run 0 exCount (create 0 exWorld2) [.addMaterial "a" [1], .addMaterial "b" [3], .remMaterial 0] with
    | .ok (_, s) => decide (materialCells s 0 = [3] ∧ cellMaterials (V := Int) s 3 = .ok [1])
    | .error _ => false) = true := by decide +kernel

-- a removed material comes back with its old cells
example : (match run 0 exCount (create 0 exWorld2)
      [.addMaterial "a" [1], .remMaterialByName "a", .addMaterial "a" [2]] with
    | .ok (_, s) => decide (materialCells (V := Int) s 0 = [2, 1] ∧ cellMaterials s 1 = .ok [])
    | .error _ => false) = true := by decide +kernel

end Jali.St
