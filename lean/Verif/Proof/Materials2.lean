import Verif.Proof.Materials
/-! The state manager agrees with the materials asked for after every allowed history. -/
namespace Jali.St
open Jali.MSet
variable {V : Type}

theorem allCells_spec (heap : List Obj) (as : List Nat) : ∀ cells, allCells heap as = .ok cells →
    cells.length = as.length ∧ ∀ (i a : Nat) (o : Obj), as[i]? = some a → heap[a]? = some o →
      cells[i]? = some o.all := by
  induction as with
  | nil => intro cells h; cases h; simp
  | cons a as ih =>
    intro cells h
    unfold allCells at h
    split at h
    · cases h
    · rename_i o ho
      split at h
      · cases h
      · rename_i ls hls
        cases h
        obtain ⟨h1, h2⟩ := ih ls hls
        refine ⟨by simp [h1], ?_⟩
        intro i b p hb hp
        cases i with
        | zero =>
          simp only [List.getElem?_cons_zero, Option.some.injEq] at hb ⊢
          subst hb
          rw [ho] at hp; injection hp with hp; subst hp; rfl
        | succ i =>
          simp only [List.getElem?_cons_succ] at hb ⊢
          exact h2 i b p hb hp

theorem allCells_total (heap : List Obj) (as : List Nat) (h : ∀ a ∈ as, ∃ o, heap[a]? = some o) :
    ∃ cells, allCells heap as = .ok cells := by
  induction as with
  | nil => exact ⟨[], rfl⟩
  | cons a as ih =>
    obtain ⟨o, ho⟩ := h a (by simp)
    obtain ⟨ls, hls⟩ := ih (fun b hb => h b (by simp [hb]))
    exact ⟨_, by unfold allCells; simp only [ho, hls]; rfl⟩

theorem MInv.cellsLen {w0 : Reg.World} {s : State V} {A : Mats} (h : MInv w0 s A) {cells : List (List Nat)}
    (hc : allCells s.w.heap s.mats = .ok cells) :
    cells.map List.length = A.mats.map fun x => x.cells.length := by
  obtain ⟨h1, h2⟩ := allCells_spec _ _ _ hc
  apply List.ext_getElem?
  intro i
  rw [List.getElem?_map, List.getElem?_map]
  cases hx : A.mats[i]? with
  | none =>
    rw [List.getElem?_eq_none (by rw [h1, h.len]; exact List.getElem?_eq_none_iff.1 hx)]; rfl
  | some x =>
    obtain ⟨a, ha⟩ := getS h hx
    obtain ⟨o, ho, hs⟩ := h.sets i a x ha hx
    rw [h2 i a o ha ho]
    simp [hs.perm.length_eq]

theorem MInv.cellsTotal {w0 : Reg.World} {s : State V} {A : Mats} (h : MInv w0 s A) :
    ∃ cells, allCells s.w.heap s.mats = .ok cells := by
  apply allCells_total
  intro a ha
  obtain ⟨i, hi, rfl⟩ := List.getElem_of_mem ha
  have hi' : s.mats[i]? = some s.mats[i] := List.getElem?_eq_getElem hi
  obtain ⟨x, hx⟩ := getA h hi'
  obtain ⟨o, ho, -⟩ := h.sets i _ x hi' hx
  exact ⟨o, ho⟩

theorem allocate_len (x : V) (cells : List (List Nat)) :
    (allocate x cells).map List.length = cells.map List.length := by
  simp [allocate, Function.comp_def]

theorem assignValue_len (x : V) (cells : List (List Nat)) :
    (assignValue x cells).map List.length = cells.map List.length := by
  simp [assignValue, Function.comp_def]

theorem copyCells_ok {layout : Layout} {data : List (List V)} {m : Nat} (cs : List Nat) : ∀ {xs : List V},
    copyCells layout data m cs = .ok xs → xs.length = cs.length ∧
      ∀ (k c : Nat), cs[k]? = some c → ∃ x, elemAt layout data c m = some x ∧ xs[k]? = some x := by
  induction cs with
  | nil => intro xs h; cases h; simp
  | cons c cs ih =>
    intro xs h
    unfold copyCells at h
    split at h
    · cases h
    · rename_i x hx
      split at h
      · cases h
      · rename_i ys hys
        cases h
        obtain ⟨h1, h2⟩ := ih hys
        refine ⟨by simp [h1], ?_⟩
        intro k d hd
        cases k with
        | zero =>
          simp only [List.getElem?_cons_zero, Option.some.injEq] at hd ⊢
          subst hd
          exact ⟨x, hx, rfl⟩
        | succ k =>
          simp only [List.getElem?_cons_succ] at hd ⊢
          exact h2 k d hd

theorem assignFrom_ok {layout : Layout} {data : List (List V)} (cells : List (List Nat)) : ∀ {m : Nat}
    {xss : List (List V)}, assignFrom layout data m cells = .ok xss →
      xss.map List.length = cells.map List.length ∧
      ∀ (i : Nat) (cs : List Nat), cells[i]? = some cs → ∃ xs, xss[i]? = some xs ∧
        copyCells layout data (m + i) cs = .ok xs := by
  induction cells with
  | nil => intro m xss h; cases h; simp
  | cons cs cells ih =>
    intro m xss h
    unfold assignFrom at h
    split at h
    · cases h
    · rename_i xs hxs
      split at h
      · cases h
      · rename_i ys hys
        cases h
        obtain ⟨h1, h2⟩ := ih hys
        refine ⟨by simp [h1, (copyCells_ok cs hxs).1], ?_⟩
        intro i ds hd
        cases i with
        | zero =>
          simp only [List.getElem?_cons_zero, Option.some.injEq] at hd ⊢
          subst hd
          exact ⟨xs, rfl, hxs⟩
        | succ i =>
          simp only [List.getElem?_cons_succ] at hd ⊢
          obtain ⟨zs, hz1, hz2⟩ := h2 i ds hd
          exact ⟨zs, hz1, by rw [← hz2]; congr 1; omega⟩

/-- the block of a new multi-material vector has one entry per material and cell -/
theorem newBlock_multi {zero : V} {num : Nat} {cells : List (List Nat)} {r : Req V} {b : Block V}
    (hm : r.vt = .MULTIVAL) (h : newBlock zero num cells r.vt r.init = .ok b) :
    ∃ l, b = .multi l ∧ l.map List.length = cells.map List.length := by
  rw [hm] at h
  unfold Req.vt at hm
  cases hi : r.init with
  | uninitialized => rw [hi] at h; cases h; exact ⟨_, rfl, allocate_len _ _⟩
  | array d => rw [hi] at hm; cases hm
  | array2 layout d =>
    rw [hi] at h
    simp only [newBlock] at h
    split at h
    · rename_i xs hxs
      cases h
      exact ⟨_, rfl, (assignFrom_ok cells hxs).1⟩
    · cases h
  | value x => rw [hi] at h; cases h; exact ⟨_, rfl, assignValue_len _ _⟩

/-- the invariant only depends on sets, materials and the data of the state vectors -/
theorem MInv.of_same {w0 : Reg.World} {s s' : State V} {A : Mats} (h : MInv w0 s A) (hw : s'.w = s.w)
    (hm : s'.mats = s.mats) (hc : s'.cellMats = s.cellMats)
    (h1 : ∀ v ∈ s'.vecs, v.data < s'.blocks.length)
    (h2 : (s'.vecs.map fun v => v.data).Nodup)
    (h3 : ∀ v ∈ s'.vecs, v.vectype = .MULTIVAL → (∃ d, v.domain = .mesh d) ∧
      ∃ l, s'.blocks[v.data]? = some (.multi l) ∧ l.map List.length = A.mats.map fun x => x.cells.length) :
    MInv w0 s' A := by
  refine ⟨by rw [hw]; exact h.view, by rw [hw]; exact h.reg, by rw [hm]; exact h.len, by rw [hm]; exact h.nodup, ?_,
    h.names, by rw [hw]; exact h.fresh, by rw [hc]; exact h.cellLen, by rw [hc]; exact h.cells0,
    by rw [hc]; exact h.cell, h.cellNil, h.cellNodup, h.inv, h1, h2, h3, by rw [hw, hm]; exact h.found⟩
  intro i a x ha hx
  rw [hm] at ha
  rw [hw]
  exact h.sets i a x ha hx

/-- a block written in place, keeping the shape of multi-material data -/
theorem MInv.of_write {w0 : Reg.World} {s s' : State V} {A : Mats} (h : MInv w0 s A) (hw : s'.w = s.w)
    (hm : s'.mats = s.mats) (hc : s'.cellMats = s.cellMats) (hv : s'.vecs = s.vecs) (a : Nat) (b : Block V)
    (hb : s'.blocks = s.blocks.set a b)
    (hs : ∀ l, s.blocks[a]? = some (.multi l) → l.map List.length = A.mats.map (fun x => x.cells.length) →
      ∃ l', b = .multi l' ∧ l'.map List.length = A.mats.map fun x => x.cells.length) : MInv w0 s' A := by
  refine h.of_same hw hm hc ?_ (by rw [hv]; exact h.dataNodup) ?_
  · intro v hv'
    rw [hv] at hv'
    rw [hb, List.length_set]; exact h.dataLt v hv'
  · intro v hv' hmul
    rw [hv] at hv'
    obtain ⟨e1, l, e2, e3⟩ := h.multi v hv' hmul
    refine ⟨e1, ?_⟩
    by_cases hav : a = v.data
    · subst hav
      obtain ⟨l', rfl, hl'⟩ := hs l e2 e3
      exact ⟨l', by rw [hb, List.getElem?_set_self (h.dataLt v hv')], hl'⟩
    · exact ⟨l, by rw [hb, List.getElem?_set_ne hav]; exact e2, e3⟩

/-- a new block, and perhaps a new vector using it -/
theorem MInv.of_append {w0 : Reg.World} {s s' : State V} {A : Mats} (h : MInv w0 s A) (hw : s'.w = s.w)
    (hm : s'.mats = s.mats) (hc : s'.cellMats = s.cellMats) (b : Block V) (hb : s'.blocks = s.blocks ++ [b])
    (vs : List Vec) (hv : s'.vecs = s.vecs ++ vs)
    (hvs : vs = [] ∨ ∃ v, vs = [v] ∧ v.data = s.blocks.length ∧ (v.vectype = .MULTIVAL → (∃ d, v.domain = .mesh d) ∧
      ∃ l, b = .multi l ∧ l.map List.length = A.mats.map fun x => x.cells.length)) : MInv w0 s' A := by
  have hmem : ∀ v ∈ vs, v.data = s.blocks.length ∧ (v.vectype = .MULTIVAL → (∃ d, v.domain = .mesh d) ∧
      ∃ l, b = .multi l ∧ l.map List.length = A.mats.map fun x => x.cells.length) := by
    intro v hv
    rcases hvs with rfl | ⟨v', rfl, h'⟩
    · cases hv
    · rw [List.mem_singleton] at hv; subst hv; exact h'
  refine h.of_same hw hm hc ?_ ?_ ?_
  · intro v hv'
    rw [hv, List.mem_append] at hv'
    rw [hb, List.length_append, List.length_singleton]
    rcases hv' with hv' | hv'
    · have := h.dataLt v hv'; omega
    · have := (hmem v hv').1; omega
  · rw [hv, List.map_append, List.nodup_append]
    refine ⟨h.dataNodup, ?_, ?_⟩
    · rcases hvs with rfl | ⟨v', rfl, -⟩ <;> simp
    · intro p hp q hq hpq
      obtain ⟨u, hu, rfl⟩ := List.mem_map.1 hp
      obtain ⟨v, hv1, rfl⟩ := List.mem_map.1 hq
      have h1 := h.dataLt u hu
      have h2 := (hmem v hv1).1
      omega
  · intro v hv' hmul
    rw [hv, List.mem_append] at hv'
    rcases hv' with hv' | hv'
    · obtain ⟨e1, l, e2, e3⟩ := h.multi v hv' hmul
      exact ⟨e1, l, by rw [hb, List.getElem?_append_left (h.dataLt v hv')]; exact e2, e3⟩
    · obtain ⟨h1, h2⟩ := hmem v hv'
      obtain ⟨e1, l, rfl, e3⟩ := h2 hmul
      exact ⟨e1, l, by rw [hb, h1]; simp, e3⟩

theorem modify_len (l : List (List V)) (m i : Nat) (x : V) :
    (l.modify m fun row => row.set i x).map List.length = l.map List.length := by
  apply List.ext_getElem?
  intro j
  rw [List.getElem?_map, List.getElem?_map, List.getElem?_modify]
  cases l[j]? with
  | none => simp
  | some row => by_cases hmj : m = j <;> simp [hmj]

theorem addCopy_block {zero : V} {count : Count} {s s' : State V} {v : Vec} {p : Nat}
    (h : addCopy zero count s v = .ok (p, s')) : s' = s ∨ (s'.w = s.w ∧ s'.mats = s.mats ∧ s'.cellMats = s.cellMats ∧
      ∃ b v', s'.blocks = s.blocks ++ [b] ∧ s'.vecs = s.vecs ++ [v'] ∧ v'.data = s.blocks.length ∧
        v'.vectype = v.vectype) := by
  unfold addCopy at h
  split at h
  · cases h; exact Or.inl rfl
  · right
    split at h
    · cases h
    · rename_i v' s1 hc
      split at h
      · cases h
      · cases h
        unfold copyForAdd at hc
        split at hc
        · unfold copyVec at hc
          split at hc
          · cases hc
          · cases hc
            exact ⟨rfl, rfl, rfl, _, _, rfl, rfl, rfl, rfl⟩
        · split at hc
          · split at hc
            · cases hc
            · cases hc
              exact ⟨rfl, rfl, rfl, _, _, rfl, rfl, rfl, rfl⟩
          · cases hc

/-- one operation -/
theorem minv_step {w0 : Reg.World} {zero : V} {count : Count} {s s' : State V} {A : Mats} {o : Op V}
    {p : Option Nat} (h : MInv w0 s A) (ha : o.Allowed w0 A) (hr : o.run zero count s = .ok (p, s')) :
    MInv w0 s' (o.onMats A) := by
  cases o with
  | add r =>
    obtain ⟨i, -, h'⟩ := withPos_ok hr
    unfold St.add at h'
    split at h'
    · cases h'; exact h
    · split at h'
      · cases h'
      · split at h'
        · cases h'
        · rename_i cells hcells
          split at h'
          · cases h'
          · rename_i b hb
            cases h'
            refine h.of_append rfl rfl rfl b rfl _ rfl (Or.inr ⟨_, rfl, rfl, fun hm => ⟨ha hm, ?_⟩⟩)
            obtain ⟨l, rfl, hl⟩ := newBlock_multi hm hb
            exact ⟨l, rfl, hl.trans (h.cellsLen hcells)⟩
  | addCopy v =>
    obtain ⟨i, -, h'⟩ := withPos_ok hr
    rcases addCopy_block h' with rfl | ⟨e1, e2, e3, b, v', e4, e5, e6, e7⟩
    · exact h
    · refine h.of_append e1 e2 e3 b e4 [v'] e5 (Or.inr ⟨v', rfl, e6, fun hm => ?_⟩)
      have : v.vectype = .UNIVAL := ha
      rw [e7, this] at hm; cases hm
  | addMaterial n cs =>
    obtain ⟨-, h'⟩ := noPos_ok hr
    by_cases hn : n ∈ A.mats.map (fun x => x.name)
    · simp only [Op.onMats, if_pos hn]
      unfold St.addMaterial at h'
      rw [if_pos ((any_named h n).2 hn)] at h'
      cases h'; exact h
    · have ha' := Or.resolve_left ha hn
      obtain ⟨s1, e1, e2, -⟩ := addMaterial_new zero h n cs hn ha'.1 ha'.2
      rw [e1] at h'
      cases h'; exact e2
  | addCells i cs =>
    obtain ⟨-, h'⟩ := noPos_ok hr
    obtain ⟨x, hx, hc⟩ := ha
    obtain ⟨s1, e1, e2, -⟩ := addCells_ok zero h i cs x hx hc
    rw [e1] at h'
    cases h'; exact e2
  | remMaterial m => exact ha.elim
  | remMaterialByName n => exact ha.elim
  | copy v =>
    obtain ⟨-, v', h'⟩ := copied_ok hr
    obtain ⟨-, -, h1, -, -, -, h2, h3, h4, b, -, h5⟩ := copyVec_effect h'
    exact h.of_append h2 h3 h4 b h5 [] (by simp [h1]) (Or.inl rfl)
  | uniWrite v i x =>
    obtain ⟨-, h'⟩ := noPos_ok hr
    unfold St.uniWrite at h'
    split at h'
    · rename_i l hl
      split at h'
      · cases h'
        exact h.of_write rfl rfl rfl rfl v.data _ rfl (fun l' hl' => by rw [hl] at hl'; cases hl')
      · cases h'
    · cases h'
  | uniResize v n x =>
    obtain ⟨-, h'⟩ := noPos_ok hr
    unfold St.uniResize at h'
    split at h'
    · rename_i l hl
      cases h'
      exact h.of_write rfl rfl rfl rfl v.data _ rfl (fun l' hl' => by rw [hl] at hl'; cases hl')
    · cases h'
  | multiWrite v i j l x =>
    obtain ⟨-, h'⟩ := noPos_ok hr
    unfold St.multiWrite at h'
    split at h'
    · cases h'
    · split at h'
      · cases h'
      · split at h'
        · rename_i l hl
          split at h'
          · cases h'
          · cases h'
            refine h.of_write rfl rfl rfl rfl v.data _ rfl (fun l' hl' he => ?_)
            rw [hl] at hl'; injection hl' with hl'; injection hl' with hl'; subst hl'
            exact ⟨_, rfl, by rw [modify_len]; exact he⟩
        · cases h'
  | multiAssign v l d =>
    obtain ⟨-, h'⟩ := noPos_ok hr
    unfold St.multiAssign at h'
    split at h'
    · cases h'
    · rename_i cells hcells
      split at h'
      · split at h'
        · cases h'
        · rename_i xs hxs
          cases h'
          exact h.of_write rfl rfl rfl rfl v.data _ rfl (fun _ _ _ =>
            ⟨_, rfl, (assignFrom_ok cells hxs).1.trans (h.cellsLen hcells)⟩)
      · cases h'
  | multiFill v x =>
    obtain ⟨-, h'⟩ := noPos_ok hr
    unfold St.multiFill at h'
    split at h'
    · cases h'
    · rename_i cells hcells
      split at h'
      · cases h'
        exact h.of_write rfl rfl rfl rfl v.data _ rfl (fun _ _ _ =>
          ⟨_, rfl, (assignValue_len x cells).trans (h.cellsLen hcells)⟩)
      · cases h'

/-- every allowed history -/
theorem minv_run {w0 : Reg.World} {zero : V} {count : Count} (os : List (Op V)) : ∀ {s s' : State V} {A : Mats}
    {ps : List (Option Nat)}, MInv w0 s A → AllowedFrom w0 A os → run zero count s os = .ok (ps, s') →
    MInv w0 s' (matsFrom A os) := by
  induction os with
  | nil => intro s s' A ps h _ hr; cases hr; exact h
  | cons o os ih =>
    intro s s' A ps h ha hr
    obtain ⟨p, ps', s1, -, h1, h2⟩ := run_cons hr
    exact ih (minv_step h ha.1 h1) ha.2 h2

end Jali.St
