import Verif.Props.MstkFields
import Verif.Props.MstkNumbering
import Verif.Props.State
/-
C112: import of fields into the state manager and export to the mesh.
-/
namespace Jali.Mstk
open Jali.St
variable {D : Type}

theorem StateKind.field {k : EntityKind} (h : StateKind k) : FieldKind k := by
  rcases h with rfl | rfl | rfl
  · exact Or.inl rfl
  · exact Or.inr (Or.inr (Or.inl rfl))
  · exact Or.inr (Or.inr (Or.inr rfl))

/-- the number of entities the user sees is the number in the MSTK mesh -/
theorem numAll_eq (fm : FMesh D) (hd : fm.Dim) (hf : fm.j.faces = true) {k : EntityKind} (hk : StateKind k) {t : MType}
    (ht : fm.toMtype k = some t) : fm.numAll k = fm.nent t := by
  obtain ⟨h1, h2, h3, h4, h5⟩ := ids_consecutive fm.j.m fm.j.bg
  unfold FMesh.toMtype at ht
  unfold FMesh.numAll
  rcases hd with h | h <;> rw [h] at ht <;> rcases hk with rfl | rfl | rfl <;> cases ht <;> simp only [h, hf]
  · rw [h1.2]; simp [FMesh.nent]
  · rw [h2.2]; simp [FMesh.nent]
  · rw [h5.2]; simp [FMesh.nent]
  · rw [h1.2]; simp [FMesh.nent]
  · rw [h3.2]; simp [FMesh.nent]
  · rw [h4.2]; simp [FMesh.nent]

theorem byName_mem {fm : FMesh D} (hn : (fm.atts.map Attr.name).Nodup) {a : Attr D} (ha : a ∈ fm.atts) :
    fm.byName a.name = some a := by
  unfold FMesh.byName
  generalize fm.atts = l at hn ha
  induction l with
  | nil => cases ha
  | cons b l ih =>
    rw [List.map_cons, List.nodup_cons] at hn
    rcases List.mem_cons.mp ha with rfl | ha
    · simp
    · have : b.name ≠ a.name := fun e => hn.1 (e ▸ List.mem_map_of_mem ha)
      rw [List.find?_cons_of_neg (by simpa using this)]
      exact ih hn.2 ha

theorem get_imported {fm : FMesh D} (hd : fm.Dim) (hn : (fm.atts.map Attr.name).Nodup) (hc : fm.Complete) {a : Attr D}
    (ha : a ∈ fm.atts) {k : EntityKind} (hk : StateKind k) (ht : fm.toMtype k = some a.dim) (ty : Nat) :
    buffer (fm.nent a.dim) (fm.get ty a.name k (fm.nent a.dim)) = some (fm.imported ty a) := by
  have hb := byName_mem hn ha
  unfold FMesh.imported
  by_cases hh : a.Holds ty
  · rw [if_pos hh, get_of_holds hb ht hh ?_ _ (le_refl _)]
    · unfold buffer
      simp
    · intro h0 h1 i hi
      rcases hh with ⟨e, _⟩ | ⟨e, _⟩ | ⟨_, _, e, en⟩
      · exact absurd e h0
      · exact absurd e h1
      · rw [← en]; exact (hc a ha e).2.2 i hi
  · rw [if_neg hh]
    have : fm.get ty a.name k (fm.nent a.dim) = .no := by
      rw [get_refused_iff fm hd ty a.name k hk.field]
      intro b e
      rw [hb] at e
      rw [← Option.some.inj e]
      exact Or.inr hh
    rw [this]
    rfl

theorem imported_length (fm : FMesh D) (ty : Nat) (a : Attr D) : (fm.imported ty a).length = fm.nent a.dim := by
  unfold FMesh.imported; split <;> simp

theorem code_nonneg {k : EntityKind} (hk : StateKind k) : ¬k.code < 0 := by
  rcases hk with rfl | rfl | rfl <;> decide

/-- `add` of a new name -/
theorem add_new {count : St.Domain → EntityKind → EntityType → Nat} {zero : Val D} {s : State (Val D)} {name : String}
    {ty : Nat} {k : EntityKind} (hk : StateKind k) {data : List (Val D)} (hfresh : ∀ v ∈ s.vecs, v.name ≠ name)
    (hcount : count (.mesh s.mesh) k .ALL = data.length) {cells : List (List Nat)} (hcells : allCells s.w.heap s.mats = .ok cells) :
    ∃ s', add zero count s ⟨.UNIVAL, ty, name, .mesh s.mesh, k, .ALL, .array data⟩ = .ok (s.vecs.length, s') ∧
      s'.mesh = s.mesh ∧ s'.w = s.w ∧ s'.mats = s.mats ∧
      s'.vecs = s.vecs ++ [⟨name, .mesh s.mesh, k, .ALL, .UNIVAL, ty, s.blocks.length⟩] ∧
      s'.blocks = s.blocks ++ [.uni data] := by
  have hfind : findTyped s .UNIVAL ty name (.mesh s.mesh) k .ALL = none := by
    unfold findTyped
    rw [List.findIdx?_eq_none_iff]
    intro v hv
    have := hfresh v hv
    simp [fits, this]
  unfold add
  simp only [Req.vt]
  rw [hfind]
  dsimp only
  unfold pushIndex
  rw [if_neg (code_nonneg hk)]
  dsimp only
  rw [hcells]
  dsimp only
  unfold newBlock
  dsimp only
  rw [hcount, if_pos (le_refl _), List.take_length]
  exact ⟨_, rfl, rfl, rfl, rfl, rfl, rfl⟩

/-- `s'` is `s` with the vectors `new` for the fields `L` -/
structure Imported (fm : FMesh D) (k : EntityKind) (s s' : State (Val D)) (L : List (Attr D)) (new : List Vec) : Prop where
  mesh : s'.mesh = s.mesh
  w : s'.w = s.w
  mats : s'.mats = s.mats
  vecs : s'.vecs = s.vecs ++ new
  blocks : s.blocks <+: s'.blocks
  names : new.map Vec.name = (L.filter fun a => (importTy fm.sdim a.type).isSome).map Attr.name
  data : ∀ a ∈ L, ∀ ty, importTy fm.sdim a.type = some ty →
    ∃ v ∈ new, v.name = a.name ∧ v.domain = .mesh s.mesh ∧ v.kind = k ∧ v.type = .ALL ∧ v.vectype = .UNIVAL ∧ v.ty = ty ∧
      s'.blocks[v.data]? = some (.uni (fm.imported ty a))

theorem import_fold {count : St.Domain → EntityKind → EntityType → Nat} {zero : Val D} {fm : FMesh D} (hd : fm.Dim)
    (hn : (fm.atts.map Attr.name).Nodup) (hc : fm.Complete) {k : EntityKind} (hk : StateKind k) :
    ∀ (L : List (Attr D)) (s : State (Val D)) (cells : List (List Nat)), (∀ a ∈ L, a ∈ fm.atts ∧ fm.toMtype k = some a.dim) →
    (L.map Attr.name).Nodup → (∀ v ∈ s.vecs, v.name ∉ L.map Attr.name) → allCells s.w.heap s.mats = .ok cells →
    (∀ t, fm.toMtype k = some t → count (.mesh s.mesh) k .ALL = fm.nent t) →
    ∃ s' new, (L.map fun a => (a.name, a.type)).foldlM (importField count zero fm k) s = .ok s' ∧ Imported fm k s s' L new := by
  intro L
  induction L with
  | nil =>
    intro s cells _ _ _ _ _
    exact ⟨s, [], rfl, rfl, rfl, rfl, (List.append_nil _).symm, List.prefix_refl _, rfl, fun a ha => by cases ha⟩
  | cons a L ih =>
    intro s cells hL hnd hfresh hcells hcount
    obtain ⟨ha, ht⟩ := hL a List.mem_cons_self
    rw [List.map_cons, List.nodup_cons] at hnd
    have hL' : ∀ b ∈ L, b ∈ fm.atts ∧ fm.toMtype k = some b.dim := fun b hb => hL b (List.mem_cons_of_mem _ hb)
    rw [List.map_cons, List.foldlM_cons]
    cases hty : importTy fm.sdim a.type with
    | none =>
      obtain ⟨s', new, h1, h2⟩ := ih s cells hL' hnd.2
        (fun v hv hm => hfresh v hv (by rw [List.map_cons]; exact List.mem_cons_of_mem _ hm)) hcells hcount
      have : importField count zero fm k s (a.name, a.type) = .ok s := by
        unfold importField; dsimp only; rw [hty]
      rw [this]
      refine ⟨s', new, h1, h2.mesh, h2.w, h2.mats, h2.vecs, h2.blocks, ?_, ?_⟩
      · rw [List.filter_cons_of_neg (by simp [hty])]; exact h2.names
      · intro b hb ty hbty
        rcases List.mem_cons.mp hb with rfl | hb
        · rw [hty] at hbty; cases hbty
        · exact h2.data b hb ty hbty
    | some ty =>
      have hcnt : count (.mesh s.mesh) k .ALL = fm.nent a.dim := hcount _ ht
      obtain ⟨s1, e1, e2, e3, e4, e5, e6⟩ := add_new (zero := zero) (count := count) (s := s) (name := a.name) (ty := ty) hk
        (data := fm.imported ty a) (fun v hv e => hfresh v hv (by rw [e, List.map_cons]; exact List.mem_cons_self))
        (by rw [imported_length, hcnt]) hcells
      have hstep : importField count zero fm k s (a.name, a.type) = .ok s1 := by
        unfold importField; dsimp only; rw [hty]
        dsimp only
        rw [hcnt, get_imported hd hn hc ha hk ht ty]
        dsimp only
        rw [e1]
      rw [hstep]
      obtain ⟨s', new, h1, h2⟩ := ih s1 cells hL' hnd.2 (by
          intro v hv hm
          rw [e5, List.mem_append, List.mem_singleton] at hv
          rcases hv with hv | rfl
          · exact hfresh v hv (by rw [List.map_cons]; exact List.mem_cons_of_mem _ hm)
          · exact hnd.1 hm) (by rw [e3, e4]; exact hcells) (by rw [e2]; exact hcount)
      refine ⟨s', ⟨a.name, .mesh s.mesh, k, .ALL, .UNIVAL, ty, s.blocks.length⟩ :: new, h1, h2.mesh.trans e2, h2.w.trans e3, h2.mats.trans e4, ?_, ?_, ?_, ?_⟩
      · rw [h2.vecs, e5, List.append_assoc]; rfl
      · exact List.IsPrefix.trans (by rw [e6]; exact List.prefix_append _ _) h2.blocks
      · rw [List.filter_cons_of_pos (by simp [hty]), List.map_cons, List.map_cons, h2.names]
      · intro b hb ty' hbty
        rcases List.mem_cons.mp hb with rfl | hb
        · rw [hty] at hbty
          have hbty := Option.some.inj hbty
          subst hbty
          refine ⟨_, List.mem_cons_self, rfl, rfl, rfl, rfl, rfl, rfl, ?_⟩
          have hlt : s.blocks.length < s1.blocks.length := by rw [e6]; simp
          obtain ⟨r, hr⟩ := h2.blocks
          rw [← hr, List.getElem?_append_left hlt, e6]
          simp
        · obtain ⟨v, hv, r⟩ := h2.data b hb ty' hbty
          rw [e2] at r
          exact ⟨v, List.mem_cons_of_mem _ hv, r⟩

theorem importKind_ok {count : St.Domain → EntityKind → EntityType → Nat} {zero : Val D} {fm : FMesh D} (hd : fm.Dim)
    (hn : (fm.atts.map Attr.name).Nodup) (hc : fm.Complete) {k : EntityKind} (hk : StateKind k) {t : MType}
    (ht : fm.toMtype k = some t) (s : State (Val D)) (cells : List (List Nat))
    (hfresh : ∀ v ∈ s.vecs, ∀ a ∈ fm.atts, a.dim = t → v.name ≠ a.name) (hcells : allCells s.w.heap s.mats = .ok cells)
    (hcount : ∀ t, fm.toMtype k = some t → count (.mesh s.mesh) k .ALL = fm.nent t) :
    ∃ s' new, importKind count zero fm s k = .ok s' ∧ Imported fm k s s' (fm.atts.filter fun a => t = a.dim) new := by
  have hinfo : fm.fieldInfo k = some ((fm.atts.filter fun a => t = a.dim).map fun a => (a.name, a.type)) := by
    unfold FMesh.fieldInfo
    split
    · rename_i h; rw [h]; rfl
    · rw [ht]; rfl
  unfold importKind
  rw [hinfo]
  apply import_fold hd hn hc hk _ s cells
  · intro a ha
    have := List.mem_filter.mp ha
    exact ⟨this.1, by rw [ht]; exact congrArg some (by simpa using this.2)⟩
  · exact hn.sublist (List.filter_sublist.map _)
  · intro v hv hm
    obtain ⟨a, ha, e⟩ := List.mem_map.mp hm
    have := List.mem_filter.mp ha
    exact hfresh v hv a this.1 (by simpa using (of_decide_eq_true this.2).symm) e.symm
  · exact hcells
  · exact hcount

/-- a vector with a name no other vector has is found by its name -/
theorem get_unique {s : State (Val D)} {A B : List Vec} {v : Vec} {ty : Nat} {k : EntityKind} {d : St.Domain} {name : String}
    (hs : s.vecs = A ++ B) (hA : ∀ x ∈ A, x.name ≠ name) (hB : (B.map Vec.name).Nodup) (hv : v ∈ B) (h1 : v.name = name)
    (h2 : v.domain = d) (h3 : v.kind = k) (h4 : v.vectype = .UNIVAL) (h5 : v.ty = ty) :
    St.get s .UNIVAL ty name d k .ALL = some v := by
  subst h1
  obtain ⟨P, Q, rfl⟩ := List.append_of_mem hv
  have hP : ∀ x ∈ P, x.name ≠ v.name := by
    intro x hx e
    rw [List.map_append, List.map_cons, List.nodup_append] at hB
    exact hB.2.2 x.name (List.mem_map_of_mem hx) v.name List.mem_cons_self e
  have hfind : findTyped s .UNIVAL ty v.name d k .ALL = some (A ++ P).length := by
    unfold findTyped
    rw [hs, ← List.append_assoc, List.findIdx?_append, List.findIdx?_eq_none_iff.mpr]
    · simp [List.findIdx?_cons, fits, h2, h3, h4, h5]
    · intro x hx
      have : x.name ≠ v.name := by
        rcases List.mem_append.mp hx with hx | hx
        · exact hA x hx
        · exact hP x hx
      simp [fits, this]
  unfold St.get
  rw [hfind]
  dsimp only
  rw [hs, ← List.append_assoc, List.getElem?_append_right (le_refl _), Nat.sub_self]
  rfl

/-- **C112** `init_from_mesh` makes a state vector for each field of numbers, vectors or tensors on nodes, faces and cells, with
its name, on all entities of the kind; it has the values of the field if the field has as many components as a vector or
tensor of the space dimension, and contents never written otherwise -/
theorem init_from_mesh (count : St.Domain → EntityKind → EntityType → Nat) (zero : Val D) (fm : FMesh D) (hd : fm.Dim)
    (hf : fm.j.faces = true) (hn : (fm.atts.map Attr.name).Nodup) (hc : fm.Complete) (s : State (Val D)) (cells : List (List Nat))
    (hcells : allCells s.w.heap s.mats = .ok cells) (hfresh : ∀ v ∈ s.vecs, v.name ∉ fm.atts.map Attr.name)
    (hcount : ∀ k, StateKind k → count (.mesh s.mesh) k .ALL = fm.numAll k) :
    ∃ s' new, initFromMesh count zero fm s = .ok s' ∧ s'.vecs = s.vecs ++ new ∧ s'.mesh = s.mesh ∧
      (∀ v ∈ new, ∃ a ∈ fm.atts, v.name = a.name) ∧ (new.map Vec.name).Nodup ∧
      ∀ a ∈ fm.atts, ∀ k, StateKind k → fm.toMtype k = some a.dim → ∀ ty, importTy fm.sdim a.type = some ty →
        ∃ v, St.get s' .UNIVAL ty a.name (.mesh s.mesh) k .ALL = some v ∧ v.type = .ALL ∧
          s'.blocks[v.data]? = some (.uni (fm.imported ty a)) := by
  have hcount' : ∀ k, StateKind k → ∀ t, fm.toMtype k = some t → count (.mesh s.mesh) k .ALL = fm.nent t := by
    intro k hk t ht; rw [hcount k hk, numAll_eq fm hd hf hk ht]
  obtain ⟨tn, hn1⟩ := toMtype_some fm hd (k := .NODE) (Or.inl rfl)
  obtain ⟨tf, hf1⟩ := toMtype_some fm hd (k := .FACE) (Or.inr (Or.inr (Or.inl rfl)))
  obtain ⟨tc, hc1⟩ := toMtype_some fm hd (k := .CELL) (Or.inr (Or.inr (Or.inr rfl)))
  have hdiff : tn ≠ tf ∧ tn ≠ tc ∧ tf ≠ tc := by
    unfold FMesh.toMtype at hn1 hf1 hc1
    rcases hd with h | h <;> rw [h] at hn1 hf1 hc1 <;> cases hn1 <;> cases hf1 <;> cases hc1 <;> decide
  have nameInj : ∀ a ∈ fm.atts, ∀ b ∈ fm.atts, a.name = b.name → a = b := by
    intro a ha b hb e
    have h1 := byName_mem hn ha
    have h2 := byName_mem hn hb
    rw [e, h2] at h1
    exact (Option.some.inj h1).symm
  have fromNames : ∀ {t : MType} {k : EntityKind} {s1 s2 : State (Val D)} {new : List Vec},
      Imported fm k s1 s2 (fm.atts.filter fun a => t = a.dim) new → ∀ v ∈ new, ∃ a ∈ fm.atts, a.dim = t ∧ v.name = a.name := by
    intro t k s1 s2 new hi v hv
    have : v.name ∈ new.map Vec.name := List.mem_map_of_mem hv
    rw [hi.names] at this
    obtain ⟨a, ha, e⟩ := List.mem_map.mp this
    have ha := (List.mem_filter.mp ha).1
    have ha := List.mem_filter.mp ha
    exact ⟨a, ha.1, (of_decide_eq_true ha.2).symm, e.symm⟩
  have nodup : ∀ {t : MType} {k : EntityKind} {s1 s2 : State (Val D)} {new : List Vec},
      Imported fm k s1 s2 (fm.atts.filter fun a => t = a.dim) new → (new.map Vec.name).Nodup := by
    intro t k s1 s2 new hi
    rw [hi.names]
    exact hn.sublist ((List.filter_sublist.trans List.filter_sublist).map _)
  obtain ⟨s1, n1, a1, i1⟩ := importKind_ok (count := count) (zero := zero) hd hn hc (k := .NODE) (Or.inl rfl) hn1 s cells
    (fun v hv a ha _ e => hfresh v hv (e ▸ List.mem_map_of_mem ha)) hcells (hcount' _ (Or.inl rfl))
  obtain ⟨s2, n2, a2, i2⟩ := importKind_ok (count := count) (zero := zero) hd hn hc (k := .FACE) (Or.inr (Or.inl rfl)) hf1 s1 cells
    (by
      intro v hv a ha hdim e
      rw [i1.vecs, List.mem_append] at hv
      rcases hv with hv | hv
      · exact hfresh v hv (e ▸ List.mem_map_of_mem ha)
      · obtain ⟨b, hb, hbd, hbn⟩ := fromNames i1 v hv
        have := nameInj b hb a ha (hbn.symm.trans e)
        subst this
        exact hdiff.1 (hbd.symm.trans hdim))
    (by rw [i1.w, i1.mats]; exact hcells) (by rw [i1.mesh]; exact hcount' _ (Or.inr (Or.inl rfl)))
  obtain ⟨s3, n3, a3, i3⟩ := importKind_ok (count := count) (zero := zero) hd hn hc (k := .CELL) (Or.inr (Or.inr rfl)) hc1 s2 cells
    (by
      intro v hv a ha hdim e
      rw [i2.vecs, i1.vecs, List.mem_append, List.mem_append] at hv
      rcases hv with (hv | hv) | hv
      · exact hfresh v hv (e ▸ List.mem_map_of_mem ha)
      · obtain ⟨b, hb, hbd, hbn⟩ := fromNames i1 v hv
        have := nameInj b hb a ha (hbn.symm.trans e)
        subst this
        exact hdiff.2.1 (hbd.symm.trans hdim)
      · obtain ⟨b, hb, hbd, hbn⟩ := fromNames i2 v hv
        have := nameInj b hb a ha (hbn.symm.trans e)
        subst this
        exact hdiff.2.2 (hbd.symm.trans hdim))
    (by rw [i2.w, i2.mats, i1.w, i1.mats]; exact hcells)
    (by rw [i2.mesh, i1.mesh]; exact hcount' _ (Or.inr (Or.inr rfl)))
  have hvecs : s3.vecs = s.vecs ++ (n1 ++ n2 ++ n3) := by
    rw [i3.vecs, i2.vecs, i1.vecs]; simp
  have hnd : ((n1 ++ n2 ++ n3).map Vec.name).Nodup := by
    rw [List.map_append, List.map_append, List.nodup_append, List.nodup_append]
    refine ⟨⟨nodup i1, nodup i2, ?_⟩, nodup i3, ?_⟩
    · intro x hx y hy e
      obtain ⟨v, hv, rfl⟩ := List.mem_map.mp hx
      obtain ⟨w, hw, rfl⟩ := List.mem_map.mp hy
      obtain ⟨a, ha, had, han⟩ := fromNames i1 v hv
      obtain ⟨b, hb, hbd, hbn⟩ := fromNames i2 w hw
      have := nameInj a ha b hb (han.symm.trans (e.trans hbn))
      subst this
      exact hdiff.1 (had.symm.trans hbd)
    · intro x hx y hy e
      obtain ⟨w, hw, rfl⟩ := List.mem_map.mp hy
      obtain ⟨b, hb, hbd, hbn⟩ := fromNames i3 w hw
      rcases List.mem_append.mp hx with hx | hx
      · obtain ⟨v, hv, rfl⟩ := List.mem_map.mp hx
        obtain ⟨a, ha, had, han⟩ := fromNames i1 v hv
        have := nameInj a ha b hb (han.symm.trans (e.trans hbn))
        subst this
        exact hdiff.2.1 (had.symm.trans hbd)
      · obtain ⟨v, hv, rfl⟩ := List.mem_map.mp hx
        obtain ⟨a, ha, had, han⟩ := fromNames i2 v hv
        have := nameInj a ha b hb (han.symm.trans (e.trans hbn))
        subst this
        exact hdiff.2.2 (had.symm.trans hbd)
  refine ⟨s3, n1 ++ n2 ++ n3, ?_, hvecs, by rw [i3.mesh, i2.mesh, i1.mesh], ?_, hnd, ?_⟩
  · unfold initFromMesh
    rw [List.foldlM_cons, a1]
    show (List.foldlM _ s1 _) = _
    rw [List.foldlM_cons, a2]
    show (List.foldlM _ s2 _) = _
    rw [List.foldlM_cons, a3]
    rfl
  · intro v hv
    rcases List.mem_append.mp hv with hv | hv
    · rcases List.mem_append.mp hv with hv | hv
      · obtain ⟨a, ha, _, e⟩ := fromNames i1 v hv; exact ⟨a, ha, e⟩
      · obtain ⟨a, ha, _, e⟩ := fromNames i2 v hv; exact ⟨a, ha, e⟩
    · obtain ⟨a, ha, _, e⟩ := fromNames i3 v hv; exact ⟨a, ha, e⟩
  · intro a ha k hk hkt ty hty
    have fin : ∀ {v : Vec} {sm : State (Val D)}, v ∈ n1 ++ n2 ++ n3 → sm.blocks <+: s3.blocks →
        (v.name = a.name ∧ v.domain = .mesh s.mesh ∧ v.kind = k ∧ v.type = .ALL ∧ v.vectype = .UNIVAL ∧ v.ty = ty ∧
        sm.blocks[v.data]? = some (.uni (fm.imported ty a))) →
        ∃ v, St.get s3 .UNIVAL ty a.name (.mesh s.mesh) k .ALL = some v ∧ v.type = .ALL ∧
          s3.blocks[v.data]? = some (.uni (fm.imported ty a)) := by
      rintro v sm hv hpre ⟨h1, h2, h3, h4, h5, h6, h7⟩
      refine ⟨v, get_unique hvecs ?_ hnd hv h1 h2 h3 h5 h6, h4, ?_⟩
      · intro x hx e
        exact hfresh x hx (e ▸ List.mem_map_of_mem ha)
      · obtain ⟨r, hr⟩ := hpre
        have hlt := (List.getElem?_eq_some_iff.mp h7).1
        rw [← hr, List.getElem?_append_left hlt]; exact h7
    rcases hk with rfl | rfl | rfl
    · rw [hn1] at hkt
      obtain ⟨v, hv, r⟩ := i1.data a (List.mem_filter.mpr ⟨ha, by simpa using Option.some.inj hkt⟩) ty hty
      exact fin (List.mem_append_left _ (List.mem_append_left _ hv)) (i2.blocks.trans i3.blocks) r
    · rw [hf1] at hkt
      obtain ⟨v, hv, r⟩ := i2.data a (List.mem_filter.mpr ⟨ha, by simpa using Option.some.inj hkt⟩) ty hty
      rw [i1.mesh] at r
      exact fin (List.mem_append_left _ (List.mem_append_right _ hv)) i3.blocks r
    · rw [hc1] at hkt
      obtain ⟨v, hv, r⟩ := i3.data a (List.mem_filter.mpr ⟨ha, by simpa using Option.some.inj hkt⟩) ty hty
      rw [i2.mesh, i1.mesh] at r
      exact fin (List.mem_append_right _ hv) (List.prefix_refl _) r

/-! ### Export -/

theorem Storable.or {ty : Nat} (h : Storable ty) : ty = 0 ∨ ty = 1 ∨ ty = 2 ∨ ty = 3 ∨ ty = 6 := h

/-- type of the field `store_field` makes -/
def exportTy (sdim ty : Nat) : AttType :=
  if ty = 0 then .int else if ty = 1 then .double
  else if ty = 2 ∨ (ty = 3 ∧ sdim = 3) then .vector else .tensor

theorem store_new {zero : D} {fm : FMesh D} {ty : Nat} (hty : Storable ty) {name : String} (hb : fm.byName name = none)
    {k : EntityKind} {t : MType} (ht : fm.toMtype k = some t) {l : List (Val D)} (hl : l.length = fm.nent t)
    (hv : ∀ x ∈ l, OfType ty x) :
    ∃ a : Attr D, fm.store zero ty name k l = .yes { fm with atts := fm.atts ++ [a] } ∧ a.name = name ∧ a.dim = t ∧
      a.Holds ty ∧ a.type = exportTy fm.sdim ty ∧ (List.range (fm.nent t)).map a.val = l ∧
      ∀ i < fm.nent t, OfType ty (a.val i) := by
  have hnone : (fm.atts.findIdx? fun b => b.name = name) = none := by
    unfold FMesh.byName at hb
    rw [List.find?_eq_none] at hb
    rw [List.findIdx?_eq_none_iff]
    intro x hx
    have := hb x hx
    simpa using this
  have main : ∀ a : Attr D, a.name = name → a.dim = t → a.Holds ty → a.type = exportTy fm.sdim ty →
      fm.store zero ty name k l = fm.writeAll a l →
      ∃ a : Attr D, fm.store zero ty name k l = .yes { fm with atts := fm.atts ++ [a] } ∧ a.name = name ∧ a.dim = t ∧
      a.Holds ty ∧ a.type = exportTy fm.sdim ty ∧ (List.range (fm.nent t)).map a.val = l ∧
      ∀ i < fm.nent t, OfType ty (a.val i) := by
    intro a h1 h2 h3 h4 h5
    refine ⟨a.write (fm.nent t) l, ?_, h1, h2, h3, h4, ?_, ?_⟩
    · rw [h5]
      unfold FMesh.writeAll FMesh.put
      rw [h2, if_pos (by omega)]
      have : (a.write (fm.nent t) l).name = name := h1
      rw [this, hnone]
    · rw [range_write a _ _ (by omega), ← hl, List.take_length]
    · intro i hi
      simp only [Attr.write, if_pos hi]
      rw [List.getD_eq_getElem?_getD, List.getElem?_eq_getElem (by omega)]
      exact hv _ (List.getElem_mem _)
  by_cases h0 : ty = 0
  · subst h0
    refine main ⟨name, .int, t, 1, fun _ => noVal .int zero⟩ rfl rfl (Or.inl ⟨rfl, rfl⟩) rfl ?_
    unfold FMesh.store FMesh.storeScalar
    rw [if_pos rfl, ht, hb]
  by_cases h1 : ty = 1
  · subst h1
    refine main ⟨name, .double, t, 1, fun _ => noVal .double zero⟩ rfl rfl (Or.inr (Or.inl ⟨rfl, rfl⟩)) rfl ?_
    unfold FMesh.store FMesh.storeScalar
    rw [if_neg (by decide), if_pos rfl, ht, hb]
  · have he : (if ty = 2 ∨ (ty = 3 ∧ fm.sdim = 3) then AttType.vector else AttType.tensor) = exportTy fm.sdim ty := by
      unfold exportTy; rw [if_neg h0, if_neg h1]
    refine main ⟨name, exportTy fm.sdim ty, t, ty, fun _ => noVal (exportTy fm.sdim ty) zero⟩ rfl rfl ?_ rfl ?_
    · refine Or.inr (Or.inr ⟨h0, h1, ?_, rfl⟩)
      dsimp only
      rw [← he]
      split
      · exact Or.inl rfl
      · exact Or.inr rfl
    · unfold FMesh.store FMesh.storeArray
      rw [if_neg h0, if_neg h1, ht, hb]
      dsimp only
      rw [if_neg (by unfold Storable at hty; omega), he]

/-- `fm'` is `fm` with a new field for each of the vectors -/
structure Exported (fm fm' : FMesh D) (vs : List Vec) (dataOf : Vec → List (Val D)) (new : List (Attr D)) : Prop where
  j : fm'.j = fm.j
  mdim : fm'.mdim = fm.mdim
  sdim : fm'.sdim = fm.sdim
  atts : fm'.atts = fm.atts ++ new
  names : new.map Attr.name = vs.map Vec.name
  field : ∀ v ∈ vs, ∃ a ∈ new, a.name = v.name ∧ fm.toMtype v.kind = some a.dim ∧ a.type = exportTy fm.sdim v.ty ∧
    a.Holds v.ty ∧ (List.range (fm.nent a.dim)).map a.val = dataOf v
  complete : ∀ a ∈ new, a.type = .vector ∨ a.type = .tensor → a.ncomp ≠ 0 ∧ a.ncomp ≠ 1 ∧
    ∀ i < fm.nent a.dim, OfType a.ncomp (a.val i)

theorem export_fold {zero : D} {s : State (Val D)} {dataOf : Vec → List (Val D)} : ∀ (vs : List Vec) (fm : FMesh D),
    fm.Dim → fm.j.faces = true → (∀ v ∈ vs, Exportable fm s v (dataOf v)) → (vs.map Vec.name).Nodup →
    (∀ v ∈ vs, v.name ∉ fm.atts.map Attr.name) →
    ∃ fm' new, exportToMesh zero s vs fm = .ok fm' ∧ Exported fm fm' vs dataOf new := by
  intro vs
  induction vs with
  | nil =>
    intro fm _ _ _ _ _
    exact ⟨fm, [], rfl, rfl, rfl, rfl, (List.append_nil _).symm, rfl, fun v hv => (by cases hv), fun a ha => (by cases ha)⟩
  | cons v vs ih =>
    intro fm hd hf hex hnd hfresh
    have hv := hex v List.mem_cons_self
    rw [List.map_cons, List.nodup_cons] at hnd
    have hb : fm.byName v.name = none := by
      unfold FMesh.byName
      rw [List.find?_eq_none]
      intro a ha e
      exact hfresh v List.mem_cons_self (by rw [← of_decide_eq_true e]; exact List.mem_map_of_mem ha)
    obtain ⟨t, ht⟩ := toMtype_some fm hd hv.kind.field
    obtain ⟨a, h1, h2, h3, h4, h5, h6, h7⟩ := store_new (zero := zero) hv.ty hb ht
      (hv.size.trans (numAll_eq fm hd hf hv.kind ht)) hv.typed
    have hstep : exportVec zero s fm v = .yes { fm with atts := fm.atts ++ [a] } := by
      unfold exportVec
      rw [if_pos hv.uni, if_pos hv.ty.or, if_pos (by rw [hv.mesh]; rfl), hv.data]
      exact h1
    have hmt : ∀ k, FMesh.toMtype { fm with atts := fm.atts ++ [a] } k = fm.toMtype k := fun _ => rfl
    have hne : ∀ t, FMesh.nent { fm with atts := fm.atts ++ [a] } t = fm.nent t := by
      intro t; cases t <;> rfl
    obtain ⟨fm', new, e1, e2⟩ := ih { fm with atts := fm.atts ++ [a] } hd hf
      (fun w hw => by
        have := hex w (List.mem_cons_of_mem _ hw)
        exact ⟨this.uni, this.ty, this.mesh, this.kind, this.data, this.size, this.typed⟩) hnd.2
      (by
        intro w hw hm
        rw [List.map_append, List.mem_append] at hm
        rcases hm with hm | hm
        · exact hfresh w (List.mem_cons_of_mem _ hw) hm
        · rw [List.map_singleton, List.mem_singleton, h2] at hm
          exact hnd.1 (hm ▸ List.mem_map_of_mem hw))
    refine ⟨fm', a :: new, ?_, e2.j, e2.mdim, e2.sdim, ?_, ?_, ?_, ?_⟩
    · unfold exportToMesh; rw [hstep]; exact e1
    · rw [e2.atts]; simp
    · rw [List.map_cons, List.map_cons, e2.names, h2]
    · intro w hw
      rcases List.mem_cons.mp hw with rfl | hw
      · exact ⟨a, List.mem_cons_self, h2, by rw [ht, h3], h5, h4, by rw [h3]; exact h6⟩
      · obtain ⟨b, hb, r1, r2, r3, r4, r5⟩ := e2.field w hw
        rw [hne] at r5
        exact ⟨b, List.mem_cons_of_mem _ hb, r1, r2, r3, r4, r5⟩
    · intro b hb hbt
      rcases List.mem_cons.mp hb with rfl | hb
      · rcases h4 with ⟨_, e⟩ | ⟨_, e⟩ | ⟨n0, n1, _, e⟩
        · rw [e] at hbt; rcases hbt with x | x <;> cases x
        · rw [e] at hbt; rcases hbt with x | x <;> cases x
        · rw [e, h3]; exact ⟨n0, n1, h7⟩
      · have := e2.complete b hb hbt
        rw [hne] at this
        exact this

theorem importTy_suits {sdim ty : Nat} (hs : Suits sdim ty) : importTy sdim (exportTy sdim ty) = some ty := by
  rcases hs with rfl | rfl | ⟨rfl, rfl | rfl⟩ | ⟨rfl, rfl | rfl⟩ <;> rfl

theorem importTy_unsuited {sdim ty : Nat} (hsd : sdim = 2 ∨ sdim = 3) (hty : Storable ty) (hs : ¬Suits sdim ty) :
    importTy sdim (exportTy sdim ty) = some 3 ∧ ty ≠ 3 ∧ ty ≠ 0 ∧ ty ≠ 1 := by
  unfold Suits at hs
  rcases hsd with rfl | rfl <;> rcases hty with rfl | rfl | rfl | rfl | rfl <;>
    first
    | (exfalso; apply hs; omega)
    | exact ⟨rfl, by decide, by decide, by decide⟩

/-- **C112** export and import: the vectors of a state manager, exported to the mesh and imported into a state manager
without these vectors, are there again with the same name, kind, type and values - except arrays that are no vector or
symmetric tensor of the space dimension: they come back with contents never written and as arrays of another size -/
theorem export_import (count : St.Domain → EntityKind → EntityType → Nat) (zero : D) (zv : Val D) (fm : FMesh D) (hd : fm.Dim)
    (hf : fm.j.faces = true) (hsd : fm.sdim = 2 ∨ fm.sdim = 3) (hn : (fm.atts.map Attr.name).Nodup) (hc : fm.Complete)
    (s : State (Val D)) (dataOf : Vec → List (Val D)) (hex : ∀ v ∈ s.vecs, Exportable fm s v (dataOf v))
    (hnd : (s.vecs.map Vec.name).Nodup) (hfresh : ∀ v ∈ s.vecs, v.name ∉ fm.atts.map Attr.name)
    (s0 : State (Val D)) (cells : List (List Nat)) (hcells : allCells s0.w.heap s0.mats = .ok cells) (h0 : s0.vecs = [])
    (hcount : ∀ k, StateKind k → count (.mesh s0.mesh) k .ALL = fm.numAll k) :
    ∃ fm', exportToMesh zero s s.vecs fm = .ok fm' ∧ ∃ s', initFromMesh count zv fm' s0 = .ok s' ∧ ∀ v ∈ s.vecs,
      (Suits fm.sdim v.ty → ∃ v', St.get s' .UNIVAL v.ty v.name (.mesh s0.mesh) v.kind .ALL = some v' ∧
        s'.blocks[v'.data]? = some (.uni (dataOf v))) ∧
      (¬Suits fm.sdim v.ty → ∃ v', St.get s' .UNIVAL 3 v.name (.mesh s0.mesh) v.kind .ALL = some v' ∧
        s'.blocks[v'.data]? = some (.uni (List.replicate (dataOf v).length .junk))) := by
  obtain ⟨fm', new, e1, e2⟩ := export_fold (zero := zero) s.vecs fm hd hf hex hnd hfresh
  refine ⟨fm', e1, ?_⟩
  have hmt : ∀ k, fm'.toMtype k = fm.toMtype k := by intro k; unfold FMesh.toMtype; rw [e2.mdim]
  have hne : ∀ t, fm'.nent t = fm.nent t := by intro t; unfold FMesh.nent; rw [e2.j]
  have hna : ∀ k, fm'.numAll k = fm.numAll k := by intro k; unfold FMesh.numAll; rw [e2.j, e2.mdim]
  have hn' : (fm'.atts.map Attr.name).Nodup := by
    rw [e2.atts, List.map_append, e2.names, List.nodup_append]
    refine ⟨hn, hnd, ?_⟩
    intro x hx y hy e
    obtain ⟨v, hv, rfl⟩ := List.mem_map.mp hy
    exact hfresh v hv (e ▸ hx)
  have hc' : fm'.Complete := by
    intro a ha hat
    rw [hne]
    rw [e2.atts, List.mem_append] at ha
    rcases ha with ha | ha
    · exact hc a ha hat
    · exact e2.complete a ha hat
  obtain ⟨s', nv, i1, _, _, _, _, i2⟩ := init_from_mesh count zv fm' (by unfold FMesh.Dim; rw [e2.mdim]; exact hd)
    (by rw [e2.j]; exact hf) hn' hc' s0 cells hcells (by rw [h0]; intro v hv; cases hv)
    (by intro k hk; rw [hcount k hk, hna])
  refine ⟨s', i1, ?_⟩
  intro v hv
  obtain ⟨a, ha, r1, r2, r3, r4, r5⟩ := e2.field v hv
  have hmem : a ∈ fm'.atts := by rw [e2.atts]; exact List.mem_append_right _ ha
  have hk := (hex v hv).kind
  constructor
  · intro hs
    obtain ⟨v', g1, _, g2⟩ := i2 a hmem v.kind hk (by rw [hmt, r2]) v.ty (by rw [e2.sdim, r3]; exact importTy_suits hs)
    rw [r1] at g1
    refine ⟨v', g1, ?_⟩
    rw [g2]
    unfold FMesh.imported
    rw [if_pos r4, hne, r5]
  · intro hs
    obtain ⟨u1, u2, u3, u4⟩ := importTy_unsuited hsd (hex v hv).ty hs
    obtain ⟨v', g1, _, g2⟩ := i2 a hmem v.kind hk (by rw [hmt, r2]) 3 (by rw [e2.sdim, r3]; exact u1)
    rw [r1] at g1
    refine ⟨v', g1, ?_⟩
    rw [g2]
    unfold FMesh.imported
    rw [if_neg, hne]
    · rw [← r5]; simp
    · intro hh
      rcases r4 with ⟨e, _⟩ | ⟨e, _⟩ | ⟨_, _, _, e⟩
      · exact u3 e
      · exact u4 e
      · rcases hh with ⟨x, _⟩ | ⟨x, _⟩ | ⟨_, _, _, x⟩
        · cases x
        · cases x
        · exact u2 (e.symm.trans x)

/-- **C112** a second export does not change the vectors and tensors in the mesh: they keep the values of the first -/
theorem export_again_stale (zero : D) (fm : FMesh D) (hd : fm.Dim) (s : State (Val D)) (v : Vec) (l : List (Val D))
    (hv : Exportable fm s v l) (ha : v.ty ≠ 0 ∧ v.ty ≠ 1) (a : Attr D) (hb : fm.byName v.name = some a) :
    exportVec zero s fm v = .no := by
  unfold exportVec
  rw [if_pos hv.uni, if_pos hv.ty.or, if_pos (by rw [hv.mesh]; rfl), hv.data]
  exact (store_array_again_refused zero fm hd v.ty ha v.name v.kind hv.kind.field l).mpr (Or.inl ⟨a, hb⟩)

/-- **C112** numbers exported again replace the values in the mesh -/
theorem export_again (zero : D) (fm : FMesh D) (hd : fm.Dim) (hf : fm.j.faces = true) (s : State (Val D)) (v : Vec)
    (l : List (Val D)) (hv : Exportable fm s v l) (ha : v.ty = 0 ∨ v.ty = 1) (a : Attr D) (hb : fm.byName v.name = some a)
    (hk : fm.toMtype v.kind = some a.dim) (hh : a.Holds v.ty) :
    ∃ fm', exportVec zero s fm v = .yes fm' ∧ fm'.get v.ty v.name v.kind l.length = .yes l := by
  have hex : exportVec zero s fm v = fm.store zero v.ty v.name v.kind l := by
    unfold exportVec
    rw [if_pos hv.uni, if_pos hv.ty.or, if_pos (by rw [hv.mesh]; rfl), hv.data]
  rw [hex]
  have hl : l.length = fm.nent a.dim := hv.size.trans (numAll_eq fm hd hf hv.kind hk)
  have hnotno : fm.store zero v.ty v.name v.kind l ≠ .no := by
    rw [Ne, store_scalar_refused_iff zero fm hd v.ty ha v.name v.kind hv.kind.field l]
    rintro ⟨b, hb', h'⟩
    rw [hb] at hb'
    have hb' := Option.some.inj hb'
    subst hb'
    rcases h' with h' | h'
    · exact h' hk
    · exact h' hh
  have hnotub : fm.store zero v.ty v.name v.kind l ≠ .ub := by
    have wr : fm.writeAll a l ≠ .ub := by unfold FMesh.writeAll; rw [if_pos (by omega)]; simp
    have sc : ∀ at', fm.storeScalar zero at' v.name v.kind l ≠ .ub := by
      intro at'
      unfold FMesh.storeScalar
      rw [hk, hb]
      dsimp only
      split
      · simp
      · split
        · simp
        · exact wr
    unfold FMesh.store
    rcases ha with h | h <;> rw [h]
    · rw [if_pos rfl]; exact sc _
    · rw [if_neg (by decide), if_pos rfl]; exact sc _
  cases hst : fm.store zero v.ty v.name v.kind l with
  | ub => exact absurd hst hnotub
  | no => exact absurd hst hnotno
  | yes fm' =>
    refine ⟨fm', rfl, ?_⟩
    obtain ⟨n, h1, ⟨t, h2, h3⟩, h4⟩ := get_after_store zero fm fm' v.ty v.name v.kind l hv.typed hst l.length (le_refl _)
    rw [hk] at h2
    have h2 := Option.some.inj h2
    subst h2
    rw [h4, h3, ← hl, List.take_length]

/-- **C112** a vector with fewer values than the mesh has entities (on owned entities only, say) is read past its end -/
theorem export_short_undefined (zero : D) (fm : FMesh D) (s : State (Val D)) (v : Vec) (l : List (Val D))
    (hu : v.vectype = .UNIVAL) (hty : Storable v.ty) (hm : v.domain = .mesh s.mesh) (hl : s.blocks[v.data]? = some (.uni l))
    (t : MType) (hk : fm.toMtype v.kind = some t) (hb : fm.byName v.name = none) (hshort : l.length < fm.nent t) :
    exportVec zero s fm v = .ub := by
  have wr : ∀ a : Attr D, a.dim = t → fm.writeAll a l = .ub := by
    intro a ha; unfold FMesh.writeAll; rw [ha, if_neg (by omega)]
  unfold exportVec
  rw [if_pos hu, if_pos hty.or, if_pos (by rw [hm]; rfl), hl]
  dsimp only
  unfold FMesh.store FMesh.storeScalar FMesh.storeArray
  rw [hk, hb]
  dsimp only
  split
  · exact wr _ rfl
  · split
    · exact wr _ rfl
    · rw [if_neg (by unfold Storable at hty; omega)]
      exact wr _ rfl

/-- **C112** a vector on a tile ends in a null pointer -/
theorem export_tile_undefined (zero : D) (fm : FMesh D) (s : State (Val D)) (v : Vec) (i : Nat) (hu : v.vectype = .UNIVAL)
    (hty : Storable v.ty) (hm : v.domain = .tile i) : exportVec zero s fm v = .ub := by
  unfold exportVec
  rw [if_pos hu, if_pos hty.or, if_neg (by rw [hm]; simp [onMesh])]

/-- **C112** if faces were not requested, `init_from_mesh` reads a field on faces into an empty buffer -/
theorem import_faces_overflow (fm : FMesh D) (hd : fm.Dim) (hf : fm.j.faces = false) (a : Attr D) (ty : Nat)
    (hb : fm.byName a.name = some a) (hk : fm.toMtype .FACE = some a.dim) (hh : a.Holds ty) (hpos : 0 < fm.nent a.dim) :
    fm.get ty a.name .FACE (fm.numAll .FACE) = .ub := by
  have h0 : fm.numAll .FACE = 0 := by unfold FMesh.numAll; simp [hf]
  have sc : ∀ t', a.type = t' → fm.getScalar t' a.name .FACE 0 = .ub := by
    intro t' ht'
    unfold FMesh.getScalar
    rw [hb, hk]
    dsimp only
    rw [if_neg (by simp), if_neg (by simp [ht']), if_neg (by omega)]
  rw [h0]
  unfold FMesh.get
  rcases hh with ⟨rfl, h⟩ | ⟨rfl, h⟩ | ⟨h0, h1, h, hn⟩
  · rw [if_pos rfl]; exact sc _ h
  · rw [if_neg (by decide), if_pos rfl]; exact sc _ h
  · rw [if_neg h0, if_neg h1]
    unfold FMesh.getArray
    rw [hb, hk]
    dsimp only
    rw [if_neg (by simp), if_neg (by rcases h with h | h <;> simp [h]), if_neg (by simp [hn]), if_neg (by omega)]

/-! ### Examples -/

/-- a state manager with an integer and a 2-vector on the two cells of a mesh -/
def sampleState : State (Val Nat) :=
  { (create 0 exWorld : State (Val Nat)) with
    blocks := [.uni [.int 5, .int 6], .uni [.vec [1, 2], .vec [3, 4]]]
    vecs := [⟨"p", .mesh 0, .CELL, .ALL, .UNIVAL, 0, 0⟩, ⟨"q", .mesh 0, .CELL, .ALL, .UNIVAL, 2, 1⟩]
    names := ["p", "q"] }

def sampleData (v : Vec) : List (Val Nat) := if v.data = 0 then [.int 5, .int 6] else [.vec [1, 2], .vec [3, 4]]

/-- the hypotheses of `export_import` hold; in three dimensions the integer is suited, the 2-vector is not -/
example : (∀ v ∈ sampleState.vecs, Exportable sampleFields sampleState v (sampleData v)) ∧
    (sampleState.vecs.map Vec.name).Nodup ∧ sampleFields.Dim ∧ sampleFields.j.faces = true ∧ sampleFields.sdim = 3 ∧
    sampleFields.Complete ∧ Suits 3 0 ∧ ¬Suits 3 2 ∧ allCells (create 0 exWorld : State (Val Nat)).w.heap [] = .ok [] := by
  refine ⟨?_, by decide +kernel, Or.inr rfl, rfl, rfl, ?_, Or.inl rfl, by unfold Suits; omega, rfl⟩
  · intro v hv
    rcases List.mem_cons.mp hv with rfl | hv
    · refine ⟨rfl, Or.inl rfl, rfl, Or.inr (Or.inr rfl), rfl, by decide +kernel, ?_⟩
      intro x hx
      rcases List.mem_cons.mp hx with rfl | hx
      · rfl
      · rcases List.mem_singleton.mp hx with rfl; rfl
    · rcases List.mem_singleton.mp hv with rfl
      refine ⟨rfl, Or.inr (Or.inr (Or.inl rfl)), rfl, Or.inr (Or.inr rfl), rfl, by decide +kernel, ?_⟩
      intro x hx
      rcases List.mem_cons.mp hx with rfl | hx
      · exact ⟨by decide, by decide, rfl⟩
      · rcases List.mem_singleton.mp hx with rfl; exact ⟨by decide, by decide, rfl⟩
  · intro a ha; cases ha

/-- the integers come back, the 2-vectors as arrays of three elements never written -/
example : (match exportToMesh 0 sampleState sampleState.vecs sampleFields with
    | .error _ => []
    | .ok fm =>
      match initFromMesh (fun _ k _ => fm.numAll k) .null fm (create 0 exWorld) with
      | .error _ => []
      | .ok s' => s'.vecs.map fun v => (v.name, v.ty, s'.blocks[v.data]?)) =
    [("p", 0, some (.uni [.int 5, .int 6])), ("q", 3, some (.uni [.junk, .junk]))] := by decide +kernel

end Jali.Mstk
