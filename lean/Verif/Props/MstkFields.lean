import Verif.Proof.MstkFields
import Verif.Props.MstkDirs
/-
C111: fields stored with the mesh and read back.
-/
namespace Jali.Mstk
variable {D : Type}

/-- a `store_field` that returned true wrote one attribute, which holds values of the element type -/
theorem store_effect {zero : D} {fm fm' : FMesh D} {ty : Nat} {name : String} {k : EntityKind} {data : List (Val D)}
    (h : fm.store zero ty name k data = .yes fm') :
    ∃ (t : MType) (a : Attr D), fm.toMtype k = some t ∧ a.name = name ∧ a.dim = t ∧ a.Holds ty ∧
      fm.nent t ≤ data.length ∧ fm' = fm.put (a.write (fm.nent t) data) ∧
      (∀ b, fm.byName name = some b → a = b) := by
  have wr : ∀ (a : Attr D), fm.writeAll a data = .yes fm' →
      fm.nent a.dim ≤ data.length ∧ fm' = fm.put (a.write (fm.nent a.dim) data) := by
    intro a ha
    unfold FMesh.writeAll at ha
    split at ha
    · rename_i hl; injection ha with ha; exact ⟨hl, ha.symm⟩
    · cases ha
  have sc : ∀ at', fm.storeScalar zero at' name k data = .yes fm' →
      ∃ (t : MType) (a : Attr D), fm.toMtype k = some t ∧ a.name = name ∧ a.dim = t ∧ a.type = at' ∧
      fm.nent t ≤ data.length ∧ fm' = fm.put (a.write (fm.nent t) data) ∧ (∀ b, fm.byName name = some b → a = b) := by
    intro at' hs
    unfold FMesh.storeScalar at hs
    cases ht : fm.toMtype k with
    | none => rw [ht] at hs; cases hs
    | some t =>
      rw [ht] at hs
      dsimp only at hs
      cases hb : fm.byName name with
      | some a =>
        rw [hb] at hs
        dsimp only at hs
        split at hs
        · cases hs
        · rename_i hdim
          split at hs
          · cases hs
          · rename_i htype
            have hdim : t = a.dim := not_not.mp hdim
            obtain ⟨h1, h2⟩ := wr a hs
            subst hdim
            exact ⟨_, a, rfl, byName_name hb, rfl, not_not.mp htype, h1, h2, fun b e => Option.some.inj e⟩
      | none =>
        rw [hb] at hs
        obtain ⟨h1, h2⟩ := wr _ hs
        exact ⟨t, _, rfl, rfl, rfl, rfl, h1, h2, fun b e => by cases e⟩
  unfold FMesh.store at h
  split at h
  · rename_i h0
    obtain ⟨t, a, e1, e2, e3, e4, e5⟩ := sc _ h
    exact ⟨t, a, e1, e2, e3, Or.inl ⟨h0, e4⟩, e5⟩
  · split at h
    · rename_i h1
      obtain ⟨t, a, e1, e2, e3, e4, e5⟩ := sc _ h
      exact ⟨t, a, e1, e2, e3, Or.inr (Or.inl ⟨h1, e4⟩), e5⟩
    · rename_i h0 h1
      unfold FMesh.storeArray at h
      cases ht : fm.toMtype k with
      | none => rw [ht] at h; cases h
      | some t =>
        rw [ht] at h
        dsimp only at h
        cases hb : fm.byName name with
        | some a =>
          rw [hb] at h
          dsimp only at h
          split at h
          · cases h
          · split at h
            · cases h
            · rename_i hno
              exfalso
              apply hno
              cases a.type <;> simp
        | none =>
          rw [hb] at h
          dsimp only at h
          split at h
          · cases h
          · obtain ⟨e1, e2⟩ := wr _ h
            refine ⟨t, _, rfl, rfl, rfl, Or.inr (Or.inr ⟨h0, h1, ?_, rfl⟩), e1, e2, fun b e => by cases e⟩
            dsimp only
            split
            · exact Or.inl rfl
            · exact Or.inr rfl

theorem mapM_readVec (N : Nat) (hN : N ≠ 0 ∧ N ≠ 1) (l : List (Val D)) (h : ∀ x ∈ l, OfType N x) :
    l.mapM (readVec N) = some l := by
  induction l with
  | nil => rfl
  | cons x l ih =>
    have hx := h x List.mem_cons_self
    rw [List.mapM_cons, ih fun y hy => h y (List.mem_cons_of_mem _ hy)]
    cases x with
    | int i => exact absurd hx hN.1
    | real r => exact absurd hx hN.2
    | vec v =>
      have hv : v.length = N := hx.2.2
      have e : readVec N (.vec v) = some (.vec v) := by
        unfold readVec
        dsimp only
        rw [if_pos (by omega), List.take_of_length_le (by omega)]
      rw [e]
      rfl
    | null => exact hx.elim
    | junk => exact hx.elim

/-- reading a field with the element type it has -/
theorem get_of_holds {fm : FMesh D} {a : Attr D} {ty : Nat} {k : EntityKind} {name : String} (hb : fm.byName name = some a)
    (hk : fm.toMtype k = some a.dim) (hh : a.Holds ty)
    (hv : ty ≠ 0 → ty ≠ 1 → ∀ i < fm.nent a.dim, OfType ty (a.val i)) (cap : Nat) (hc : fm.nent a.dim ≤ cap) :
    fm.get ty name k cap = .yes ((List.range (fm.nent a.dim)).map a.val) := by
  have sc : ∀ t', a.type = t' → fm.getScalar t' name k cap = .yes ((List.range (fm.nent a.dim)).map a.val) := by
    intro t' ht'
    unfold FMesh.getScalar
    rw [hb, hk]
    dsimp only
    rw [if_neg (by simp), if_neg (by simp [ht']), if_pos hc]
  unfold FMesh.get
  rcases hh with ⟨rfl, h⟩ | ⟨rfl, h⟩ | ⟨h0, h1, h, hn⟩
  · rw [if_pos rfl]; exact sc _ h
  · rw [if_neg (by decide), if_pos rfl]; exact sc _ h
  · rw [if_neg h0, if_neg h1]
    unfold FMesh.getArray
    rw [hb, hk]
    dsimp only
    rw [if_neg (by simp), if_neg (by rcases h with h | h <;> simp [h]), if_neg (by simp [hn]), if_pos hc]
    have : ((List.range (fm.nent a.dim)).mapM fun i => readVec ty (a.val i)) =
        some ((List.range (fm.nent a.dim)).map a.val) := by
      rw [← mapM_readVec ty ⟨h0, h1⟩ ((List.range (fm.nent a.dim)).map a.val), List.mapM_map]
      · rfl
      intro x hx
      obtain ⟨i, hi, rfl⟩ := List.mem_map.mp hx
      exact hv h0 h1 i (List.mem_range.mp hi)
    rw [this]

/-- **C111** what was stored is what is read: after `store_field` returned true, `get_field` with the same name, kind and
element type gives back the data -/
theorem get_after_store (zero : D) (fm fm' : FMesh D) (ty : Nat) (name : String) (k : EntityKind) (data : List (Val D))
    (hd : ∀ x ∈ data, OfType ty x) (h : fm.store zero ty name k data = .yes fm') (cap : Nat) (hc : data.length ≤ cap) :
    ∃ n, n ≤ data.length ∧ (∃ t, fm.toMtype k = some t ∧ n = fm.nent t) ∧ fm'.get ty name k cap = .yes (data.take n) := by
  obtain ⟨t, a, e1, e2, e3, e4, e5, rfl, _⟩ := store_effect h
  refine ⟨fm.nent t, e5, ⟨t, e1, rfl⟩, ?_⟩
  have hb : (fm.put (a.write (fm.nent t) data)).byName name = some (a.write (fm.nent t) data) := by
    have := put_byName fm (a.write (fm.nent t) data)
    rw [← e2]; exact this
  have hk : (fm.put (a.write (fm.nent t) data)).toMtype k = some (a.write (fm.nent t) data).dim := by
    rw [put_toMtype, e1, ← e3]; rfl
  have hdim : (a.write (fm.nent t) data).dim = t := e3
  rw [get_of_holds hb hk e4 ?_ cap (by rw [put_nent, hdim]; omega), put_nent, hdim, range_write a _ _ e5]
  intro _ _ i hi
  rw [put_nent, hdim] at hi
  have hx : (a.write (fm.nent t) data).val i = data[i]'(by omega) := by
    simp only [Attr.write, if_pos hi]
    rw [List.getD_eq_getElem?_getD, List.getElem?_eq_getElem (by omega)]; rfl
  rw [hx]
  exact hd _ (List.getElem_mem _)

/-- **C111** storing a field changes no other field -/
theorem store_frame (zero : D) (fm fm' : FMesh D) (ty : Nat) (name : String) (k : EntityKind) (data : List (Val D))
    (h : fm.store zero ty name k data = .yes fm') (other : String) (ho : other ≠ name) :
    (∀ ty' k' cap, fm'.get ty' other k' cap = fm.get ty' other k' cap) ∧
    ∀ k' i, fm'.valueOf other k' i = fm.valueOf other k' i := by
  obtain ⟨t, a, e1, e2, e3, e4, e5, rfl, _⟩ := store_effect h
  have hb := put_byName_other fm (a.write (fm.nent t) data) other (by intro e; exact ho (e.trans e2))
  constructor
  · intro ty' k' cap
    unfold FMesh.get FMesh.getScalar FMesh.getArray
    rw [hb]
    simp only [put_toMtype, put_nent]
  · intro k' i
    unfold FMesh.valueOf
    rw [hb]
    simp only [put_entity]

/-- **C111** numbers: `store_field` is refused exactly if a field of the name exists on another kind of entities or with
another type -/
theorem store_scalar_refused_iff (zero : D) (fm : FMesh D) (hd : fm.Dim) (ty : Nat) (hty : ty = 0 ∨ ty = 1) (name : String)
    (k : EntityKind) (hk : FieldKind k) (data : List (Val D)) :
    fm.store zero ty name k data = .no ↔ ∃ a, fm.byName name = some a ∧ (fm.toMtype k ≠ some a.dim ∨ ¬a.Holds ty) := by
  obtain ⟨t, ht⟩ := toMtype_some fm hd hk
  have wr : ∀ a : Attr D, fm.writeAll a data ≠ .no := by
    intro a; unfold FMesh.writeAll; split <;> simp
  have main : ∀ at', (∀ a : Attr D, a.Holds ty ↔ a.type = at') → (fm.storeScalar zero at' name k data = .no ↔
      ∃ a, fm.byName name = some a ∧ (fm.toMtype k ≠ some a.dim ∨ ¬a.Holds ty)) := by
    intro at' hat
    unfold FMesh.storeScalar
    rw [ht]
    dsimp only
    cases hb : fm.byName name with
    | none => simp [wr]
    | some a =>
      dsimp only
      by_cases h1 : t = a.dim
      · rw [if_neg (by simp [h1])]
        by_cases h2 : a.type = at'
        · rw [if_neg (by simp [h2])]
          simp [wr, h1, (hat a).mpr h2]
        · rw [if_pos h2]
          exact ⟨fun _ => ⟨a, rfl, Or.inr fun e => h2 ((hat a).mp e)⟩, fun _ => rfl⟩
      · rw [if_pos h1]
        exact ⟨fun _ => ⟨a, rfl, Or.inl fun e => h1 (Option.some.inj e)⟩, fun _ => rfl⟩
  unfold FMesh.store
  rcases hty with rfl | rfl
  · rw [if_pos rfl]
    exact main _ fun a => by simp [Attr.Holds]
  · rw [if_neg (by decide), if_pos rfl]
    exact main _ fun a => by simp [Attr.Holds]

/-- **C111** vectors and tensors: a field that exists can never be stored again, not even with the same type
(Mesh_MSTK.hh:916 says `||` for `&&`) -/
theorem store_array_again_refused (zero : D) (fm : FMesh D) (hd : fm.Dim) (N : Nat) (hN : N ≠ 0 ∧ N ≠ 1) (name : String)
    (k : EntityKind) (hk : FieldKind k) (data : List (Val D)) :
    fm.store zero N name k data = .no ↔ (∃ a, fm.byName name = some a) ∨ ¬Storable N := by
  obtain ⟨t, ht⟩ := toMtype_some fm hd hk
  have wr : ∀ a : Attr D, fm.writeAll a data ≠ .no := by
    intro a; unfold FMesh.writeAll; split <;> simp
  unfold FMesh.store
  rw [if_neg hN.1, if_neg hN.2]
  unfold FMesh.storeArray
  rw [ht]
  dsimp only
  cases hb : fm.byName name with
  | some a =>
    dsimp only
    refine ⟨fun _ => Or.inl ⟨a, rfl⟩, fun _ => ?_⟩
    split
    · rfl
    · rw [if_pos (by cases a.type <;> simp)]
  | none =>
    dsimp only
    split
    · rename_i h
      refine ⟨fun _ => Or.inr ?_, fun _ => rfl⟩
      unfold Storable; omega
    · rename_i h
      refine ⟨fun e => absurd e (wr _), ?_⟩
      rintro (⟨a, e⟩ | e)
      · cases e
      · exfalso; apply e; unfold Storable; omega

/-- **C111** `get_field` returns false exactly if there is no field of the name, or it lives on other entities, or
has another type -/
theorem get_refused_iff (fm : FMesh D) (hd : fm.Dim) (ty : Nat) (name : String) (k : EntityKind) (hk : FieldKind k) (cap : Nat) :
    fm.get ty name k cap = .no ↔ ∀ a, fm.byName name = some a → fm.toMtype k ≠ some a.dim ∨ ¬a.Holds ty := by
  obtain ⟨t, ht⟩ := toMtype_some fm hd hk
  have main : ∀ at', (∀ a : Attr D, a.Holds ty ↔ a.type = at') → (fm.getScalar at' name k cap = .no ↔
      ∀ a, fm.byName name = some a → fm.toMtype k ≠ some a.dim ∨ ¬a.Holds ty) := by
    intro at' hat
    unfold FMesh.getScalar
    cases hb : fm.byName name with
    | none => simp
    | some a =>
      rw [ht]
      dsimp only
      by_cases h1 : t = a.dim
      · rw [if_neg (by simp [h1])]
        by_cases h2 : a.type = at'
        · rw [if_neg (by simp [h2])]
          constructor
          · intro e; split at e <;> cases e
          · intro e
            rcases e a rfl with x | x
            · exact absurd (by rw [h1]) x
            · exact absurd ((hat a).mpr h2) x
        · rw [if_pos h2]
          refine ⟨fun _ b e => Or.inr fun x => h2 ?_, fun _ => rfl⟩
          rw [Option.some.inj e]; exact (hat b).mp x
      · rw [if_pos h1]
        refine ⟨fun _ b e => Or.inl fun x => h1 ?_, fun _ => rfl⟩
        rw [Option.some.inj e]; exact Option.some.inj x
  unfold FMesh.get
  by_cases h0 : ty = 0
  · subst h0; rw [if_pos rfl]; exact main _ fun a => by simp [Attr.Holds]
  by_cases h1 : ty = 1
  · subst h1; rw [if_neg h0, if_pos rfl]; exact main _ fun a => by simp [Attr.Holds]
  rw [if_neg h0, if_neg h1]
  have hat : ∀ a : Attr D, a.Holds ty ↔ (a.type = .vector ∨ a.type = .tensor) ∧ a.ncomp = ty := by
    intro a; unfold Attr.Holds; simp [h0, h1]
  unfold FMesh.getArray
  cases hb : fm.byName name with
  | none => simp
  | some a =>
    rw [ht]
    dsimp only
    by_cases hh : t = a.dim
    · rw [if_neg (by simp [hh])]
      by_cases h2 : a.type ≠ .vector ∧ a.type ≠ .tensor
      · rw [if_pos h2]
        refine ⟨fun _ b e => Or.inr fun x => ?_, fun _ => rfl⟩
        rw [← Option.some.inj e] at x
        rcases ((hat a).mp x).1 with y | y
        · exact h2.1 y
        · exact h2.2 y
      · rw [if_neg h2]
        have h2' : a.type = .vector ∨ a.type = .tensor := by
          by_contra hc; rw [not_or] at hc; exact h2 hc
        by_cases h3 : a.ncomp = ty
        · rw [if_neg (by simp [h3])]
          constructor
          · intro e
            split at e
            · split at e <;> cases e
            · cases e
          · intro e
            rcases e a rfl with x | x
            · exact absurd (by rw [hh]) x
            · exact absurd ((hat a).mpr ⟨h2', h3⟩) x
        · rw [if_pos h3]
          refine ⟨fun _ b e => Or.inr fun x => ?_, fun _ => rfl⟩
          rw [← Option.some.inj e] at x
          exact h3 ((hat a).mp x).2
    · rw [if_pos hh]
      refine ⟨fun _ b e => Or.inl fun x => hh ?_, fun _ => rfl⟩
      rw [Option.some.inj e]; exact Option.some.inj x

/-- **C111** sides, wedges and corners have no fields: the table of kinds is read out of bounds -/
theorem derived_kinds_undefined (zero : D) (fm : FMesh D) (ty : Nat) (name : String) (k : EntityKind) (hk : ¬FieldKind k)
    (data : List (Val D)) : fm.store zero ty name k data = .ub := by
  unfold FMesh.store FMesh.storeScalar FMesh.storeArray
  rw [toMtype_none fm hk]
  simp

/-! ### The entity a value belongs to -/

/-- **C111** the value stored at position `id` belongs to the entity with this id, for all data, exactly if Jali numbers the
entities in the order of the MSTK mesh -/
theorem stored_for_entity_iff (zero : D) (fm : FMesh D) (hd : fm.Dim) (name : String) (hn : fm.byName name = none)
    (k : EntityKind) (hk : FieldKind k) (t : MType) (ht : fm.toMtype k = some t) :
    (∀ data fm', data.length = fm.nent t → fm.store zero 0 name k data = .yes fm' →
      ∀ id < fm.nent t, fm'.valueOf name k id = data[id]?) ↔
    ∀ id < fm.nent t, fm.entity k id = some id := by
  have val : ∀ (data : List (Val D)) (fm' : FMesh D), fm.store zero 0 name k data = .yes fm' → data.length = fm.nent t →
      ∀ id < fm.nent t, ∃ h, fm.entity k id = some h ∧ h < fm.nent t ∧ fm'.valueOf name k id = data[h]? := by
    intro data fm' hs hl id hid
    obtain ⟨t', a, e1, e2, e3, e4, e5, rfl, _⟩ := store_effect hs
    rw [ht] at e1
    have e1 := (Option.some.inj e1).symm
    subst e1
    obtain ⟨h, h1, h2⟩ := entity_lt fm hd hk ht hid
    refine ⟨h, h1, h2, ?_⟩
    unfold FMesh.valueOf
    have := put_byName fm (a.write (fm.nent t') data)
    have hb : (fm.put (a.write (fm.nent t') data)).byName name = some (a.write (fm.nent t') data) := by
      rw [← e2]; exact this
    rw [hb, Option.bind_some, put_entity, h1, Option.map_some]
    simp only [Attr.write, if_pos h2]
    rw [List.getD_eq_getElem?_getD, List.getElem?_eq_getElem (by omega)]; rfl
  constructor
  · intro hall id hid
    have hs : ∃ fm', fm.store zero 0 name k ((List.range (fm.nent t)).map fun i : Nat => Val.int (i : Int)) = .yes fm' := by
      unfold FMesh.store
      rw [if_pos rfl]
      unfold FMesh.storeScalar
      rw [ht, hn]
      unfold FMesh.writeAll
      dsimp only
      rw [if_pos (by simp)]
      exact ⟨_, rfl⟩
    obtain ⟨fm', hs⟩ := hs
    obtain ⟨h, h1, h2, h3⟩ := val _ fm' hs (by simp) id hid
    have := hall _ fm' (by simp) hs id hid
    rw [h3] at this
    simp only [List.getElem?_map, List.getElem?_range h2, List.getElem?_range hid, Option.map_some, Option.some.injEq,
      Val.int.injEq] at this
    rw [h1]
    congr 1
    omega
  · intro hin data fm' hl hs id hid
    obtain ⟨h, h1, h2, h3⟩ := val data fm' hs hl id hid
    rw [hin id hid] at h1
    rw [h3, Option.some.inj h1]

/-- all ids are positions in the MSTK mesh iff the two numberings are the same -/
theorem entity_iff_inOrder (fm : FMesh D) (hd : fm.Dim) (k : EntityKind) (hk : FieldKind k) (t : MType)
    (ht : fm.toMtype k = some t) : (∀ id < fm.nent t, fm.entity k id = some id) ↔ fm.InOrder k := by
  have lt : ∀ id h, fm.entity k id = some h → id < fm.nent t := by
    intro id h he
    have key : ∀ {n : Nat} {im : IdMap n} {L : List (Fin n)}, Numbered im L → (im.at id).map Fin.val = some h → id < n := by
      intro n im L hn e
      rw [Option.map_eq_some_iff] at e
      obtain ⟨v, hv, _⟩ := e
      exact hn.lt_of_at hv
    unfold FMesh.toMtype at ht
    unfold FMesh.entity at he
    rcases hd with h' | h' <;> rw [h'] at ht <;> rcases hk with rfl | rfl | rfl | rfl <;> cases ht <;>
      simp only [h'] at he
    · exact key fm.j.m.vnum he
    · exact key fm.j.m.enum he
    · exact key fm.j.m.enum he
    · exact key (fm.j.m.cnum _) he
    · exact key fm.j.m.vnum he
    · exact key fm.j.m.enum he
    · exact key fm.j.m.fnum he
    · exact key (fm.j.m.rnum _) he
  constructor
  · intro h id x he
    have := h id (lt id x he)
    rw [he] at this
    exact Option.some.inj this
  · intro h id hid
    obtain ⟨x, h1, _⟩ := entity_lt fm hd hk ht hid
    rw [h1, h id x h1]

theorem map_val_iff {n : Nat} (im : IdMap n) :
    (∀ id h, (im.at id).map Fin.val = some h → h = id) ↔ ∀ i v, im.at i = some v → v.val = i := by
  constructor
  · intro h i v hv; exact h i v.val (by rw [hv]; rfl)
  · intro h id x hx
    rw [Option.map_eq_some_iff] at hx
    obtain ⟨v, hv, rfl⟩ := hx
    exact h id v hv

/-- **C111** when the two numberings are the same: no ghost comes before an owned entity in the MSTK mesh, and no boundary ghost
before any other cell -/
theorem inOrder_iff (fm : FMesh D) :
    (fm.InOrder .NODE ↔ ∀ a b, a < b → (fm.j.m.vtx a).ptype = .ghost → (fm.j.m.vtx b).ptype = .ghost) ∧
    (fm.InOrder .EDGE ↔ ∀ a b, a < b → (fm.j.m.edge a).ptype = .ghost → (fm.j.m.edge b).ptype = .ghost) ∧
    (fm.mdim = 2 → (fm.InOrder .FACE ↔
      ∀ a b, a < b → (fm.j.m.edge a).ptype = .ghost → (fm.j.m.edge b).ptype = .ghost)) ∧
    (fm.mdim = 3 → (fm.InOrder .FACE ↔
      ∀ a b, a < b → (fm.j.m.face a).ptype = .ghost → (fm.j.m.face b).ptype = .ghost)) ∧
    (fm.mdim = 2 → (fm.InOrder .CELL ↔ ∀ a b, a < b →
      group fm.j.bg (fm.j.m.face a).ptype (fm.j.m.face a).bndryGhost ≤
      group fm.j.bg (fm.j.m.face b).ptype (fm.j.m.face b).bndryGhost)) ∧
    (fm.mdim = 3 → (fm.InOrder .CELL ↔ ∀ a b, a < b →
      group fm.j.bg (fm.j.m.region a).ptype (fm.j.m.region a).bndryGhost ≤
      group fm.j.bg (fm.j.m.region b).ptype (fm.j.m.region b).bndryGhost)) := by
  refine ⟨?_, ?_, fun h => ?_, fun h => ?_, fun h => ?_, fun h => ?_⟩
  · exact (map_val_iff _).trans (inOrder_two _)
  · exact (map_val_iff _).trans (inOrder_two _)
  · unfold FMesh.InOrder FMesh.entity; simp only [h]; exact (map_val_iff _).trans (inOrder_two _)
  · unfold FMesh.InOrder FMesh.entity; simp only [h]; exact (map_val_iff _).trans (inOrder_two _)
  · unfold FMesh.InOrder FMesh.entity; simp only [h]; exact (map_val_iff _).trans (inOrder_three _ _ _)
  · unfold FMesh.InOrder FMesh.entity; simp only [h]; exact (map_val_iff _).trans (inOrder_three _ _ _)

/-- **C111** a field stored under the name `Cell_type` replaces the types of the cells -/
theorem cell_type_overwritten (zero : D) (fm fm' : FMesh D) (data : List (Val D)) (hd : fm.Dim)
    (h : fm.store zero 0 "Cell_type" .CELL data = .yes fm') (c : Nat)
    (hc : c < fm.nent (if fm.mdim = 3 then .region else .face)) : fm'.cellTypeCode c = data[c]? := by
  obtain ⟨t, a, e1, e2, e3, e4, e5, rfl, _⟩ := store_effect h
  have ht : t = if fm.mdim = 3 then .region else .face := by
    unfold FMesh.toMtype at e1
    rcases hd with h | h <;> rw [h] at e1 ⊢ <;> cases e1 <;> rfl
  unfold FMesh.cellTypeCode
  have := put_byName fm (a.write (fm.nent t) data)
  have hb : (fm.put (a.write (fm.nent t) data)).byName "Cell_type" = some (a.write (fm.nent t) data) := by
    rw [← e2]; exact this
  rw [← ht] at hc
  rw [hb, Option.map_some]
  simp only [Attr.write, if_pos hc]
  rw [List.getD_eq_getElem?_getD, List.getElem?_eq_getElem (by omega)]; rfl

/-! ### Examples -/

/-- the second rank of the example, without fields -/
def sampleFields : FMesh Nat := ⟨sampleWorld[1], 3, 3, []⟩

/-- the nodes of the common face are ghosts on rank 1 and come first in its MSTK mesh: node 0 of Jali is vertex 4 of MSTK, and gets
the value of the last node -/
example : (match sampleFields.store 0 0 "f" .NODE [.int 10, .int 11, .int 12, .int 13, .int 14] with
    | .yes fm => (fm.valueOf "f" .NODE 0, fm.valueOf "f" .NODE 1, match fm.get 0 "f" .NODE 5 with | .yes l => l | _ => [])
    | _ => (none, none, [])) =
    (some (.int 14), some (.int 10), [.int 10, .int 11, .int 12, .int 13, .int 14]) := by decide +kernel

example : sampleFields.Dim := Or.inr rfl

/-- a field of vectors is stored once, not twice -/
example : (match sampleFields.store 0 3 "v" .CELL [.vec [1, 2, 3], .vec [4, 5, 6]] with
    | .yes fm => (match fm.get 3 "v" .CELL 2 with | .yes l => l | _ => [],
        match fm.store 0 3 "v" .CELL [.vec [1, 2, 3], .vec [4, 5, 6]] with | .no => true | _ => false)
    | _ => ([], false)) = ([.vec [1, 2, 3], .vec [4, 5, 6]], true) := by decide +kernel

/-- the cell types are replaced -/
example : (match sampleFields.store 0 0 "Cell_type" .CELL [.int 7, .int 7] with
    | .yes fm => fm.cellTypeCode 1 | _ => none) = some (.int 7) := by decide +kernel

/-- a name is taken on all kinds of entities -/
example : (match sampleFields.store 0 0 "f" .NODE [.int 10, .int 11, .int 12, .int 13, .int 14] with
    | .yes fm => (match fm.store 0 0 "f" .CELL [.int 1, .int 2] with | .no => true | _ => false)
    | _ => false) = true := by decide +kernel

end Jali.Mstk
