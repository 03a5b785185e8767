import Verif.Props.State
/-! Property theorems C44, C78: copies of state vectors; what `add` returns. -/
namespace Jali.St
open Jali.MSet
variable {V : Type}

theorem onMulti_frame {f : List (List V) → Except Err (List (List V))} {bs bs' : List (Block V)} {b : Nat}
    (h : onMulti f bs b = .ok bs') : bs'.length = bs.length ∧ ∀ a, a ≠ b → bs'[a]? = bs[a]? := by
  unfold onMulti at h
  split at h
  · split at h
    · cases h
      exact ⟨List.length_set, fun a ha => List.getElem?_set_ne (fun e => ha e.symm)⟩
    · cases h
  · cases h

theorem forMulti_frame {f : List (List V) → Except Err (List (List V))} (vs : List Vec) : ∀ {bs bs' : List (Block V)},
    (forMulti f vs bs = .ok bs' ∨ forMultiUnchecked f vs bs = .ok bs') → bs'.length = bs.length ∧
      ∀ a, (∀ v ∈ vs, v.data ≠ a) → bs'[a]? = bs[a]? := by
  induction vs with
  | nil =>
    intro bs bs' h
    rcases h with h | h <;> cases h <;> exact ⟨rfl, fun _ _ => rfl⟩
  | cons v vs ih =>
    intro bs bs' h
    have done : ∀ bs1, onMulti f bs v.data = .ok bs1 → (forMulti f vs bs1 = .ok bs' ∨ forMultiUnchecked f vs bs1 = .ok bs') →
        bs'.length = bs.length ∧ ∀ a, (∀ u ∈ v :: vs, u.data ≠ a) → bs'[a]? = bs[a]? := by
      intro bs1 h1 h2
      obtain ⟨e1, e2⟩ := onMulti_frame h1
      obtain ⟨e3, e4⟩ := ih h2
      refine ⟨e3.trans e1, fun a ha => ?_⟩
      rw [e4 a (fun u hu => ha u (by simp [hu])), e2 a (fun e => ha v (by simp) e.symm)]
    have skip : (forMulti f vs bs = .ok bs' ∨ forMultiUnchecked f vs bs = .ok bs') →
        bs'.length = bs.length ∧ ∀ a, (∀ u ∈ v :: vs, u.data ≠ a) → bs'[a]? = bs[a]? := by
      intro h2
      obtain ⟨e3, e4⟩ := ih h2
      exact ⟨e3, fun a ha => e4 a (fun u hu => ha u (by simp [hu]))⟩
    rcases h with h | h
    · unfold forMulti at h
      split at h
      · split at h
        · cases h
        · rename_i bs1 h1; exact done bs1 h1 (Or.inl h)
      · exact skip (Or.inl h)
    · unfold forMultiUnchecked at h
      split at h
      · split at h
        · split at h
          · cases h
          · rename_i bs1 h1; exact done bs1 h1 (Or.inr h)
        · cases h
      · exact skip (Or.inr h)

/-- what an operation leaves alone -/
structure Frame (o : Op V) (s s' : State V) : Prop where
  len : s.blocks.length ≤ s'.blocks.length
  vecs : s.vecs <+: s'.vecs
  fresh : ∀ v ∈ s'.vecs, v ∈ s.vecs ∨ (s.blocks.length ≤ v.data ∧ v.data < s'.blocks.length)
  same : ∀ a, a < s.blocks.length → (∀ t, o.target = some t → t.data ≠ a) →
    (o.onMaterials = true → ∀ v ∈ s.vecs, v.data ≠ a) → s'.blocks[a]? = s.blocks[a]?

theorem Frame.refl (o : Op V) (s : State V) : Frame o s s :=
  ⟨Nat.le_refl _, List.prefix_refl _, fun _ h => Or.inl h, fun _ _ _ _ => rfl⟩

theorem Frame.write {o : Op V} {s s' : State V} {t : Vec} {b : Block V} (ht : o.target = some t) (hv : s'.vecs = s.vecs)
    (hb : s'.blocks = s.blocks.set t.data b) : Frame o s s' := by
  refine ⟨by rw [hb, List.length_set], by rw [hv]; exact List.prefix_refl _, fun v h => Or.inl (hv ▸ h), fun a _ h1 _ => ?_⟩
  rw [hb, List.getElem?_set_ne (h1 t ht)]

theorem Frame.mat {o : Op V} {s s' : State V} (hm : o.onMaterials = true) (hv : s'.vecs = s.vecs)
    (hl : s'.blocks.length = s.blocks.length)
    (hb : ∀ a, (∀ v ∈ s.vecs, v.data ≠ a) → s'.blocks[a]? = s.blocks[a]?) : Frame o s s' :=
  ⟨by rw [hl], by rw [hv]; exact List.prefix_refl _, fun v h => Or.inl (hv ▸ h), fun a _ _ h2 => hb a (h2 hm)⟩

theorem Frame.append {o : Op V} {s s' : State V} (b : Block V) (vs : List Vec) (hb : s'.blocks = s.blocks ++ [b])
    (hv : s'.vecs = s.vecs ++ vs) (hd : ∀ v ∈ vs, v.data = s.blocks.length) : Frame o s s' := by
  refine ⟨by rw [hb]; simp, by rw [hv]; exact List.prefix_append _ _, fun v h => ?_, fun a ha _ _ => ?_⟩
  · rw [hv, List.mem_append] at h
    rcases h with h | h
    · exact Or.inl h
    · right; rw [hd v h, hb]; simp
  · rw [hb, List.getElem?_append_left ha]

theorem remMaterial_frame {o : Op V} {s s' : State V} {m : Nat} (ho : o.onMaterials = true)
    (h : remMaterial s m = .ok s') : Frame o s s' := by
  unfold remMaterial at h
  split at h
  · cases h; exact .refl _ _
  · split at h
    · cases h
    · split at h
      · cases h
      · rename_i bs hbs
        cases h
        obtain ⟨e1, e2⟩ := forMulti_frame _ (Or.inl hbs)
        exact .mat ho rfl e1 e2

theorem op_frame {zero : V} {count : Count} {s s' : State V} {o : Op V} {p : Option Nat}
    (h : o.run zero count s = .ok (p, s')) : Frame o s s' := by
  cases o with
  | add r =>
    obtain ⟨i, -, h'⟩ := withPos_ok h
    unfold St.add at h'
    repeat' split at h'
    all_goals first
      | (cases h'; done)
      | (cases h'; exact .refl _ _)
      | (rename_i b _
         cases h'
         exact .append b _ rfl rfl (by intro v hv; rw [List.mem_singleton] at hv; rw [hv]))
  | addCopy v =>
    obtain ⟨i, -, h'⟩ := withPos_ok h
    unfold St.addCopy at h'
    split at h'
    · cases h'; exact .refl _ _
    · split at h'
      · cases h'
      · rename_i v' s1 hc
        have hc' : s1.vecs = s.vecs ∧ v'.data = s.blocks.length ∧ ∃ b, s1.blocks = s.blocks ++ [b] := by
          unfold copyForAdd at hc
          split at hc
          · obtain ⟨-, h2, h3, -, -, -, -, -, -, b, -, h4⟩ := copyVec_effect hc
            exact ⟨h3, h2, b, h4⟩
          · split at hc
            · split at hc
              · cases hc
              · cases hc; exact ⟨rfl, rfl, _, rfl⟩
            · cases hc
        obtain ⟨e1, e2, b, e3⟩ := hc'
        split at h'
        · cases h'
        · cases h'
          exact .append b [v'] e3 (by simp only [e1]) (by intro u hu; rw [List.mem_singleton] at hu; rw [hu, e2])
  | addMaterial n cs =>
    obtain ⟨-, h'⟩ := noPos_ok h
    unfold St.addMaterial at h'
    repeat' split at h'
    all_goals first
      | (cases h'; done)
      | (cases h'; exact .refl _ _)
      | (rename_i bs hbs
         cases h'
         obtain ⟨e1, e2⟩ := forMulti_frame _ (Or.inl hbs)
         exact .mat rfl rfl e1 e2)
  | addCells m cs =>
    obtain ⟨-, h'⟩ := noPos_ok h
    unfold St.addCells at h'
    repeat' split at h'
    all_goals first
      | (cases h'; done)
      | (rename_i bs hbs
         cases h'
         obtain ⟨e1, e2⟩ := forMulti_frame _ (Or.inr hbs)
         exact .mat rfl rfl e1 e2)
  | remMaterial m =>
    obtain ⟨-, h'⟩ := noPos_ok h
    exact remMaterial_frame rfl h'
  | remMaterialByName n =>
    obtain ⟨-, h'⟩ := noPos_ok h
    unfold St.remMaterialByName at h'
    split at h'
    · exact remMaterial_frame rfl h'
    · cases h'; exact .refl _ _
  | copy v =>
    obtain ⟨-, v', h'⟩ := copied_ok h
    obtain ⟨-, -, h1, -, -, -, -, -, -, b, -, h5⟩ := copyVec_effect h'
    exact .append b [] h5 (by simp [h1]) (by simp)
  | uniWrite v i x =>
    obtain ⟨-, h'⟩ := noPos_ok h
    unfold St.uniWrite at h'
    repeat' split at h'
    all_goals first
      | (cases h'; done)
      | (cases h'; exact .write rfl rfl rfl)
  | uniResize v n x =>
    obtain ⟨-, h'⟩ := noPos_ok h
    unfold St.uniResize at h'
    repeat' split at h'
    all_goals first
      | (cases h'; done)
      | (cases h'; exact .write rfl rfl rfl)
  | multiWrite v i j l x =>
    obtain ⟨-, h'⟩ := noPos_ok h
    unfold St.multiWrite at h'
    repeat' split at h'
    all_goals first
      | (cases h'; done)
      | (cases h'; exact .write rfl rfl rfl)
  | multiAssign v l d =>
    obtain ⟨-, h'⟩ := noPos_ok h
    unfold St.multiAssign at h'
    repeat' split at h'
    all_goals first
      | (cases h'; done)
      | (cases h'; exact .write rfl rfl rfl)
  | multiFill v x =>
    obtain ⟨-, h'⟩ := noPos_ok h
    unfold St.multiFill at h'
    repeat' split at h'
    all_goals first
      | (cases h'; done)
      | (cases h'; exact .write rfl rfl rfl)

/-- the data of the state vectors exists -/
def DataLt (s : State V) : Prop := ∀ v ∈ s.vecs, v.data < s.blocks.length

theorem Frame.dataLt {o : Op V} {s s' : State V} (h : Frame o s s') (hd : DataLt s) : DataLt s' := by
  intro v hv
  rcases h.fresh v hv with hv | hv
  · exact Nat.lt_of_lt_of_le (hd v hv) h.len
  · exact hv.2

theorem run_frame {zero : V} {count : Count} (os : List (Op V)) : ∀ {s s' : State V} {ps : List (Option Nat)},
    run zero count s os = .ok (ps, s') → (DataLt s → DataLt s') ∧ s.blocks.length ≤ s'.blocks.length ∧
      s.vecs <+: s'.vecs ∧
      (∀ a, a < s.blocks.length → (∀ o ∈ os, ∀ t, o.target = some t → t.data ≠ a) →
        ((∃ o ∈ os, o.onMaterials = true) → ∀ v ∈ s.vecs, v.data ≠ a) → s'.blocks[a]? = s.blocks[a]?) := by
  induction os with
  | nil => intro s s' ps h; cases h; exact ⟨id, Nat.le_refl _, List.prefix_refl _, fun _ _ _ _ => rfl⟩
  | cons o os ih =>
    intro s s' ps h
    obtain ⟨p, ps', s1, -, h1, h2⟩ := run_cons h
    have hf := op_frame h1
    obtain ⟨i1, i2, i3, i4⟩ := ih h2
    refine ⟨fun hd => i1 (hf.dataLt hd), Nat.le_trans hf.len i2, hf.vecs.trans i3, fun a ha ht hm => ?_⟩
    rw [i4 a (Nat.lt_of_lt_of_le ha hf.len) (fun o' ho' => ht o' (by simp [ho'])) ?_,
      hf.same a ha (ht o (by simp)) (fun ho => hm ⟨o, by simp, ho⟩)]
    rintro ⟨o', ho', hom⟩ v hv
    rcases hf.fresh v hv with hv | hv
    · exact hm ⟨o', by simp [ho'], hom⟩ v hv
    · omega

/-- **C44**, copies are deep. Copy-construct `v'` from any vector `v` in any reachable state. The copy has the same
identity and contents. Whatever is done then except writing through vectors that share the copy's data — writing to
the original, adding and removing materials, adding vectors — the copy keeps its contents. And whatever is
written through the copy does not change the original. -/
theorem copy_is_deep (mesh : Nat) (w : Reg.World) (zero : V) (count : Count) (ops0 : List (Op V))
    (ps0 : List (Option Nat)) (s s1 : State V) (h0 : run zero count (create mesh w) ops0 = .ok (ps0, s)) (v v' : Vec)
    (hc : copyVec s v = .ok (v', s1)) :
    v'.ident = v.ident ∧ content s1 v' = content s v ∧ content s1 v = content s v ∧
    (∀ ops ps s2, run zero count s1 ops = .ok (ps, s2) →
      (∀ o ∈ ops, ∀ t, o.target = some t → t.data ≠ v'.data) → content s2 v' = content s v) ∧
    (∀ ops ps s2, run zero count s1 ops = .ok (ps, s2) →
      (∀ o ∈ ops, o.onMaterials = false ∧ ∀ t, o.target = some t → t.data = v'.data) →
      content s2 v = content s v) := by
  have hd : DataLt s := (run_frame ops0 h0).1 (by intro v hv; cases hv)
  obtain ⟨e1, e2, e3, -, -, -, -, -, -, b, hb, e4⟩ := copyVec_effect hc
  have hvlt : v.data < s.blocks.length := (List.getElem?_eq_some_iff.1 hb).1
  have hv' : content s1 v' = content s v := by
    unfold content; rw [e4, e2, hb]; simp
  have hvv : content s1 v = content s v := by
    unfold content; rw [e4, List.getElem?_append_left hvlt]
  refine ⟨e1, hv', hvv, fun ops ps s2 hr ht => ?_, fun ops ps s2 hr ht => ?_⟩
  · rw [← hv']
    refine (run_frame ops hr).2.2.2 v'.data (by rw [e4, e2]; simp) ht ?_
    intro _ u hu
    rw [e3] at hu
    have := hd u hu
    omega
  · rw [← hvv]
    refine (run_frame ops hr).2.2.2 v.data (by rw [e4]; simp; omega) ?_ ?_
    · intro o ho t hto he
      have := (ht o ho).2 t hto
      omega
    · rintro ⟨o, ho, hm⟩
      rw [(ht o ho).1] at hm; cases hm

/-- **C44**, assignment and `get` are shallow. A vector obtained with `get`, and one assigned from it, shares its data with
the state manager's vector: after every later history of operations, all reads of the three agree. -/
theorem get_is_shallow (zero : V) (count : Count) (s : State V) (vt : VecType) (ty : Nat) (name : String)
    (domain : Domain) (kind : EntityKind) (type : EntityType) (v : Vec)
    (hg : get s vt ty name domain kind type = some v) (ops : List (Op V)) (ps : List (Option Nat)) (s2 : State V)
    (hr : run zero count s ops = .ok (ps, s2)) (old : Vec) :
    ∃ k u, findTyped s vt ty name domain kind type = some k ∧ s2.vecs[k]? = some u ∧
      (∀ i, uniRead s2 v i = uniRead s2 u i ∧ uniRead s2 (assignVec old v) i = uniRead s2 u i) ∧
      (∀ i j lay, multiRead zero s2 v i j lay = multiRead zero s2 u i j lay ∧
        multiRead zero s2 (assignVec old v) i j lay = multiRead zero s2 u i j lay) := by
  unfold get at hg
  split at hg
  · rename_i k hk
    obtain ⟨t, ht⟩ := (run_frame ops hr).2.2.1
    refine ⟨k, v, hk, ?_, fun i => ⟨rfl, rfl⟩, fun i j lay => ⟨rfl, rfl⟩⟩
    rw [← ht, List.getElem?_append_left (List.getElem?_eq_some_iff.1 hg).1]
    exact hg
  · cases hg

/-- **C44**, a write through an assigned vector is seen through the original, and changes nothing else. -/
theorem assigned_write_seen (s s' : State V) (v old : Vec) (i : Nat) (x : V)
    (h : uniWrite s (assignVec old v) i x = .ok s') :
    uniRead s' v i = .ok x ∧ ∀ j, j ≠ i → uniRead s' v j = uniRead s v j := by
  unfold uniWrite assignVec at h
  dsimp only at h
  split at h
  · rename_i l hl
    split at h
    · rename_i hi
      cases h
      have hlt : v.data < s.blocks.length := (List.getElem?_eq_some_iff.1 hl).1
      constructor
      · simp [uniRead, hlt, hi]
      · intro j hj
        simp only [uniRead, List.getElem?_set_self hlt, hl, List.getElem?_set_ne (fun e => hj e.symm)]
    · cases h
  · cases h

/-- **C78.** `add` returns a vector of the requested name, domain, kind, type, class and element type, provided the kind
is not `ANY_KIND` and the type is not `ALL`. Missing: type `ALL`, see `add_all_returns_owned`. -/
theorem add_returns_requested_partial (zero : V) (count : Count) (s s' : State V) (r : Req V) (p : Nat)
    (hk : r.kind ≠ .ANY_KIND) (ht : r.type ≠ .ALL) (h : add zero count s r = .ok (p, s')) :
    ∃ v, s'.vecs[p]? = some v ∧ v.ident = ⟨r.name, r.domain, r.kind, r.type, r.vt, r.ty⟩ := by
  have he := (add_effect h).1
  simp only [Op.asks] at he
  cases he with
  | old i k e1 e2 e3 =>
    injection e2 with e2
    subst e1; subst e2
    obtain ⟨hlt, hw, -⟩ := List.findIdx?_eq_some_iff_getElem.1 e3
    refine ⟨s'.vecs[p], List.getElem?_eq_getElem hlt, ?_⟩
    rw [Query.wants_iff] at hw
    simp only [Ident.query, Option.mem_def, Option.some.injEq, forall_eq'] at hw
    obtain ⟨h1, h2, h3, h4, h5, h6⟩ := hw
    have h2' := h2.resolve_left hk
    have h3' := h3.resolve_left ht
    cases hv : s'.vecs[p].ident
    rw [hv] at h1 h2' h3' h4 h5 h6
    simp_all
  | new i v j e0 e1 e2 e3 e4 e5 e6 =>
    injection e1 with e1
    exact ⟨v, by rw [e2, e1]; simp, e3⟩

/-- **C78**, contents: a new univalued vector has one element per entity of its domain, kind and type, all equal to the
given value (zero if none is given), or the elements of the given array. -/
theorem add_new_contents (zero : V) (count : Count) (s s' : State V) (r : Req V) (p : Nat) (hu : r.vt = .UNIVAL)
    (hn : findTyped s r.vt r.ty r.name r.domain r.kind r.type = none) (h : add zero count s r = .ok (p, s')) :
    ∃ v l, s'.vecs[p]? = some v ∧ content s' v = some (.uni l) ∧ l.length = count r.domain r.kind r.type ∧
      (∀ (i : Nat) (y : V), l[i]? = some y → match r.init with
        | .value x => y = x
        | .array d => d[i]? = some y
        | .uninitialized => y = zero
        | .array2 _ _ => False) := by
  unfold add at h
  rw [hn] at h
  dsimp only at h
  split at h
  · cases h
  · split at h
    · cases h
    · split at h
      · cases h
      · rename_i b hb
        cases h
        rw [hu] at hb
        have key : ∀ l, b = .uni l → l.length = count r.domain r.kind r.type →
            (∀ (i : Nat) (y : V), l[i]? = some y → match r.init with
              | .value x => y = x
              | .array d => d[i]? = some y
              | .uninitialized => y = zero
              | .array2 _ _ => False) →
            ∃ v l, (s.vecs ++ [(⟨r.name, r.domain, r.kind, r.type, r.vt, r.ty, s.blocks.length⟩ : Vec)])[s.vecs.length]? =
                some v ∧ (s.blocks ++ [b])[v.data]? = some (.uni l) ∧ l.length = count r.domain r.kind r.type ∧
              (∀ (i : Nat) (y : V), l[i]? = some y → match r.init with
                | .value x => y = x
                | .array d => d[i]? = some y
                | .uninitialized => y = zero
                | .array2 _ _ => False) := by
          intro l e1 e2 e3
          exact ⟨_, l, by simp; rfl, by simp [e1], e2, e3⟩
        cases hi : r.init with
        | uninitialized =>
          rw [hi] at hb key
          cases hb
          exact key _ rfl (by simp) (fun i y hy => (List.mem_replicate.1 (List.mem_of_getElem? hy)).2)
        | array d =>
          rw [hi] at hb key
          simp only [newBlock] at hb
          split at hb
          · rename_i hle
            cases hb
            refine key _ rfl (by simp; omega) (fun i y hy => ?_)
            rw [List.getElem?_take] at hy
            split at hy
            · exact hy
            · cases hy
          · cases hb
        | array2 lay d =>
          exfalso
          unfold Req.vt at hu
          rw [hi] at hu; cases hu
        | value x =>
          rw [hi] at hb key
          cases hb
          exact key _ rfl (by simp) (fun i y hy => (List.mem_replicate.1 (List.mem_of_getElem? hy)).2)

/-- **C78** fails for type `ALL`: if the first matching vector is one on the owned entities only, `add` for all entities
returns that one, with one element per owned entity. -/
theorem add_all_returns_owned (zero x : V) (count : Count) (mesh : Nat) (w : Reg.World) (name : String) (ty : Nat)
    (d : Domain) (kind : EntityKind) (hk : 0 ≤ kind.code) (y : V) :
    ∃ s1 v, add zero count (create mesh w) ⟨.UNIVAL, ty, name, d, kind, .PARALLEL_OWNED, .value y⟩ = .ok (0, s1) ∧
      add zero count s1 ⟨.UNIVAL, ty, name, d, kind, .ALL, .value x⟩ = .ok (0, s1) ∧ s1.vecs[0]? = some v ∧
      v.type = .PARALLEL_OWNED ∧
      content s1 v = some (.uni (List.replicate (count d kind .PARALLEL_OWNED) y)) := by
  have h1 : ∃ s1, add zero count (create mesh w) ⟨.UNIVAL, ty, name, d, kind, .PARALLEL_OWNED, .value y⟩ = .ok (0, s1) ∧
      s1.vecs = [⟨name, d, kind, .PARALLEL_OWNED, .UNIVAL, ty, 0⟩] ∧
      s1.blocks = [.uni (List.replicate (count d kind .PARALLEL_OWNED) y)] := by
    let s1 : State V :=
      { (create mesh w : State V) with
        blocks := [.uni (List.replicate (count d kind .PARALLEL_OWNED) y)]
        vecs := [⟨name, d, kind, .PARALLEL_OWNED, .UNIVAL, ty, 0⟩]
        indexes := fun k => if k = kind then [] ++ [((0 : Nat) + 1 : Int) - 1] else []
        names := [name] }
    refine ⟨s1, ?_, rfl, rfl⟩
    simp only [add, findTyped, create, List.findIdx?_nil, pushIndex, if_neg (show ¬ kind.code < 0 by omega), allCells,
      newBlock, Req.vt, List.nil_append, List.length_nil, pushedIndex, s1]
  obtain ⟨s1, e1, e2, e3⟩ := h1
  refine ⟨s1, _, e1, ?_, by rw [e2]; rfl, rfl, by unfold content; rw [e3]; rfl⟩
  have hf : findTyped s1 .UNIVAL ty name d kind .ALL = some 0 := by
    unfold findTyped
    rw [e2]
    simp [List.findIdx?_cons, fits]
  unfold add
  simp only [Req.vt, hf]

/-! ### Non-vacuity -/

-- a copy of "rho", then a write to the original
example : (match run 0 exCount (create 0 exWorld) [exRho, .copy ⟨"rho", .mesh 0, .CELL, .ALL, .UNIVAL, 0, 0⟩,
      .uniWrite ⟨"rho", .mesh 0, .CELL, .ALL, .UNIVAL, 0, 0⟩ 2 (9 : Int)] with
    | .ok (_, s) => decide (s.blocks[1]? = some (.uni [7, 7, 7, 7]) ∧ s.blocks[0]? = some (.uni [7, 7, 9, 7]) ∧
        get s .UNIVAL 0 "rho" (.mesh 0) .CELL .ALL = some ⟨"rho", .mesh 0, .CELL, .ALL, .UNIVAL, 0, 0⟩)
    | .error _ => false) = true := by decide +kernel

-- requests that meet the hypotheses of the add theorems
example : (match add (0 : Int) exCount (create 0 exWorld) ⟨.UNIVAL, 0, "p", .mesh 0, .CELL, .PARALLEL_OWNED, .array [1, 2, 3, 4, 5]⟩ with
    | .ok (p, s) => decide (p = 0 ∧ s.blocks = [.uni [1, 2, 3, 4]])
    | .error _ => false) = true := by decide +kernel

example : 0 ≤ EntityKind.CELL.code := by decide

end Jali.St
