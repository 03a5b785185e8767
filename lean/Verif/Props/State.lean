import Verif.Proof.State
/-! Property theorems C38 – C40: the list of state vectors of a state manager. -/
namespace Jali.St
open Jali.MSet
variable {V : Type}

theorem vecs_prefix {zero : V} {count : Count} (os : List (Op V)) : ∀ (s s' : State V) (ps : List (Option Nat)),
    NoForeignCopies s.mesh os → run zero count s os = .ok (ps, s') → s.vecs <+: s'.vecs := by
  induction os with
  | nil => intro s s' ps _ h; cases h; exact List.prefix_refl _
  | cons o os ih =>
    intro s s' ps hf h
    obtain ⟨p, ps', s1, rfl, h1, h2⟩ := run_cons h
    obtain ⟨he, hm⟩ := op_effect hf.head h1
    have := ih s1 s' ps' (by rw [hm]; exact hf.tail) h2
    refine List.IsPrefix.trans ?_ this
    generalize o.asks = a at he
    cases he with
    | none e1 => rw [e1]; exact List.prefix_refl _
    | old i k e1 => rw [e1]; exact List.prefix_refl _
    | new i v j _ _ e2 => rw [e2]; exact List.prefix_append _ _

theorem offered_run {zero : V} {count : Count} (q : Query) (os : List (Op V)) : ∀ (s s' : State V)
    (ps : List (Option Nat)), NoForeignCopies s.mesh os → run zero count s os = .ok (ps, s') →
    s.vecs.findIdx? (fun v => q.wants v.ident) = none → ∀ j, os.findIdx? (fun o => o.offers q) = some j →
    ∃ o i k v, os[j]? = some o ∧ o.asks = some i ∧ ps[j]? = some (some k) ∧ s'.vecs[k]? = some v ∧ v.ident = i := by
  induction os with
  | nil => intro s s' ps _ _ _ j hj; simp at hj
  | cons o os ih =>
    intro s s' ps hf h hn j hj
    obtain ⟨p, ps', s1, rfl, h1, h2⟩ := run_cons h
    obtain ⟨he, hm⟩ := op_effect hf.head h1
    have hf' : NoForeignCopies s1.mesh os := by rw [hm]; exact hf.tail
    rw [List.findIdx?_cons] at hj
    have later : s1.vecs.findIdx? (fun v => q.wants v.ident) = none → o.offers q = false →
        ∃ o' i k v, (o :: os)[j]? = some o' ∧ o'.asks = some i ∧ (p :: ps')[j]? = some (some k) ∧
          s'.vecs[k]? = some v ∧ v.ident = i := by
      intro hn1 ho
      rw [ho] at hj
      simp only [Bool.false_eq_true, if_false, Option.map_eq_some_iff] at hj
      obtain ⟨j', hj', rfl⟩ := hj
      obtain ⟨o', i, k, v, r⟩ := ih s1 s' ps' hf' h2 hn1 j' hj'
      exact ⟨o', i, k, v, by simpa using r⟩
    generalize ha : o.asks = a at he
    cases he with
    | none e1 e2 e3 e4 =>
      exact later (by rw [e1]; exact hn) (by simp [Op.offers, ha])
    | old i k e1 e2 e3 =>
      subst e1
      refine later hn ?_
      rw [Op.offers, ha]
      by_contra hc
      simp only [Bool.not_eq_false] at hc
      obtain ⟨hk, hb, -⟩ := List.findIdx?_eq_some_iff_getElem.1 e3
      rw [List.findIdx?_eq_none_iff] at hn
      have h1 := hn s1.vecs[k] (List.getElem_mem hk)
      rw [blocker_answers hc hb] at h1
      cases h1
    | new i v jj e0 e1 e2 e3 e4 e5 e6 =>
      have hof : o.offers q = q.wants i := by rw [Op.offers, ha]
      cases hw : q.wants i with
      | false =>
        refine later ?_ (by rw [hof, hw])
        rw [e2, List.findIdx?_append, hn]
        simp [e3, hw]
      | true =>
        rw [hof, hw] at hj
        simp only [if_true, Option.some.injEq] at hj
        subst hj
        refine ⟨o, i, s.vecs.length, v, rfl, ha, by rw [e1]; rfl, ?_, e3⟩
        obtain ⟨t, ht⟩ := vecs_prefix os s1 s' ps' hf' h2
        rw [← ht, e2]
        simp

/-- **C38.** After any history of operations on a new state manager, every version of `find` returns exactly the
vector that was returned by the first `add` offering what is looked for, and `end()` if there was no such
`add`. That vector has the identity this `add` asked for. Missing: histories that add a vector of another
mesh by copy, see `foreign_copy_twice`. -/
theorem find_returns_first_added_partial (zero : V) (count : Count) (mesh : Nat) (w : Reg.World) (ops : List (Op V))
    (ps : List (Option Nat)) (s : State V) (hf : NoForeignCopies mesh ops)
    (h : run zero count (create mesh w) ops = .ok (ps, s)) (n : String) (k : EntityKind) (t : EntityType) :
    findName s n k t = firstOffered ⟨n, k, t, none, none, none⟩ ops ps ∧
    (∀ d, findDomain s n d k t = firstOffered ⟨n, k, t, some d, none, none⟩ ops ps) ∧
    (∀ d vt, findVectype s vt n d k t = firstOffered ⟨n, k, t, some d, some vt, none⟩ ops ps) ∧
    (∀ d vt ty, findTyped s vt ty n d k t = firstOffered ⟨n, k, t, some d, some vt, some ty⟩ ops ps) ∧
    ∀ q : Query, ∀ j, ops.findIdx? (fun o => o.offers q) = some j →
      ∃ o i p v, ops[j]? = some o ∧ o.asks = some i ∧ firstOffered q ops ps = some p ∧ s.vecs[p]? = some v ∧
        v.ident = i := by
  have key := fun q : Query => find_run q ops _ s ps hf h
  simp only [create, List.findIdx?_nil] at key
  refine ⟨?_, fun d => ?_, fun d vt => ?_, fun d vt ty => ?_, fun q j hj => ?_⟩
  · rw [findName_eq, key]
  · rw [findDomain_eq, key]
  · rw [findVectype_eq, key]
  · rw [findTyped_eq, key]
  · obtain ⟨o, i, p, v, h1, h2, h3, h4, h5⟩ := offered_run q ops _ s ps hf h (by simp [create]) j hj
    refine ⟨o, i, p, v, h1, h2, ?_, h4, h5⟩
    simp [firstOffered, hj, h3]

/-- **C38, second part.** Adding under the identity of an earlier addition changes nothing, and returns the vector
found under this identity. -/
theorem add_again_ignored (zero : V) (count : Count) (mesh : Nat) (w : Reg.World) (ops : List (Op V))
    (ps : List (Option Nat)) (s : State V) (hf : NoForeignCopies mesh ops)
    (h : run zero count (create mesh w) ops = .ok (ps, s)) (o : Op V) (ho : o ∈ ops) (r : Op V)
    (hr : r.asks = o.asks) (hadd : r.isAdd = true) :
    ∃ p i v, r.asks = some i ∧ r.run zero count s = .ok (some p, s) ∧
      findTyped s i.vectype i.ty i.name i.domain i.kind i.type = some p ∧ s.vecs[p]? = some v := by
  have self : ∀ i : Ident, i.query.wants i = true := by
    intro i; rw [Query.wants_iff]; simp [Ident.query]
  obtain ⟨i, hi⟩ : ∃ i, r.asks = some i := Option.isSome_iff_exists.1 hadd
  have hex : ∃ j, ops.findIdx? (fun o => o.offers i.query) = some j := by
    cases hc : ops.findIdx? (fun o => o.offers i.query) with
    | some j => exact ⟨j, rfl⟩
    | none =>
      rw [List.findIdx?_eq_none_iff] at hc
      have := hc o ho
      rw [Op.offers, ← hr, hi] at this
      simp [self i] at this
  obtain ⟨j, hj⟩ := hex
  obtain ⟨-, -, -, h4, h5⟩ := find_returns_first_added_partial zero count mesh w ops ps s hf h i.name i.kind i.type
  obtain ⟨-, -, p, v, -, -, h6, h7, -⟩ := h5 i.query j hj
  have h8 : findTyped s i.vectype i.ty i.name i.domain i.kind i.type = some p := by rw [h4]; exact h6
  refine ⟨p, i, v, hi, ?_, h8, h7⟩
  cases r with
  | add r =>
    simp only [Op.asks, Option.some.injEq] at hi
    subst hi
    dsimp only at h8
    simp only [Op.run, St.add, h8, withPos]
  | addCopy v =>
    simp only [Op.asks, Option.some.injEq] at hi
    subst hi
    simp only [Vec.ident] at h8
    simp only [Op.run, St.addCopy, h8, withPos]
  | _ => simp [Op.asks] at hi

theorem foreign_copy_step (zero : V) (count : Count) (s : State V) (v : Vec) (l : List V)
    (hd : v.domain ≠ .mesh s.mesh) (hk : 0 ≤ v.kind.code) (hb : s.blocks[v.data]? = some (.uni l))
    (hlen : count (.mesh s.mesh) v.kind v.type ≤ l.length)
    (hn : findTyped s v.vectype v.ty v.name v.domain v.kind v.type = none) :
    ∃ s1, addCopy zero count s v = .ok (s.vecs.length, s1) ∧ s1.mesh = s.mesh ∧
      s1.vecs = s.vecs ++ [{ v with domain := .mesh s.mesh, data := s.blocks.length }] ∧
      s1.blocks[v.data]? = some (.uni l) ∧
      findTyped s1 v.vectype v.ty v.name v.domain v.kind v.type = none := by
  have hk' : ¬ v.kind.code < 0 := by omega
  refine ⟨{ s with
        blocks := s.blocks ++ [.uni (l.take (count (.mesh s.mesh) v.kind v.type))]
        vecs := s.vecs ++ [{ v with domain := .mesh s.mesh, data := s.blocks.length }]
        indexes := fun k => if k = v.kind then s.indexes k ++ [((s.vecs.length + 1 : Int) - 1)] else s.indexes k
        names := s.names ++ [v.name] }, ?_, rfl, rfl, ?_, ?_⟩
  · simp only [addCopy, hn, copyForAdd, if_neg hd, hb, newBlock, if_pos hlen, pushIndex, if_neg hk']
  · obtain ⟨hlt, -⟩ := List.getElem?_eq_some_iff.1 hb
    dsimp only
    rw [List.getElem?_append_left hlt, hb]
  · simp only [findTyped] at hn ⊢
    rw [List.findIdx?_append, hn]
    have : ¬ (Domain.mesh s.mesh = v.domain) := fun h => hd h.symm
    simp [this]

/-- **C38 is false for copies from another mesh.** Adding the same univalued vector of another mesh twice registers two
vectors of the same identity: the second one is not recognised as a duplicate (and no `find` ever returns it). -/
theorem foreign_copy_twice (zero : V) (count : Count) (s : State V) (v : Vec) (l : List V)
    (hd : v.domain ≠ .mesh s.mesh) (hk : 0 ≤ v.kind.code) (hb : s.blocks[v.data]? = some (.uni l))
    (hlen : count (.mesh s.mesh) v.kind v.type ≤ l.length)
    (hn : findTyped s v.vectype v.ty v.name v.domain v.kind v.type = none) :
    ∃ s1 s2 v1 v2, addCopy zero count s v = .ok (s.vecs.length, s1) ∧
      addCopy zero count s1 v = .ok (s.vecs.length + 1, s2) ∧
      s2.vecs = s.vecs ++ [v1, v2] ∧ v1.ident = v2.ident ∧ v1.name = v.name := by
  obtain ⟨s1, h1, h2, h3, h4, h5⟩ := foreign_copy_step zero count s v l hd hk hb hlen hn
  obtain ⟨s2, r1, r2, r3, -⟩ := foreign_copy_step zero count s1 v l (by rw [h2]; exact hd) hk h4
    (by rw [h2]; exact hlen) h5
  refine ⟨s1, s2, { v with domain := .mesh s.mesh, data := s.blocks.length },
    { v with domain := .mesh s1.mesh, data := s1.blocks.length }, h1, ?_, by rw [r3, h3, List.append_assoc]; rfl, ?_, rfl⟩
  · rw [r1, h3]; simp
  · simp only [Vec.ident, h2]

/-! ### C40 -/

/-- **C40.** After any history whatever, the list of names is parallel to the list of state vectors. -/
theorem names_parallel (zero : V) (count : Count) (mesh : Nat) (w : Reg.World) (ops : List (Op V))
    (ps : List (Option Nat)) (s : State V) (h : run zero count (create mesh w) ops = .ok (ps, s)) :
    s.names = s.vecs.map Vec.name := by
  suffices H : ∀ (os : List (Op V)) (s s' : State V) (ps : List (Option Nat)), s.names = s.vecs.map Vec.name →
      run zero count s os = .ok (ps, s') → s'.names = s'.vecs.map Vec.name from H ops _ s ps rfl h
  intro os
  induction os with
  | nil => intro s s' ps hs h; cases h; exact hs
  | cons o os ih =>
    intro s s' ps hs h
    obtain ⟨p, ps', s1, rfl, h1, h2⟩ := run_cons h
    refine ih s1 s' ps' ?_ h2
    by_cases hd : ∀ v, o = Op.addCopy v → v.domain = .mesh s.mesh
    · obtain ⟨he, -⟩ := op_effect hd h1
      generalize o.asks = a at he
      cases he with
      | none e1 e2 => rw [e1, e2, hs]
      | old i k e1 => rw [e1, hs]
      | new i v j _ _ e2 e3 e4 => rw [e2, e4, hs, ← e3]; simp [Vec.ident]
    · simp only [Classical.not_forall] at hd
      obtain ⟨v, rfl, hv⟩ := hd
      obtain ⟨i, -, h1'⟩ := withPos_ok h1
      unfold addCopy at h1'
      split at h1'
      · cases h1'; exact hs
      · split at h1'
        · cases h1'
        · rename_i v' s2 hc
          obtain ⟨-, h4, h5, h6, -⟩ := copyForAdd_effect hc
          split at h1'
          · cases h1'
          · cases h1'
            have h4' : v'.name = v.name := by
              have := congrArg Ident.name h4
              exact this
            simp [h5, h6, hs, h4']

/-! ### C39 -/

theorem derefAll_append {A : Type} (l m : List A) (is : List Int) : ∀ xs, derefAll l is = .ok xs →
    derefAll (l ++ m) is = .ok xs := by
  induction is with
  | nil => intro xs h; exact h
  | cons i is ih =>
    intro xs h
    unfold derefAll at h ⊢
    split at h
    · cases h
    · rename_i hi
      rw [if_neg hi]
      split at h
      · cases h
      · rename_i x hx
        split at h
        · cases h
        · rename_i ys hy
          cases h
          have : (l ++ m)[i.toNat]? = some x := by
            obtain ⟨hlt, -⟩ := List.getElem?_eq_some_iff.1 hx
            rw [List.getElem?_append_left hlt, hx]
          simp only [this, ih ys hy]

theorem derefAll_snoc {A : Type} (l : List A) (is : List Int) (j : Nat) (x : A) (hx : l[j]? = some x) :
    ∀ xs, derefAll l is = .ok xs → derefAll l (is ++ [(j : Int)]) = .ok (xs ++ [x]) := by
  induction is with
  | nil =>
    intro xs h
    cases h
    simp only [List.nil_append, derefAll]
    rw [if_neg (by omega)]
    simp [hx]
  | cons i is ih =>
    intro xs h
    simp only [List.cons_append]
    unfold derefAll at h ⊢
    split at h
    · cases h
    · rename_i hi
      rw [if_neg hi]
      split at h
      · cases h
      · rename_i y hy
        split at h
        · cases h
        · rename_i ys hys
          cases h
          simp only [ih ys hys, List.cons_append]

theorem derefAll_bad {A : Type} (l : List A) (is : List Int) (h : is.head? = some (-1)) :
    derefAll l is = .error .undefinedBehaviour := by
  cases is with
  | nil => simp at h
  | cons i is =>
    simp at h
    subst h
    rfl

/-- every `add` of the history uses the overload for a single value or the one that copies a vector -/
def ByValueOnly (ops : List (Op V)) : Prop := ∀ o ∈ ops, o.isAdd = true → o.byValue = true

/-- **C39, the part that holds.** If vectors are only added with a single value or by copy, iterating over an entity
kind visits exactly the vectors on this kind, each once, in the order of addition, and the names likewise.
Missing: the other overloads of `add`, refuted below; copies from another mesh. -/
theorem iterate_kind_partial (zero : V) (count : Count) (mesh : Nat) (w : Reg.World) (ops : List (Op V))
    (ps : List (Option Nat)) (s : State V) (hf : NoForeignCopies mesh ops) (hv : ByValueOnly ops)
    (h : run zero count (create mesh w) ops = .ok (ps, s)) (k : EntityKind) (hk : 0 ≤ k.code) :
    vecsOfKind s k = .ok (s.vecs.filter fun v => v.kind = k) ∧
    namesOfKind s k = .ok ((s.vecs.filter fun v => v.kind = k).map Vec.name) := by
  have hnames := names_parallel zero count mesh w ops ps s h
  have key : derefAll s.vecs (s.indexes k) = .ok (s.vecs.filter fun v => v.kind = k) := by
    suffices H : ∀ (os : List (Op V)) (s s' : State V) (ps : List (Option Nat)), NoForeignCopies s.mesh os →
        ByValueOnly os → derefAll s.vecs (s.indexes k) = .ok (s.vecs.filter fun v => v.kind = k) →
        run zero count s os = .ok (ps, s') →
        derefAll s'.vecs (s'.indexes k) = .ok (s'.vecs.filter fun v => v.kind = k) from
      H ops _ s ps hf hv rfl h
    intro os
    induction os with
    | nil => intro s s' ps _ _ hs h; cases h; exact hs
    | cons o os ih =>
      intro s s' ps hf hv hs h
      obtain ⟨p, ps', s1, rfl, h1, h2⟩ := run_cons h
      obtain ⟨he, hm⟩ := op_effect hf.head h1
      refine ih s1 s' ps' (by rw [hm]; exact hf.tail) (fun o ho => hv o (by simp [ho])) ?_ h2
      have hidx : s1 = s ∨ o.asks = none ∨ ∃ i, o.asks = some i ∧ ∀ k, s1.indexes k =
          if k = i.kind then s.indexes k ++ [(s.vecs.length : Int)] else s.indexes k := by
        cases o with
        | add r =>
          obtain ⟨i, -, h1'⟩ := withPos_ok h1
          have hval := hv (.add r) (by simp) rfl
          rcases (add_effect h1').2 with e | e
          · exact Or.inl e
          · right; right
            refine ⟨_, rfl, fun k => ?_⟩
            rw [e k]
            have : pushedIndex s.vecs.length r.init = (s.vecs.length : Int) := by
              cases hr : r.init <;> simp [Op.byValue, hr] at hval
              simp [pushedIndex]
            rw [this]
        | addCopy v =>
          obtain ⟨i, -, h1'⟩ := withPos_ok h1
          rcases (addCopy_effect (hf.head v rfl) h1').2 with e | e
          · exact Or.inl e
          · exact Or.inr (Or.inr ⟨_, rfl, e⟩)
        | _ => exact Or.inr (Or.inl rfl)
      rcases hidx with e | e | ⟨i, e, hidx⟩
      · rw [e]; exact hs
      · rw [e] at he
        cases he with
        | none e1 e2 e3 => rw [e1, e3]; exact hs
      · rw [e] at he
        cases he with
        | old k' _ e1 => rw [e1]; exact hs
        | new _ v j _ _ e2 e3 _ _ _ =>
          rw [e2, hidx, List.filter_append]
          have hvk : v.kind = i.kind := by rw [← e3]; rfl
          by_cases hkk : k = i.kind
          · subst hkk
            rw [if_pos rfl]
            have := derefAll_snoc (s.vecs ++ [v]) (s.indexes i.kind) s.vecs.length v (by simp)
              _ (derefAll_append s.vecs [v] _ _ hs)
            rw [this]
            simp [hvk]
          · rw [if_neg hkk, derefAll_append s.vecs [v] _ _ hs]
            have : ¬ v.kind = k := by rw [hvk]; exact fun h => hkk h.symm
            simp [this]
  have hk' : ¬ k.code < 0 := by omega
  refine ⟨by rw [vecsOfKind, if_neg hk', key], ?_⟩
  rw [namesOfKind, if_neg hk', hnames]
  have map_deref : ∀ (is : List Int) xs, derefAll s.vecs is = .ok xs →
      derefAll (s.vecs.map Vec.name) is = .ok (xs.map Vec.name) := by
    intro is
    induction is with
    | nil => intro xs h; cases h; rfl
    | cons i is ih =>
      intro xs h
      unfold derefAll at h ⊢
      split at h
      · cases h
      · rename_i hi
        rw [if_neg hi]
        split at h
        · cases h
        · rename_i y hy
          split at h
          · cases h
          · rename_i ys hys
            cases h
            simp [hy, ih ys hys]
  exact map_deref _ _ key

/-- **C39 is false, 1.** If the first vector of a state manager is added without data or with an array, iterating over
its entity kind is undefined behaviour from then on, after any further history. -/
theorem iterate_kind_undefined (zero : V) (count : Count) (mesh : Nat) (w : Reg.World) (r : Req V)
    (ops : List (Op V)) (ps : List (Option Nat)) (s : State V) (hf : NoForeignCopies mesh ops)
    (hr : ∀ x, r.init ≠ .value x) (h : run zero count (create mesh w) (.add r :: ops) = .ok (ps, s)) :
    vecsOfKind s r.kind = .error .undefinedBehaviour ∧ namesOfKind s r.kind = .error .undefinedBehaviour := by
  have key : (s.indexes r.kind).head? = some (-1) := by
    obtain ⟨p, ps', s1, rfl, h1, h2⟩ := run_cons h
    obtain ⟨i, -, h1'⟩ := withPos_ok h1
    have h0 : (s1.indexes r.kind).head? = some (-1) := by
      obtain ⟨he, hi⟩ := add_effect h1'
      rcases hi with e | e
      · rw [e] at he
        simp only [Op.asks] at he
        cases he with
        | old k _ _ _ e3 => simp [create] at e3
        | new _ _ _ _ _ e2 => simp [create] at e2
      · rw [e, if_pos rfl]
        have : pushedIndex (create mesh w : State V).vecs.length r.init = -1 := by
          cases hi : r.init <;> simp [pushedIndex, create]
          exact absurd hi (hr _)
        rw [this]
        rfl
    have hm1 : s1.mesh = mesh := add_mesh h1'
    suffices H : ∀ (os : List (Op V)) (s s' : State V) (ps : List (Option Nat)), NoForeignCopies s.mesh os →
        (s.indexes r.kind).head? = some (-1) →
        run zero count s os = .ok (ps, s') → (s'.indexes r.kind).head? = some (-1) from
      H ops s1 s ps' (by rw [hm1]; exact hf) h0 h2
    intro os
    induction os with
    | nil => intro s s' ps _ hs h; cases h; exact hs
    | cons o os ih =>
      intro s s' ps hf hs h
      obtain ⟨p, ps', s1, rfl, h1, h2⟩ := run_cons h
      obtain ⟨he, hm⟩ := op_effect hf.head h1
      refine ih s1 s' ps' (by rw [hm]; exact hf.tail) ?_ h2
      generalize o.asks = a at he
      cases he with
      | none _ _ e3 => rw [e3]; exact hs
      | old _ _ e1 => rw [e1]; exact hs
      | new i v j _ _ _ _ _ _ e6 =>
        rw [e6]
        dsimp only
        split
        · cases hh : s.indexes r.kind with
          | nil => rw [hh] at hs; simp at hs
          | cons a l => rw [hh] at hs; simpa using hs
        · exact hs
  have hk : ¬ r.kind.code < 0 := by
    intro hk
    obtain ⟨p, ps', s1, rfl, h1, -⟩ := run_cons h
    obtain ⟨i, -, h1'⟩ := withPos_ok h1
    obtain ⟨he, -⟩ := add_effect h1'
    simp only [Op.asks] at he
    cases he with
    | old _ _ _ _ e3 => simp [create] at e3
    | new _ _ _ _ _ _ _ _ e5 => dsimp only at e5; omega
  rw [vecsOfKind, if_neg hk, namesOfKind, if_neg hk]
  exact ⟨derefAll_bad _ _ key, derefAll_bad _ _ key⟩

/-- **C39 is false, 2.** In any state that has vectors, adding a new one without data or with an array makes the
iteration over its kind end with the vector registered before it (whatever its kind) instead of the new one. -/
theorem iterate_kind_previous (zero : V) (count : Count) (s s' : State V) (r : Req V) (p : Nat) (last : Vec)
    (l : List Vec) (hr : ∀ x, r.init ≠ .value x) (hlast : s.vecs.getLast? = some last)
    (hnew : findTyped s r.vt r.ty r.name r.domain r.kind r.type = none)
    (hl : vecsOfKind s r.kind = .ok l) (h : add zero count s r = .ok (p, s')) :
    vecsOfKind s' r.kind = .ok (l ++ [last]) ∧ ∃ v, s'.vecs = s.vecs ++ [v] ∧ s'.vecs[p]? = some v ∧
      v.ident = ⟨r.name, r.domain, r.kind, r.type, r.vt, r.ty⟩ := by
  obtain ⟨he, hi⟩ := add_effect h
  simp only [Op.asks] at he
  rw [findTyped_eq] at hnew
  cases he with
  | old _ k _ _ e3 =>
    have e3' : s.vecs.findIdx? (fun v => (Query.mk r.name r.kind r.type (some r.domain) (some r.vt)
      (some r.ty)).wants v.ident) = some k := e3
    rw [hnew] at e3'
    cases e3'
  | new _ v j e0 e1 e2 e3 e4 e5 e6 =>
    have hk : ¬ r.kind.code < 0 := by dsimp only at e5; omega
    have hne : s' ≠ s := by intro e; rw [e] at e2; simp at e2
    have hi' := hi.resolve_left hne
    have hp : p = s.vecs.length := by simpa using e1
    have hlen : 0 < s.vecs.length := by
      cases hv : s.vecs with
      | nil => rw [hv] at hlast; simp at hlast
      | cons a t => simp
    have hget : s.vecs[s.vecs.length - 1]? = some last := by rw [← List.getLast?_eq_getElem?]; exact hlast
    refine ⟨?_, v, e2, by rw [e2, hp]; simp, e3⟩
    rw [vecsOfKind, if_neg hk] at hl ⊢
    rw [hi', if_pos rfl, e2]
    have hpi : pushedIndex s.vecs.length r.init = ((s.vecs.length - 1 : Nat) : Int) := by
      cases hin : r.init <;> simp only [pushedIndex] <;> first | omega | exact absurd hin (hr _)
    rw [hpi]
    refine derefAll_snoc _ _ _ _ ?_ _ (derefAll_append s.vecs [v] _ _ hl)
    rw [List.getElem?_append_left (by omega), hget]

/-! ### Examples -/

/-- a mesh of four owned cells without sets -/
def exWorld : Reg.World := ⟨fun _ => ⟨fun _ => .PARALLEL_OWNED, 4, 0⟩, [], []⟩

def exCount : Count := fun _ _ _ => 4

/-- density on cells by value -/
def exRho : Op Int := .add ⟨.UNIVAL, 0, "rho", .mesh 0, .CELL, .ALL, .value 7⟩
/-- velocity on nodes by value -/
def exVel : Op Int := .add ⟨.UNIVAL, 0, "vel", .mesh 0, .NODE, .ALL, .value 1⟩
/-- a copy of a vector of this mesh, under another name -/
def exDup : Op Int := .addCopy ⟨"rho", .mesh 0, .CELL, .PARALLEL_OWNED, .UNIVAL, 0, 0⟩
/-- an array on cells -/
def exArr : Op Int := .add ⟨.UNIVAL, 1, "p", .mesh 0, .CELL, .ALL, .array [1, 2, 3, 4]⟩

/-- a history with two identities under one name and a repeated addition -/
def exOps : List (Op Int) := [exRho, exVel, exDup, .addMaterial "steel" [1, 2], exRho, exVel]

example : (match run 0 exCount (create 0 exWorld) exOps with
    | .ok (ps, s) => decide (ps = [some 0, some 1, some 2, none, some 0, some 1] ∧ s.names = ["rho", "vel", "rho"] ∧
        findName s "rho" .ANY_KIND .PARALLEL_OWNED = some 2 ∧ findName s "rho" .ANY_KIND .ALL = some 0)
    | .error _ => false) = true := by decide +kernel

example : NoForeignCopies 0 exOps ∧ ByValueOnly exOps := by
  constructor
  · intro v hv
    simp [exOps, exRho, exVel, exDup] at hv
    rw [hv]
  · intro o ho
    simp only [exOps, List.mem_cons, List.not_mem_nil, or_false] at ho
    rcases ho with rfl | rfl | rfl | rfl | rfl | rfl <;> decide

example : exRho ∈ exOps ∧ exRho.isAdd = true := by constructor <;> simp [exOps, exRho, Op.isAdd, Op.asks]

-- the array overload as first addition, and as a later one
example : (match run 0 exCount (create 0 exWorld) [exArr, exRho] with
    | .ok (_, s) => decide (vecsOfKind s .CELL = .error .undefinedBehaviour)
    | .error _ => false) = true := by decide +kernel

example : (match run 0 exCount (create 0 exWorld) [exVel, exArr] with
    | .ok (_, s) => decide ((vecsOfKind s .CELL).toOption.map (·.map Vec.name) = some ["vel"])
    | .error _ => false) = true := by decide +kernel

-- a vector of mesh 1 added twice to the state manager of mesh 0
example : (match run 0 exCount (create 0 exWorld)
      [exVel, .addCopy ⟨"t", .mesh 1, .CELL, .ALL, .UNIVAL, 0, 0⟩, .addCopy ⟨"t", .mesh 1, .CELL, .ALL, .UNIVAL, 0, 0⟩] with
    | .ok (_, s) => decide (s.names = ["vel", "t", "t"])
    | .error _ => false) = true := by decide +kernel

end Jali.St
