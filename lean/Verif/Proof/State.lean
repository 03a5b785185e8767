import Verif.Spec.State
/-! Lemmas about the state manager: what operations do to the list of vectors. -/
namespace Jali.St
open Jali.MSet
variable {V : Type}

theorem Query.wants_iff (q : Query) (i : Ident) : q.wants i = true ↔ i.name = q.name ∧
    (q.kind = .ANY_KIND ∨ i.kind = q.kind) ∧ (q.type = .ALL ∨ i.type = q.type) ∧
    (∀ d ∈ q.domain, i.domain = d) ∧ (∀ t ∈ q.vectype, i.vectype = t) ∧ ∀ t ∈ q.ty, i.ty = t := by
  simp only [Query.wants, Bool.and_eq_true, decide_eq_true_eq]
  constructor
  · rintro ⟨⟨⟨⟨⟨a, b⟩, c⟩, d⟩, e⟩, f⟩; exact ⟨a, b, c, d, e, f⟩
  · rintro ⟨a, b, c, d, e, f⟩; exact ⟨⟨⟨⟨⟨a, b⟩, c⟩, d⟩, e⟩, f⟩

/-- the query `add` makes before it adds -/
def Ident.query (i : Ident) : Query := ⟨i.name, i.kind, i.type, some i.domain, some i.vectype, some i.ty⟩

theorem findName_eq (s : State V) (n : String) (k : EntityKind) (t : EntityType) :
    findName s n k t = s.vecs.findIdx? fun v => (Query.mk n k t none none none).wants v.ident := by
  unfold findName
  congr 1; funext v
  rw [Bool.eq_iff_iff, Query.wants_iff]
  simp only [fits, Vec.ident, Bool.and_eq_true, Bool.or_eq_true, decide_eq_true_eq, Option.mem_def, reduceCtorEq,
    Option.some.injEq, forall_eq', false_implies, implies_true, and_true]
  tauto

theorem findDomain_eq (s : State V) (n : String) (d : Domain) (k : EntityKind) (t : EntityType) :
    findDomain s n d k t = s.vecs.findIdx? fun v => (Query.mk n k t (some d) none none).wants v.ident := by
  unfold findDomain
  congr 1; funext v
  rw [Bool.eq_iff_iff, Query.wants_iff]
  simp only [fits, Vec.ident, Bool.and_eq_true, Bool.or_eq_true, decide_eq_true_eq, Option.mem_def, reduceCtorEq,
    Option.some.injEq, forall_eq', false_implies, implies_true, and_true]
  tauto

theorem findVectype_eq (s : State V) (vt : VecType) (n : String) (d : Domain) (k : EntityKind) (t : EntityType) :
    findVectype s vt n d k t = s.vecs.findIdx? fun v => (Query.mk n k t (some d) (some vt) none).wants v.ident := by
  unfold findVectype
  congr 1; funext v
  rw [Bool.eq_iff_iff, Query.wants_iff]
  simp only [fits, Vec.ident, Bool.and_eq_true, Bool.or_eq_true, decide_eq_true_eq, Option.mem_def, reduceCtorEq,
    Option.some.injEq, forall_eq', false_implies, implies_true, and_true]
  tauto

theorem findTyped_eq (s : State V) (vt : VecType) (ty : Nat) (n : String) (d : Domain) (k : EntityKind)
    (t : EntityType) : findTyped s vt ty n d k t =
      s.vecs.findIdx? fun v => (Query.mk n k t (some d) (some vt) (some ty)).wants v.ident := by
  unfold findTyped
  congr 1; funext v
  rw [Bool.eq_iff_iff, Query.wants_iff]
  simp only [fits, Vec.ident, Bool.and_eq_true, Bool.or_eq_true, decide_eq_true_eq, Option.mem_def, reduceCtorEq,
    Option.some.injEq, forall_eq', false_implies, implies_true, and_true]
  tauto

/-- a vector that stands in the way of a request answers every query the request answers -/
theorem blocker_answers {q : Query} {i b : Ident} (hq : q.wants i = true) (hb : i.query.wants b = true) :
    q.wants b = true := by
  rw [Query.wants_iff] at *
  obtain ⟨q1, q2, q3, q4, q5, q6⟩ := hq
  obtain ⟨b1, b2, b3, b4, b5, b6⟩ := hb
  simp only [Ident.query, Option.mem_def, Option.some.injEq, forall_eq'] at b1 b2 b3 b4 b5 b6
  refine ⟨b1.trans q1, ?_, ?_, fun d hd => b4.trans (q4 d hd), fun d hd => b5.trans (q5 d hd),
    fun d hd => b6.trans (q6 d hd)⟩
  · rcases q2 with h | h
    · exact Or.inl h
    · rcases b2 with h' | h'
      · left; rw [← h, h']
      · exact Or.inr (h'.trans h)
  · rcases q3 with h | h
    · exact Or.inl h
    · rcases b3 with h' | h'
      · left; rw [← h, h']
      · exact Or.inr (h'.trans h)

/-- What an operation does to the vectors: nothing, or it appends one of the identity it asks for. -/
inductive Effect (s s' : State V) (p : Option Nat) : Option Ident → Prop
  | none : s'.vecs = s.vecs → s'.names = s.names → s'.indexes = s.indexes → p = none → Effect s s' p none
  | old (i : Ident) (k : Nat) : s' = s → p = some k → s.vecs.findIdx? (fun v => i.query.wants v.ident) = some k →
      Effect s s' p (some i)
  | new (i : Ident) (v : Vec) (j : Int) :
      s.vecs.findIdx? (fun v => i.query.wants v.ident) = Option.none → p = some s.vecs.length →
      s'.vecs = s.vecs ++ [v] → v.ident = i → s'.names = s.names ++ [i.name] → 0 ≤ i.kind.code →
      s'.indexes = (fun k => if k = i.kind then s.indexes k ++ [j] else s.indexes k) →
      Effect s s' p (some i)

theorem pushIndex_ok {x : EntityKind → List Int} {k : EntityKind} {i : Int} {y : EntityKind → List Int}
    (h : pushIndex x k i = .ok y) : 0 ≤ k.code ∧ y = fun k' => if k' = k then x k' ++ [i] else x k' := by
  unfold pushIndex at h
  split at h
  · cases h
  · cases h
    exact ⟨by omega, rfl⟩

theorem add_effect {zero : V} {count : Count} {s s' : State V} {r : Req V} {p : Nat}
    (h : add zero count s r = .ok (p, s')) :
    Effect s s' (some p) (Op.add r).asks ∧
    (s' = s ∨ ∀ k, s'.indexes k = if k = r.kind then s.indexes k ++ [pushedIndex s.vecs.length r.init]
      else s.indexes k) := by
  unfold add at h
  rw [findTyped_eq] at h
  split at h
  · rename_i i hi
    cases h
    exact ⟨.old _ _ rfl rfl hi, Or.inl rfl⟩
  · rename_i hn
    split at h
    · cases h
    · rename_i idx hidx
      obtain ⟨hk, rfl⟩ := pushIndex_ok hidx
      split at h
      · cases h
      · split at h
        · cases h
        · cases h
          exact ⟨.new _ _ _ hn rfl rfl rfl rfl hk rfl, Or.inr fun k => rfl⟩

theorem copyVec_effect {s s' : State V} {v v' : Vec} (h : copyVec s v = .ok (v', s')) :
    v'.ident = v.ident ∧ v'.data = s.blocks.length ∧ s'.vecs = s.vecs ∧ s'.names = s.names ∧
      s'.indexes = s.indexes ∧ s'.mesh = s.mesh ∧ s'.w = s.w ∧ s'.mats = s.mats ∧ s'.cellMats = s.cellMats ∧
      ∃ b, s.blocks[v.data]? = some b ∧ s'.blocks = s.blocks ++ [b] := by
  unfold copyVec at h
  split at h
  · cases h
  · rename_i b hb
    cases h
    exact ⟨rfl, rfl, rfl, rfl, rfl, rfl, rfl, rfl, rfl, b, hb, rfl⟩

theorem copyForAdd_effect {zero : V} {count : Count} {s s' : State V} {v v' : Vec}
    (h : copyForAdd zero count s v = .ok (v', s')) :
    (v.domain = .mesh s.mesh → v'.ident = v.ident) ∧ v'.ident = { v.ident with domain := .mesh s.mesh } ∧
      s'.vecs = s.vecs ∧ s'.names = s.names ∧ s'.indexes = s.indexes := by
  unfold copyForAdd at h
  split at h
  · rename_i hd
    obtain ⟨h1, h2, h3, h4, h5, -⟩ := copyVec_effect h
    exact ⟨fun _ => h1, by rw [h1, ← hd]; rfl, h3, h4, h5⟩
  · rename_i hd
    split at h
    · split at h
      · cases h
      · cases h
        exact ⟨fun h => absurd h hd, rfl, rfl, rfl, rfl⟩
    · cases h

theorem addCopy_effect {zero : V} {count : Count} {s s' : State V} {v : Vec} {p : Nat}
    (hd : v.domain = .mesh s.mesh) (h : addCopy zero count s v = .ok (p, s')) :
    Effect s s' (some p) (some v.ident) ∧
    (s' = s ∨ ∀ k, s'.indexes k = if k = v.kind then s.indexes k ++ [(s.vecs.length : Int)] else s.indexes k) := by
  unfold addCopy at h
  rw [findTyped_eq] at h
  split at h
  · rename_i i hi
    cases h
    exact ⟨.old _ _ rfl rfl hi, Or.inl rfl⟩
  · rename_i hn
    split at h
    · cases h
    · rename_i v' s1 hc
      obtain ⟨h1, -, h3, h4, h5⟩ := copyForAdd_effect hc
      split at h
      · cases h
      · rename_i idx hidx
        obtain ⟨hk, rfl⟩ := pushIndex_ok hidx
        cases h
        refine ⟨.new _ v' ((s1.vecs.length + 1 : Int) - 1) hn (by rw [h3]) (by simp only [h3]) (h1 hd) (by simp only [h4]; rfl) hk ?_,
          Or.inr fun k => ?_⟩
        · simp only [h5]; rfl
        · simp only [h5, h3]
          rw [show ((s.vecs.length + 1 : Int) - 1) = s.vecs.length by omega]

/-- nothing but materials, sets and data changes -/
structure SameVecs (s s' : State V) : Prop where
  vecs : s'.vecs = s.vecs
  names : s'.names = s.names
  indexes : s'.indexes = s.indexes
  mesh : s'.mesh = s.mesh

theorem addMaterial_same {zero : V} {s s' : State V} {n : String} {cs : List Nat}
    (h : addMaterial zero s n cs = .ok s') : SameVecs s s' := by
  unfold addMaterial at h
  repeat' split at h
  all_goals first
    | (cases h; done)
    | (cases h; exact ⟨rfl, rfl, rfl, rfl⟩)

theorem addCells_same {zero : V} {s s' : State V} {m : Nat} {cs : List Nat}
    (h : addCells zero s m cs = .ok s') : SameVecs s s' := by
  unfold addCells at h
  repeat' split at h
  all_goals first
    | (cases h; done)
    | (cases h; exact ⟨rfl, rfl, rfl, rfl⟩)

theorem remMaterial_same {s s' : State V} {m : Nat} (h : remMaterial s m = .ok s') : SameVecs s s' := by
  unfold remMaterial at h
  repeat' split at h
  all_goals first
    | (cases h; done)
    | (cases h; exact ⟨rfl, rfl, rfl, rfl⟩)

theorem remMaterialByName_same {s s' : State V} {n : String} (h : remMaterialByName s n = .ok s') :
    SameVecs s s' := by
  unfold remMaterialByName at h
  split at h
  · exact remMaterial_same h
  · cases h; exact ⟨rfl, rfl, rfl, rfl⟩

theorem uniWrite_same {s s' : State V} {v : Vec} {i : Nat} {x : V} (h : uniWrite s v i x = .ok s') :
    SameVecs s s' := by
  unfold uniWrite at h
  repeat' split at h
  all_goals first
    | (cases h; done)
    | (cases h; exact ⟨rfl, rfl, rfl, rfl⟩)

theorem uniResize_same {s s' : State V} {v : Vec} {n : Nat} {x : V} (h : uniResize s v n x = .ok s') :
    SameVecs s s' := by
  unfold uniResize at h
  repeat' split at h
  all_goals first
    | (cases h; done)
    | (cases h; exact ⟨rfl, rfl, rfl, rfl⟩)

theorem multiWrite_same {s s' : State V} {v : Vec} {i j : Nat} {l : Layout} {x : V}
    (h : multiWrite s v i j l x = .ok s') : SameVecs s s' := by
  unfold multiWrite at h
  repeat' split at h
  all_goals first
    | (cases h; done)
    | (cases h; exact ⟨rfl, rfl, rfl, rfl⟩)

theorem multiAssign_same {s s' : State V} {v : Vec} {l : Layout} {d : List (List V)}
    (h : multiAssign s v l d = .ok s') : SameVecs s s' := by
  unfold multiAssign at h
  repeat' split at h
  all_goals first
    | (cases h; done)
    | (cases h; exact ⟨rfl, rfl, rfl, rfl⟩)

theorem multiFill_same {s s' : State V} {v : Vec} {x : V}
    (h : multiFill s v x = .ok s') : SameVecs s s' := by
  unfold multiFill at h
  repeat' split at h
  all_goals first
    | (cases h; done)
    | (cases h; exact ⟨rfl, rfl, rfl, rfl⟩)

theorem noPos_ok {x : Except Err (State V)} {p : Option Nat} {s : State V} (h : noPos x = .ok (p, s)) :
    p = none ∧ x = .ok s := by
  cases x with
  | error e => cases h
  | ok y => cases h; exact ⟨rfl, rfl⟩

theorem withPos_ok {x : Except Err (Nat × State V)} {p : Option Nat} {s : State V} (h : withPos x = .ok (p, s)) :
    ∃ i, p = some i ∧ x = .ok (i, s) := by
  cases x with
  | error e => cases h
  | ok y => cases h; exact ⟨_, rfl, rfl⟩

theorem copied_ok {x : Except Err (Vec × State V)} {p : Option Nat} {s : State V} (h : copied x = .ok (p, s)) :
    p = none ∧ ∃ v, x = .ok (v, s) := by
  cases x with
  | error e => cases h
  | ok y => cases h; exact ⟨rfl, _, rfl⟩

theorem copyForAdd_mesh {zero : V} {count : Count} {s s' : State V} {v v' : Vec}
    (h : copyForAdd zero count s v = .ok (v', s')) : s'.mesh = s.mesh := by
  unfold copyForAdd at h
  split at h
  · exact (copyVec_effect h).2.2.2.2.2.1
  · split at h
    · split at h
      · cases h
      · cases h; rfl
    · cases h

theorem add_mesh {zero : V} {count : Count} {s s' : State V} {r : Req V} {p : Nat}
    (h : add zero count s r = .ok (p, s')) : s'.mesh = s.mesh := by
  unfold add at h
  repeat' split at h
  all_goals first
    | (cases h; done)
    | (cases h; rfl)

theorem addCopy_mesh {zero : V} {count : Count} {s s' : State V} {v : Vec} {p : Nat}
    (h : addCopy zero count s v = .ok (p, s')) : s'.mesh = s.mesh := by
  unfold addCopy at h
  split at h
  · cases h; rfl
  · split at h
    · cases h
    · rename_i hc
      split at h
      · cases h
      · cases h
        exact (copyForAdd_mesh hc : _)

/-- the effect of any operation on the vectors -/
theorem op_effect {zero : V} {count : Count} {s s' : State V} {o : Op V} {p : Option Nat}
    (hd : ∀ v, o = Op.addCopy v → v.domain = .mesh s.mesh) (h : o.run zero count s = .ok (p, s')) :
    Effect s s' p o.asks ∧ s'.mesh = s.mesh := by
  cases o with
  | add r =>
    obtain ⟨i, rfl, h'⟩ := withPos_ok h
    exact ⟨(add_effect h').1, add_mesh h'⟩
  | addCopy v =>
    obtain ⟨i, rfl, h'⟩ := withPos_ok h
    exact ⟨(addCopy_effect (hd v rfl) h').1, addCopy_mesh h'⟩
  | addMaterial n cs =>
    obtain ⟨rfl, h'⟩ := noPos_ok h
    have := addMaterial_same h'; exact ⟨.none this.1 this.2 this.3 rfl, this.4⟩
  | addCells m cs =>
    obtain ⟨rfl, h'⟩ := noPos_ok h
    have := addCells_same h'; exact ⟨.none this.1 this.2 this.3 rfl, this.4⟩
  | remMaterial m =>
    obtain ⟨rfl, h'⟩ := noPos_ok h
    have := remMaterial_same h'; exact ⟨.none this.1 this.2 this.3 rfl, this.4⟩
  | remMaterialByName n =>
    obtain ⟨rfl, h'⟩ := noPos_ok h
    have := remMaterialByName_same h'; exact ⟨.none this.1 this.2 this.3 rfl, this.4⟩
  | copy v =>
    obtain ⟨rfl, w, h'⟩ := copied_ok h
    obtain ⟨-, -, h1, h2, h3, h4, -⟩ := copyVec_effect h'
    exact ⟨.none h1 h2 h3 rfl, h4⟩
  | uniWrite v i x =>
    obtain ⟨rfl, h'⟩ := noPos_ok h
    have := uniWrite_same h'; exact ⟨.none this.1 this.2 this.3 rfl, this.4⟩
  | uniResize v n x =>
    obtain ⟨rfl, h'⟩ := noPos_ok h
    have := uniResize_same h'; exact ⟨.none this.1 this.2 this.3 rfl, this.4⟩
  | multiWrite v i j l x =>
    obtain ⟨rfl, h'⟩ := noPos_ok h
    have := multiWrite_same h'; exact ⟨.none this.1 this.2 this.3 rfl, this.4⟩
  | multiAssign v l d =>
    obtain ⟨rfl, h'⟩ := noPos_ok h
    have := multiAssign_same h'; exact ⟨.none this.1 this.2 this.3 rfl, this.4⟩
  | multiFill v x =>
    obtain ⟨rfl, h'⟩ := noPos_ok h
    have := multiFill_same h'; exact ⟨.none this.1 this.2 this.3 rfl, this.4⟩

theorem run_cons {zero : V} {count : Count} {s s' : State V} {o : Op V} {os : List (Op V)}
    {ps : List (Option Nat)} (h : run zero count s (o :: os) = .ok (ps, s')) :
    ∃ p ps' s1, ps = p :: ps' ∧ o.run zero count s = .ok (p, s1) ∧ run zero count s1 os = .ok (ps', s') := by
  unfold run at h
  split at h
  · cases h
  · rename_i p s1 h1
    split at h
    · cases h
    · rename_i ps' s2 h2
      cases h
      exact ⟨p, ps', s1, rfl, h1, h2⟩

theorem NoForeignCopies.tail {mesh : Nat} {o : Op V} {os : List (Op V)} (h : NoForeignCopies mesh (o :: os)) :
    NoForeignCopies mesh os := fun v hv => h v (List.mem_cons_of_mem _ hv)

theorem NoForeignCopies.head {mesh : Nat} {o : Op V} {os : List (Op V)} (h : NoForeignCopies mesh (o :: os)) :
    ∀ v, o = Op.addCopy v → v.domain = .mesh mesh := fun v hv => h v (by simp [hv])

/-- look-up after a history, from any state -/
theorem find_run {zero : V} {count : Count} (q : Query) (os : List (Op V)) : ∀ (s s' : State V)
    (ps : List (Option Nat)), NoForeignCopies s.mesh os → run zero count s os = .ok (ps, s') →
    s'.vecs.findIdx? (fun v => q.wants v.ident) =
      match s.vecs.findIdx? (fun v => q.wants v.ident) with
      | some k => some k
      | none => firstOffered q os ps := by
  induction os with
  | nil =>
    intro s s' ps _ h
    cases h
    cases s.vecs.findIdx? (fun v => q.wants v.ident) <;> rfl
  | cons o os ih =>
    intro s s' ps hf h
    obtain ⟨p, ps', s1, rfl, h1, h2⟩ := run_cons h
    obtain ⟨he, hm⟩ := op_effect hf.head h1
    have := ih s1 s' ps' (by rw [hm]; exact hf.tail) h2
    rw [this]
    generalize ha : o.asks = a at he
    cases he with
    | none e1 e2 e3 e4 =>
      rw [e1]
      split
      · rfl
      · have : o.offers q = false := by simp [Op.offers, ha]
        simp [firstOffered, List.findIdx?_cons, this]
        split <;> rename_i x y <;> simp [y]
    | old i k e1 e2 e3 =>
      subst e1
      split
      · rfl
      · rename_i hn
        have : o.offers q = false := by
          rw [Op.offers, ha]
          by_contra hc
          simp only [Bool.not_eq_false] at hc
          obtain ⟨hk, hb, -⟩ := List.findIdx?_eq_some_iff_getElem.1 e3
          rw [List.findIdx?_eq_none_iff] at hn
          have h1 := hn s1.vecs[k] (List.getElem_mem hk)
          rw [blocker_answers hc hb] at h1
          cases h1
        simp [firstOffered, List.findIdx?_cons, this]
        split <;> rename_i x y <;> simp [y]
    | new i v j e0 e1 e2 e3 e4 e5 e6 =>
      have hof : o.offers q = q.wants i := by rw [Op.offers, ha]
      rw [e2, List.findIdx?_append]
      cases hs : s.vecs.findIdx? (fun v => q.wants v.ident) with
      | some k => simp
      | none =>
        simp only [Option.none_or, List.findIdx?_cons, List.findIdx?_nil, e3]
        cases hw : q.wants i with
        | true => simp [firstOffered, List.findIdx?_cons, hof, hw, e1]
        | false =>
          simp [firstOffered, List.findIdx?_cons, hof, hw]
          split <;> rename_i x y <;> simp [y]

end Jali.St
