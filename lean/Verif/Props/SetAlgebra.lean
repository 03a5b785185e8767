import Verif.Props.MeshSet
import Verif.Spec.SetAlgebra
import Mathlib.Tactic.IntervalCases
import Mathlib.Tactic.Tauto
/-! Property theorems C182: laws of sets. -/
namespace Jali.MSet
variable {m : MeshView}

/-- sets in order, of one mesh and kind -/
structure Family (m : MeshView) (mesh : Nat) (kind : EntityKind) (h : List Obj) : Prop where
  proper : ∀ s ∈ h, Proper m s
  same : ∀ s ∈ h, s.mesh = mesh ∧ s.kind = kind
  index : ∀ s ∈ h, s.haveMap = true → IndexExact m s

/-- the set at address `a` has the entity in its list of the type -/
def HasAt (h : List Obj) (t : EntityType) (x : Nat) (a : Nat) : Prop := ∃ s, h[a]? = some s ∧ x ∈ entities s t

theorem prefix_get {h h' : List Obj} (hp : h <+: h') {a : Nat} {s : Obj} (hs : h[a]? = some s) : h'[a]? = some s := by
  obtain ⟨t, rfl⟩ := hp
  rw [List.getElem?_append_left]
  · exact hs
  · exact (List.getElem?_eq_some_iff.1 hs).1

theorem hasAt_prefix {h h' : List Obj} (hp : h <+: h') {n : Nat} (hn : n = h.length) (t : EntityType) (x : Nat) :
    ∀ e : Expr, e.Within n → (e.Holds (HasAt h' t x) ↔ e.Holds (HasAt h t x))
  | .leaf a, hw => by
    have ha : a < h.length := hn ▸ hw
    have e1 : h[a]? = some h[a] := List.getElem?_eq_getElem ha
    have e2 := prefix_get hp e1
    simp only [Expr.Holds, HasAt, e1, e2]
  | .union e f, hw => or_congr (hasAt_prefix hp hn t x e hw.1) (hasAt_prefix hp hn t x f hw.2)
  | .inter e f, hw => and_congr (hasAt_prefix hp hn t x e hw.1) (hasAt_prefix hp hn t x f hw.2)
  | .diff e f, hw => and_congr (hasAt_prefix hp hn t x e hw.1) (not_congr (hasAt_prefix hp hn t x f hw.2))
  | .compl e, hw => not_congr (hasAt_prefix hp hn t x e hw)

theorem within_mono {n k : Nat} (hk : n ≤ k) : ∀ e : Expr, e.Within n → e.Within k
  | .leaf _, hw => Nat.lt_of_lt_of_le hw hk
  | .union e f, hw => ⟨within_mono hk e hw.1, within_mono hk f hw.2⟩
  | .inter e f, hw => ⟨within_mono hk e hw.1, within_mono hk f hw.2⟩
  | .diff e f, hw => ⟨within_mono hk e hw.1, within_mono hk f hw.2⟩
  | .compl e, hw => within_mono hk e hw

/-- two addresses in a family are good inputs -/
theorem good_two {mesh : Nat} {kind : EntityKind} {h : List Obj} (hf : Family m mesh kind h) {a b : Nat} {s t : Obj} (ha : h[a]? = some s)
    (hb : h[b]? = some t) : GoodInputs m [⟨a, s⟩, ⟨b, t⟩] ∧ OneKind [⟨a, s⟩, ⟨b, t⟩] := by
  have ms := List.mem_of_getElem? ha
  have mt := List.mem_of_getElem? hb
  refine ⟨⟨?_, ?_⟩, ?_⟩
  · intro p hp
    simp only [List.mem_cons, List.not_mem_nil, or_false] at hp
    rcases hp with rfl | rfl
    exacts [hf.proper _ ms, hf.proper _ mt]
  · intro p hp q hq e
    simp only [List.mem_cons, List.not_mem_nil, or_false] at hp hq
    rcases hp with rfl | rfl <;> rcases hq with rfl | rfl <;> simp only at e
    · rfl
    · subst e; rw [ha] at hb; cases hb; rfl
    · subst e; rw [ha] at hb; cases hb; rfl
    · rfl
  · intro p hp q hq
    simp only [List.mem_cons, List.not_mem_nil, or_false] at hp hq
    have hs := hf.same _ ms; have ht := hf.same _ mt
    rcases hp with rfl | rfl <;> rcases hq with rfl | rfl <;> simp [hs, ht]

theorem family_push {mesh : Nat} {kind : EntityKind} {h : List Obj} (hf : Family m mesh kind h) {s : Obj} (hs : Proper m s)
    (hm : s.mesh = mesh ∧ s.kind = kind) (hi : s.haveMap = true → IndexExact m s) : Family m mesh kind (h ++ [s]) := by
  refine ⟨?_, ?_, ?_⟩
  · intro x hx; rcases List.mem_append.1 hx with hx | hx
    · exact hf.proper x hx
    · simp at hx; subst hx; exact hs
  · intro x hx; rcases List.mem_append.1 hx with hx | hx
    · exact hf.same x hx
    · simp at hx; subst hx; exact hm
  · intro x hx; rcases List.mem_append.1 hx with hx | hx
    · exact hf.index x hx
    · simp at hx; subst hx; exact hi

/-- what an operation returns, of two arguments: a new object of the mesh and kind of the first -/
structure New (p : Ptr) (o : Out) : Prop where
  fresh : ∃ s, o = .fresh s
  mesh : o.obj.mesh = p.obj.mesh
  kind : o.obj.kind = p.obj.kind
  map : o.obj.haveMap = decide (p.obj.map.length ≠ 0)

theorem new_construct {name : String} {p : Ptr} {owned ghost : List Nat} {o : Out}
    (h : (match construct m name p.obj.mesh p.obj.kind owned ghost (p.obj.map.length ≠ 0) with
      | .error x => (Except.error x : Except Err Out)
      | .ok s => .ok (.fresh s)) = .ok o) : New p o := by
  split at h
  · cases h
  · next s hs =>
    cases h
    have hc := construct_fields hs
    refine ⟨⟨s, rfl⟩, hc.2.1, hc.1, ?_⟩
    simp only [Out.obj]
    unfold construct at hs
    simp only at hs
    split at hs
    · next hb => split at hs <;> cases hs; exact hb.symm
    · next hb => cases hs; simpa using hb

theorem new_merge {p q : Ptr} {o : Out} (h : merge m [p, q] = .ok o) : New p o := by
  unfold merge at h
  simp only at h
  split at h
  · exact new_construct h
  · cases h

theorem new_inter {p q : Ptr} {o : Out} (h : intersect m [p, q] = .ok o) : New p o := by
  unfold intersect at h
  simp only at h
  split at h
  · exact new_construct h
  · cases h

theorem new_diff {p q : Ptr} {o : Out} (h : subtract m p [q] = .ok o) : New p o := by
  unfold subtract at h
  simp only [merge] at h
  split at h
  · exact new_construct h
  · cases h

theorem new_compl {p : Ptr} {o : Out} (h : complement m [p] = .ok o) : New p o := by
  unfold complement at h
  simp only [merge] at h
  exact new_construct h

/-- what the evaluation of an expression achieved -/
structure Done (m : MeshView) (mesh : Nat) (kind : EntityKind) (h : List Obj) (e : Expr) (h0 : List Obj) (a : Nat) (h' : List Obj) (s : Obj) : Prop where
  before : h0 <+: h'
  here : h'[a]? = some s
  family : Family m mesh kind h'
  owned : ∀ x, x < m.nAll → m.typeOf x = .PARALLEL_OWNED → (x ∈ s.owned ↔ e.Holds (HasAt h .PARALLEL_OWNED x))
  ghost : ∀ x, x < m.nAll → m.typeOf x = .PARALLEL_GHOST → (x ∈ s.ghost ↔ e.Holds (HasAt h .PARALLEL_GHOST x))
  map : m.nAll ≠ 0 → (∃ f, h[e.first]? = some f ∧ f.haveMap = true) → s.haveMap = true

theorem done_new {mesh : Nat} {kind : EntityKind} {h h0 h1 : List Obj} {e : Expr} {p : Ptr} {o : Out} (hb : h0 <+: h1) (hf : Family m mesh kind h1)
    (hp : h1[p.addr]? = some p.obj) (hn : New p o) (ho : Proper m o.obj) (hi : p.obj.haveMap = true → IndexExact m o.obj)
    (howned : ∀ x, x < m.nAll → m.typeOf x = .PARALLEL_OWNED → (x ∈ o.obj.owned ↔ e.Holds (HasAt h .PARALLEL_OWNED x)))
    (hghost : ∀ x, x < m.nAll → m.typeOf x = .PARALLEL_GHOST → (x ∈ o.obj.ghost ↔ e.Holds (HasAt h .PARALLEL_GHOST x)))
    (hmap : m.nAll ≠ 0 → (∃ f, h[e.first]? = some f ∧ f.haveMap = true) → p.obj.haveMap = true) :
    ∃ a h', keep h1 (.ok o) = .ok (a, h') ∧ Done m mesh kind h e h0 a h' o.obj := by
  obtain ⟨s, rfl⟩ := hn.fresh
  have hpm := List.mem_of_getElem? hp
  have hpp := hf.proper _ hpm
  have hlen := hpp.map_len
  have hms := hf.same _ hpm
  have e1 := hn.mesh; have e2 := hn.kind; have e3 := hn.map
  simp only [Out.obj] at *
  refine ⟨h1.length, h1 ++ [s], rfl, hb.trans (List.prefix_append _ _), by simp, ?_, howned, hghost, ?_⟩
  · refine family_push hf ho ⟨e1.trans hms.1, e2.trans hms.2⟩ fun hs => ?_
    refine hi ?_
    rw [e3] at hs
    by_contra hc
    simp only [Bool.not_eq_true] at hc
    rw [hc] at hlen
    simp [hlen] at hs
  · intro hz hx
    have := hmap hz hx
    rw [this] at hlen
    rw [e3]; simpa [hlen] using hz

/-- an operation of two arguments -/
theorem done_two {mesh : Nat} {kind : EntityKind} {h h0 h1 h2 : List Obj} {e f : Expr} {a b : Nat} {s t : Obj}
    (d1 : Done m mesh kind h e h0 a h1 s) (d2 : Done m mesh kind h f h1 b h2 t) :
    h0 <+: h2 ∧ h2[a]? = some s ∧ h2[b]? = some t ∧ GoodInputs m [⟨a, s⟩, ⟨b, t⟩] ∧ OneKind [⟨a, s⟩, ⟨b, t⟩] :=
  ⟨d1.before.trans d2.before, prefix_get d2.before d1.here, d2.here, good_two d2.family (prefix_get d2.before d1.here) d2.here⟩

/-- **C182 (part that holds).** An expression of unions, intersections and differences of sets of one mesh and kind (and complements, when the
mesh is numbered owned first and has no ghosts) can be evaluated, whatever its size; the sets it started from are what and where they were, and
the result is a set in order that has an entity in its list of OWNED (GHOST) exactly if the expression says so, with a right index if the first
set has storage for one. -/
theorem expression_partial {mesh : Nat} {kind : EntityKind} {h : List Obj} (e : Expr) : ∀ h0 : List Obj, h <+: h0 → Family m mesh kind h0 →
    e.Within h.length → (e.Plain ∨ OwnedFirst m ∧ m.nGhost = 0) →
    ∃ a h' s, evalExpr m e h0 = .ok (a, h') ∧ Done m mesh kind h e h0 a h' s := by
  induction e with
  | leaf a =>
    intro h0 hp hf hw _
    have e1 : h[a]? = some (h[a]'hw) := List.getElem?_eq_getElem hw
    have e2 := prefix_get hp e1
    refine ⟨a, h0, h[a]'hw, rfl, List.prefix_refl _, e2, hf, ?_, ?_, ?_⟩
    · intro x _ _; simp [Expr.Holds, HasAt, e1, entities]
    · intro x _ _; simp [Expr.Holds, HasAt, e1, entities]
    · rintro _ ⟨f, hf, hm⟩; simp only [Expr.first] at hf; rw [e1] at hf; cases hf; exact hm
  | union e f ihe ihf =>
    intro h0 hp hf hw hc
    obtain ⟨a, h1, s, v1, d1⟩ := ihe h0 hp hf hw.1 (hc.imp (·.1) id)
    obtain ⟨b, h2, t, v2, d2⟩ := ihf h1 (hp.trans d1.before) d1.family hw.2 (hc.imp (·.2) id)
    obtain ⟨hb, ha, hbt, gi, ok⟩ := done_two d1 d2
    obtain ⟨o, ho, op, oo, og, -, -, oi⟩ := merge_is_union m _ _ gi ok
    obtain ⟨c, h', hk, hd⟩ := done_new (h := h) (e := .union e f) hb d2.family (p := ⟨a, s⟩) ha (new_merge ho) op (oi (by simp))
      (fun x hx ht => by
        have := oo x
        simp only [List.mem_cons, List.not_mem_nil, or_false, exists_eq_or_imp, exists_eq_left, entities] at this
        rw [this, d1.owned x hx ht, d2.owned x hx ht]; rfl)
      (fun x hx ht => by
        have := og x
        simp only [List.mem_cons, List.not_mem_nil, or_false, exists_eq_or_imp, exists_eq_left, entities] at this
        rw [this, d1.ghost x hx ht, d2.ghost x hx ht]; rfl)
      d1.map
    refine ⟨c, h', o.obj, ?_, hd⟩
    simp only [evalExpr, v1, v2, bind, Except.bind, on2, ha, hbt, ho, hk]
  | inter e f ihe ihf =>
    intro h0 hp hf hw hc
    obtain ⟨a, h1, s, v1, d1⟩ := ihe h0 hp hf hw.1 (hc.imp (·.1) id)
    obtain ⟨b, h2, t, v2, d2⟩ := ihf h1 (hp.trans d1.before) d1.family hw.2 (hc.imp (·.2) id)
    obtain ⟨hb, ha, hbt, gi, ok⟩ := done_two d1 d2
    obtain ⟨o, ho, op, oo, og, oi⟩ := intersect_is_intersection m _ _ gi ok
    simp only [entities] at oo og
    obtain ⟨c, h', hk, hd⟩ := done_new (h := h) (e := .inter e f) hb d2.family (p := ⟨a, s⟩) ha (new_inter ho) op oi
      (fun x hx ht => by
        rw [oo]; simp only [List.mem_filter, decide_eq_true_eq, List.mem_cons, List.not_mem_nil, or_false, forall_eq_or_imp, forall_eq]
        rw [d1.owned x hx ht, d2.owned x hx ht]; simp only [Expr.Holds]; tauto)
      (fun x hx ht => by
        rw [og]; simp only [List.mem_filter, decide_eq_true_eq, List.mem_cons, List.not_mem_nil, or_false, forall_eq_or_imp, forall_eq]
        rw [d1.ghost x hx ht, d2.ghost x hx ht]; simp only [Expr.Holds]; tauto)
      d1.map
    refine ⟨c, h', o.obj, ?_, hd⟩
    simp only [evalExpr, v1, v2, bind, Except.bind, on2, ha, hbt, ho, hk]
  | diff e f ihe ihf =>
    intro h0 hp hf hw hc
    obtain ⟨a, h1, s, v1, d1⟩ := ihe h0 hp hf hw.1 (hc.imp (·.1) id)
    obtain ⟨b, h2, t, v2, d2⟩ := ihf h1 (hp.trans d1.before) d1.family hw.2 (hc.imp (·.2) id)
    obtain ⟨hb, ha, hbt, gi, ok⟩ := done_two d1 d2
    have gq : GoodInputs m [⟨b, t⟩] := ⟨fun p hp => gi.proper p (List.mem_cons_of_mem _ hp), fun p hp q hq => gi.addr p (List.mem_cons_of_mem _ hp) q (List.mem_cons_of_mem _ hq)⟩
    obtain ⟨⟨o, ho, op, oo, og, oi⟩, -⟩ := subtract_is_difference m ⟨a, s⟩ ⟨b, t⟩ [] (gi.proper _ (by simp)) gq ok
    simp only [entities] at oo og
    obtain ⟨c, h', hk, hd⟩ := done_new (h := h) (e := .diff e f) hb d2.family (p := ⟨a, s⟩) ha (new_diff ho) op oi
      (fun x hx ht => by
        rw [oo]; simp only [List.mem_filter, decide_eq_true_eq, List.mem_cons, List.not_mem_nil, or_false, forall_eq]
        rw [d1.owned x hx ht, d2.owned x hx ht]; rfl)
      (fun x hx ht => by
        rw [og]; simp only [List.mem_filter, decide_eq_true_eq, List.mem_cons, List.not_mem_nil, or_false, forall_eq]
        rw [d1.ghost x hx ht, d2.ghost x hx ht]; rfl)
      d1.map
    refine ⟨c, h', o.obj, ?_, hd⟩
    simp only [evalExpr, v1, v2, bind, Except.bind, on2, ha, hbt, ho, hk]
  | compl e ihe =>
    intro h0 hp hf hw hc
    have hc2 : OwnedFirst m ∧ m.nGhost = 0 := hc.resolve_left id
    obtain ⟨a, h1, s, v1, d1⟩ := ihe h0 hp hf hw (.inr hc2)
    obtain ⟨gi2, ok2⟩ := good_two d1.family d1.here d1.here
    have gq : GoodInputs m [⟨a, s⟩] := ⟨fun p hp => gi2.proper p (List.mem_cons_of_mem _ hp), fun p hp q hq => gi2.addr p (List.mem_cons_of_mem _ hp) q (List.mem_cons_of_mem _ hq)⟩
    obtain ⟨o, ho, op, oo, oi⟩ := complement_partial m hc2.1 hc2.2 ⟨a, s⟩ [] gq
      (fun p hp q hq => ok2 p (List.mem_cons_of_mem _ hp) q (List.mem_cons_of_mem _ hq))
    have noghost : ∀ x, x < m.nAll → m.typeOf x ≠ .PARALLEL_GHOST := fun x hx ht => by
      have := (hc2.1.2 x).1 ht
      have : m.nAll = m.nOwned := by simp [MeshView.nAll, hc2.2]
      omega
    obtain ⟨c, h', hk, hd⟩ := done_new (h := h) (e := .compl e) d1.before d1.family (p := ⟨a, s⟩) d1.here (new_compl ho) op oi
      (fun x hx ht => by
        have key : ∀ y : Obj, Proper m y → (x ∈ y.owned ↔ x ∈ y.all) := fun y hy => by
          rw [hy.all_eq, List.mem_append]
          refine ⟨.inl, fun hh => hh.resolve_right fun hg => ?_⟩
          have := hy.ghost_type x hg
          rw [ht] at this; cases this
        rw [key _ op]
        simp only [entities] at oo
        rw [oo]; simp only [List.mem_filter, List.mem_range, decide_eq_true_eq, List.mem_cons, List.not_mem_nil, or_false, forall_eq]
        rw [← key s (gi2.proper ⟨a, s⟩ (by simp)), d1.owned x hx ht]; simp only [Expr.Holds, hx, true_and])
      (fun x hx ht => absurd ht (noghost x hx))
      d1.map
    refine ⟨c, h', o.obj, ?_, hd⟩
    simp only [evalExpr, v1, bind, Except.bind, on2, d1.here, ho, hk]

/-- entities of a list of a proper set are known to the mesh -/
theorem proper_mem {s : Obj} (hs : Proper m s) (x : Nat) :
    (x ∈ s.owned → x < m.nAll ∧ m.typeOf x = .PARALLEL_OWNED) ∧ (x ∈ s.ghost → x < m.nAll ∧ m.typeOf x = .PARALLEL_GHOST) :=
  ⟨fun h => ⟨hs.bound x (by rw [hs.all_eq]; simp [h]), hs.owned_type x h⟩, fun h => ⟨hs.bound x (by rw [hs.all_eq]; simp [h]), hs.ghost_type x h⟩⟩

/-- **C182 (part that holds).** Expressions that are equal by the laws of sets give sets of the same entities, whatever the order of the lists;
each of the two sets has a right index if the first set of its expression has storage for one. -/
theorem laws_of_sets_partial {mesh : Nat} {kind : EntityKind} {h : List Obj} (hf : Family m mesh kind h) {e f : Expr} (hl : e.Equiv f)
    (he : e.Within h.length) (hfw : f.Within h.length) (hc : e.Plain ∧ f.Plain ∨ OwnedFirst m ∧ m.nGhost = 0) :
    ∃ a h1 s b h2 t, evalExpr m e h = .ok (a, h1) ∧ h1[a]? = some s ∧ evalExpr m f h = .ok (b, h2) ∧ h2[b]? = some t ∧
      (entities s .PARALLEL_OWNED).Perm (entities t .PARALLEL_OWNED) ∧ (entities s .PARALLEL_GHOST).Perm (entities t .PARALLEL_GHOST) ∧
      (entities s .ALL).Perm (entities t .ALL) ∧
      ((∃ z, h[e.first]? = some z ∧ z.haveMap = true) → IndexExact m s) ∧ ((∃ z, h[f.first]? = some z ∧ z.haveMap = true) → IndexExact m t) := by
  obtain ⟨a, h1, s, v1, d1⟩ := expression_partial e h (List.prefix_refl _) hf he (hc.imp (·.1) id)
  obtain ⟨b, h2, t, v2, d2⟩ := expression_partial f h (List.prefix_refl _) hf hfw (hc.imp (·.2) id)
  have ps := d1.family.proper _ (List.mem_of_getElem? d1.here)
  have pt := d2.family.proper _ (List.mem_of_getElem? d2.here)
  have ho : s.owned.Perm t.owned := by
    rw [List.perm_ext_iff_of_nodup ps.loose.nodups.1 pt.loose.nodups.1]
    intro x
    constructor
    · intro hx; obtain ⟨hb, ht⟩ := (proper_mem ps x).1 hx
      exact (d2.owned x hb ht).2 ((hl _).1 ((d1.owned x hb ht).1 hx))
    · intro hx; obtain ⟨hb, ht⟩ := (proper_mem pt x).1 hx
      exact (d1.owned x hb ht).2 ((hl _).2 ((d2.owned x hb ht).1 hx))
  have hg : s.ghost.Perm t.ghost := by
    rw [List.perm_ext_iff_of_nodup ps.loose.nodups.2 pt.loose.nodups.2]
    intro x
    constructor
    · intro hx; obtain ⟨hb, ht⟩ := (proper_mem ps x).2 hx
      exact (d2.ghost x hb ht).2 ((hl _).1 ((d1.ghost x hb ht).1 hx))
    · intro hx; obtain ⟨hb, ht⟩ := (proper_mem pt x).2 hx
      exact (d1.ghost x hb ht).2 ((hl _).2 ((d2.ghost x hb ht).1 hx))
  refine ⟨a, h1, s, b, h2, t, v1, d1.here, v2, d2.here, ho, hg, ?_, fun hz => ?_, fun hz => ?_⟩
  · show s.all.Perm t.all
    rw [ps.all_eq, pt.all_eq]; exact ho.append hg
  · by_cases hn : m.nAll = 0
    · intro e he; omega
    · exact d1.family.index s (List.mem_of_getElem? d1.here) (d1.map hn hz)
  · by_cases hn : m.nAll = 0
    · intro e he; omega
    · exact d2.family.index t (List.mem_of_getElem? d2.here) (d2.map hn hz)

/-- **C182.** The sets an expression started from are what and where they were. -/
theorem arguments_unchanged_partial {mesh : Nat} {kind : EntityKind} {h : List Obj} (hf : Family m mesh kind h) {e : Expr}
    (he : e.Within h.length) (hc : e.Plain ∨ OwnedFirst m ∧ m.nGhost = 0) {i : Nat} (hi : i < h.length) :
    ∃ a h', evalExpr m e h = .ok (a, h') ∧ h'[i]? = some h[i] := by
  obtain ⟨a, h1, s, v1, d1⟩ := expression_partial e h (List.prefix_refl _) hf he hc
  exact ⟨a, h1, v1, prefix_get d1.before (List.getElem?_eq_getElem hi)⟩

/-- the sets of the examples -/
theorem exFamily : Family exMesh 0 .CELL [exSet, exSet2] := by
  refine ⟨?_, ?_, ?_⟩
  · intro s hs
    simp only [List.mem_cons, List.not_mem_nil, or_false] at hs
    rcases hs with rfl | rfl
    exacts [exInputs.1.proper ⟨10, exSet⟩ (by simp), exInputs.1.proper ⟨11, exSet2⟩ (by simp)]
  · intro s hs
    simp only [List.mem_cons, List.not_mem_nil, or_false] at hs
    rcases hs with rfl | rfl <;> exact ⟨rfl, rfl⟩
  · intro s hs hm
    simp only [List.mem_cons, List.not_mem_nil, or_false] at hs
    rcases hs with rfl | rfl
    · intro e he
      have : e < 5 := he
      interval_cases e <;> decide
    · cases hm

/-- union and intersection: `s0 ∩ (s0 ∪ s1) = (s1 ∪ s0) - (s1 - s0)`, sets with ghosts, an index on the left only -/
example : ∃ a h1 s b h2 t, evalExpr exMesh (.inter (.leaf 0) (.union (.leaf 0) (.leaf 1))) [exSet, exSet2] = .ok (a, h1) ∧ h1[a]? = some s ∧
    evalExpr exMesh (.diff (.union (.leaf 1) (.leaf 0)) (.diff (.leaf 1) (.leaf 0))) [exSet, exSet2] = .ok (b, h2) ∧ h2[b]? = some t ∧
    (entities s .ALL).Perm (entities t .ALL) ∧ IndexExact exMesh s := by
  obtain ⟨a, h1, s, b, h2, t, v1, w1, v2, w2, -, -, hp, hi, -⟩ := laws_of_sets_partial exFamily
    (e := .inter (.leaf 0) (.union (.leaf 0) (.leaf 1))) (f := .diff (.union (.leaf 1) (.leaf 0)) (.diff (.leaf 1) (.leaf 0)))
    (fun at' => by simp only [Expr.Holds]; tauto) (by simp [Expr.Within]) (by simp [Expr.Within]) (.inl ⟨by simp [Expr.Plain], by simp [Expr.Plain]⟩)
  exact ⟨a, h1, s, b, h2, t, v1, w1, v2, w2, hp, hi ⟨exSet, rfl, rfl⟩⟩

/-- De Morgan's law on a mesh without ghosts -/
example (a b : Nat) : Expr.Equiv (.compl (.union (.leaf a) (.leaf b))) (.inter (.compl (.leaf a)) (.compl (.leaf b))) := fun at' => by
  simp only [Expr.Holds]; tauto

/-- **C182 is false of the code with ghosts.** On a mesh numbered owned first, with owned entities, a set that has the last ghost of the mesh is not the
complement of its complement, although the law holds of sets: the complement of the complement has not this ghost. -/
theorem double_complement_false (hm : OwnedFirst m) (ho : 0 < m.nOwned) (hg : 0 < m.nGhost) (h : List Obj) (a0 : Nat) :
    Expr.Equiv (.compl (.compl (.leaf a0))) (.leaf a0) ∧ m.typeOf (m.nAll - 1) = .PARALLEL_GHOST ∧
    ∀ a h' s, evalExpr m (.compl (.compl (.leaf a0))) h = .ok (a, h') → h'[a]? = some s → m.nAll - 1 ∉ entities s .PARALLEL_GHOST := by
  refine ⟨fun at' => by simp [Expr.Holds], (hm.2 _).2 ⟨by simp [MeshView.nAll]; omega, by simp [MeshView.nAll]; omega⟩, ?_⟩
  intro a h' s hv hs
  have key : ∀ (h : List Obj) (b : Nat) (a : Nat) (h' : List Obj) (s : Obj), on2 h b b (fun p _ => complement m [p]) = .ok (a, h') → h'[a]? = some s →
      ∀ x ∈ s.ghost, x < m.nGhost := by
    intro h b a h' s hv hs x hx
    unfold on2 at hv
    split at hv
    · next p q hp hq =>
      beta_reduce at hv
      cases ho : complement m [⟨b, p⟩] with
      | error x => rw [ho] at hv; cases hv
      | ok o =>
        obtain ⟨z, rfl⟩ := (new_compl ho).fresh
        rw [ho] at hv
        simp only [keep] at hv
        cases hv
        simp at hs
        subst hs
        unfold complement at ho
        simp only [merge] at ho
        split at ho
        · cases ho
        · next z hz =>
          cases ho
          rw [(construct_fields hz).2.2.2.1] at hx
          exact List.mem_range.1 (List.mem_filter.1 hx).1
    · cases hv
  intro hx
  simp only [evalExpr, bind, Except.bind] at hv
  split at hv
  · cases hv
  · next r hr =>
    have := key _ _ _ _ _ hv hs _ hx
    simp [MeshView.nAll] at this; omega

/-- the evaluation succeeds on the mesh with ghosts of the examples, and the last ghost, 4, is lost -/
example : ∃ a h' s, evalExpr exMesh (.compl (.compl (.leaf 1))) [exSet, exSet2] = .ok (a, h') ∧ h'[a]? = some s ∧ 4 ∈ exSet2.ghost ∧ 4 ∉ s.ghost :=
  ⟨3, _, _, rfl, rfl, by decide, by decide⟩

end Jali.MSet
