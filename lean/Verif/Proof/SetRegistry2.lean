import Verif.Proof.SetRegistry
namespace Jali.Reg
open Jali.MSet

variable {P K : Type} [Field K] [LinearOrder K]

theorem Proper.rename {m : MeshView} {s : Obj} (h : Proper m s) (n : String) : Proper m { s with name := n } :=
  ⟨h.all_eq, h.nodup, h.owned_type, h.ghost_type, h.bound, h.map_len⟩

theorem merge_fresh {m : MeshView} {p0 p1 : Ptr} {rest : List Ptr} {o : Out}
    (h : merge m (p0 :: p1 :: rest) = .ok o) :
    ∃ s, o = .fresh s ∧ s.kind = p0.obj.kind ∧ s.mesh = p0.obj.mesh := by
  simp only [merge] at h
  split at h
  · split at h
    · cases h
    · rename_i s hc
      injection h with h
      exact ⟨s, h.symm, (construct_fields hc).1, (construct_fields hc).2.1⟩
  · cases h

theorem subtract_fresh {m : MeshView} {p0 : Ptr} {rest : List Ptr} {o : Out}
    (h : subtract m p0 rest = .ok o) : ∃ s, o = .fresh s ∧ s.kind = p0.obj.kind ∧ s.mesh = p0.obj.mesh := by
  simp only [subtract] at h
  split at h
  · split at h
    · cases h
    · split at h
      · cases h
      · rename_i s hc
        injection h with h
        exact ⟨s, h.symm, (construct_fields hc).1, (construct_fields hc).2.1⟩
  · cases h

theorem intersect_fresh {m : MeshView} {p0 : Ptr} {rest : List Ptr} {o : Out}
    (h : intersect m (p0 :: rest) = .ok o) : ∃ s, o = .fresh s ∧ s.kind = p0.obj.kind ∧ s.mesh = p0.obj.mesh := by
  simp only [intersect] at h
  split at h
  · split at h
    · cases h
    · rename_i s hc
      injection h with h
      exact ⟨s, h.symm, (construct_fields hc).1, (construct_fields hc).2.1⟩
  · cases h

theorem complement_fresh {m : MeshView} {p0 : Ptr} {rest : List Ptr} {o : Out}
    (h : complement m (p0 :: rest) = .ok o) : ∃ s, o = .fresh s ∧ s.kind = p0.obj.kind ∧ s.mesh = p0.obj.mesh := by
  simp only [complement] at h
  split at h
  · cases h
  · split at h
    · cases h
    · rename_i s hc
      injection h with h
      exact ⟨s, h.symm, (construct_fields hc).1, (construct_fields hc).2.1⟩

theorem liftSet_ok {x : Except MSet.Err Out} {o : Out} (h : liftSet x = .ok o) : x = .ok o := by
  cases x with
  | error e => cases h
  | ok o' => exact congrArg _ (by injection h)

theorem ptrs_ok {w : World} : ∀ {as : List Nat} {ps : List Ptr}, ptrs w as = .ok ps →
    ps.map (·.addr) = as ∧ ∀ p ∈ ps, w.heap[p.addr]? = some p.obj := by
  intro as
  induction as with
  | nil => intro ps h; injection h with h; subst h; simp
  | cons a as ih =>
    intro ps h
    simp only [ptrs] at h
    split at h
    · cases h
    · rename_i s hs
      split at h
      · cases h
      · rename_i ps' hps
        injection h with h
        subst h
        obtain ⟨h1, h2⟩ := ih hps
        refine ⟨by simp [h1], fun p hp => ?_⟩
        rcases List.mem_cons.1 hp with rfl | hp
        · exact hs
        · exact h2 p hp

/-- component `n` is represented by the set at address `a` -/
def Repr (w : World) (kind : EntityKind) (D : String → Nat → Prop) (n : String) (a : Nat) : Prop :=
  ∃ s, w.heap[a]? = some s ∧ s.name = n ∧ s.kind = kind ∧ ∀ e, e ∈ s.all ↔ D n e

theorem Repr.mono {w w' : World} {kind : EntityKind} {D : String → Nat → Prop} {n : String} {a : Nat}
    (h : Repr w kind D n a) (hg : Grows kind w w') : Repr w' kind D n a := by
  obtain ⟨s, h1, h2⟩ := h
  exact ⟨s, hg.get h1, h2⟩

/-- the pointer of a component -/
def PRepr (kind : EntityKind) (D : String → Nat → Prop) (n : String) (p : Ptr) : Prop :=
  p.obj.name = n ∧ p.obj.kind = kind ∧ ∀ e, e ∈ p.obj.all ↔ D n e

theorem ptrs_repr {w : World} {kind : EntityKind} {D : String → Nat → Prop} : ∀ {ns : List String}
    {as : List Nat} {ps : List Ptr}, List.Forall₂ (Repr w kind D) ns as → ptrs w as = .ok ps →
    List.Forall₂ (PRepr kind D) ns ps := by
  intro ns as ps h
  induction h generalizing ps with
  | nil => intro hp; injection hp with hp; subst hp; exact .nil
  | cons hr _ ih =>
    intro hp
    obtain ⟨s, hs, hn, hk, hD⟩ := hr
    simp only [ptrs, hs] at hp
    split at hp
    · cases hp
    · rename_i ps' hps
      injection hp with hp
      subst hp
      exact .cons ⟨hn, hk, hD⟩ (ih hps)

theorem forall2_mem_left {α β : Type} {R : α → β → Prop} {l : List α} {m : List β} (h : List.Forall₂ R l m) :
    ∀ a ∈ l, ∃ b ∈ m, R a b := by
  induction h with
  | nil => intro a ha; cases ha
  | cons hr _ ih =>
    intro x hx
    rcases List.mem_cons.1 hx with rfl | hx
    · exact ⟨_, by simp, hr⟩
    · obtain ⟨b, hb, hR⟩ := ih x hx
      exact ⟨b, by simp [hb], hR⟩

theorem forall2_mem_right {α β : Type} {R : α → β → Prop} {l : List α} {m : List β} (h : List.Forall₂ R l m) :
    ∀ b ∈ m, ∃ a ∈ l, R a b := by
  induction h with
  | nil => intro a ha; cases ha
  | cons hr _ ih =>
    intro x hx
    rcases List.mem_cons.1 hx with rfl | hx
    · exact ⟨_, by simp, hr⟩
    · obtain ⟨b, hb, hR⟩ := ih x hx
      exact ⟨b, by simp [hb], hR⟩

theorem Proper.mem_all {m : MeshView} {s : Obj} (h : Proper m s) (e : Nat) :
    e ∈ s.all ↔ e ∈ s.owned ∨ e ∈ s.ghost := by rw [h.all_eq, List.mem_append]

theorem mem_filter_dec {l : List Nat} {p : Nat → Prop} [DecidablePred p] {e : Nat} :
    e ∈ l.filter (fun x => decide (p x)) ↔ e ∈ l ∧ p e := by simp

theorem combine_ok {gm : List (Region P)} {w : World} {kind : EntityKind} {D : String → Nat → Prop}
    {r : Region P} {n : String} {as : List Nat} {a : Nat} {w' : World} {g : Geo P K}
    (hf : Fits g gm w kind) (hs : Sane gm w kind) (hm : Meaning g gm w kind D) (hi : InOrder gm w kind D)
    (hr : findRegion gm n = some r) (ht : r.type = .LOGICAL)
    (has : List.Forall₂ (Repr w kind D) r.comps as)
    (h : combine w r n kind as = .ok (a, w')) :
    ∃ s, a = w.heap.length ∧ w' = withSet w s r.temporary ∧ s.name = n ∧ s.kind = kind ∧ s.mesh = 0 ∧
      Proper (w.view kind) s ∧ ∀ e, e ∈ s.all ↔ D n e := by
  obtain ⟨hrm, -⟩ := findRegion_mem hr
  unfold combine at h
  split at h
  · cases h
  · rename_i ps hps
    have hpr := ptrs_repr has hps
    obtain ⟨hmap, hheap⟩ := ptrs_ok hps
    split at h
    · rename_i hkind
      have hk : ∀ p ∈ ps, p.obj.kind = kind := by simpa using hkind
      have hmesh : ∀ p ∈ ps, p.obj.mesh = 0 := fun p hp =>
        (hi.proper _ (List.mem_of_getElem? (hheap p hp))).1
      have hgood : GoodInputs (w.view kind) ps := by
        refine ⟨fun p hp => (hi.proper _ (List.mem_of_getElem? (hheap p hp))).2 (hk p hp), ?_⟩
        intro p hp q hq hpq
        have h1 := hheap p hp
        have h2 := hheap q hq
        rw [hpq, h2] at h1
        injection h1 with h1
        obtain ⟨pa, po⟩ := p
        obtain ⟨qa, qo⟩ := q
        simp_all
      have hone : OneKind ps := fun p hp q hq => ⟨(hmesh p hp).trans (hmesh q hq).symm, (hk p hp).trans (hk q hq).symm⟩
      split at h
      · cases h
      · rename_i o ho
        injection h with h
        injection h with h1 h2
        -- it suffices to know the fresh set
        have key : (∃ s, o = .fresh s ∧ s.kind = kind ∧ s.mesh = 0 ∧ Proper (w.view kind) s ∧
            ∀ e, e ∈ s.all ↔ D n e) → ∃ s, a = w.heap.length ∧ w' = withSet w s r.temporary ∧ s.name = n ∧
            s.kind = kind ∧ s.mesh = 0 ∧ Proper (w.view kind) s ∧ ∀ e, e ∈ s.all ↔ D n e := by
          rintro ⟨s, rfl, k1, k2, k3, k4⟩
          obtain ⟨f1, f2⟩ := finish_fresh w r.temporary s n
          exact ⟨{ s with name := n }, by rw [← h1, f1], by rw [← h2, f2], rfl, k1, k2, Proper.rename k3 n, k4⟩
        apply key
        cases hop : r.op with
        | NOBOOLEAN => rw [hop] at ho; cases ho
        | UNION =>
          rw [hop] at ho
          have ho := liftSet_ok ho
          match ps, hpr, hgood, hone, hk, hmesh, ho with
          | [], _, _, _, _, _, ho => cases ho
          | [p], hpr, _, _, _, _, _ =>
            exact absurd (by rw [hpr.length_eq]; rfl) (hs.union r hrm ht hop)
          | p0 :: p1 :: rest, hpr, hgood, hone, hk, hmesh, ho =>
            obtain ⟨s, hs1, hs2, hs3⟩ := merge_fresh ho
            obtain ⟨o', ho', hp', hO, hG, -⟩ := merge_is_union _ p0 (p1 :: rest) hgood hone
            have : o = o' := by rw [ho] at ho'; injection ho'
            subst this hs1
            simp only [Out.obj] at hp'
            refine ⟨s, rfl, hs2.trans (hk p0 (by simp)), hs3.trans (hmesh p0 (by simp)), hp', fun e => ?_⟩
            rw [Proper.mem_all hp', hm.union n r hr ht hop]
            have hO' := hO e
            have hG' := hG e
            simp only [entities] at hO' hG'
            simp only [Out.obj] at hO' hG' ⊢
            rw [hO', hG']
            constructor
            · rintro (⟨p, hp, hpe⟩ | ⟨p, hp, hpe⟩)
              all_goals
                obtain ⟨c, hc, -, -, hcD⟩ := forall2_mem_right hpr p hp
                refine ⟨c, hc, (hcD e).1 ((Proper.mem_all (hgood.proper p hp) e).2 ?_)⟩
              exacts [Or.inl hpe, Or.inr hpe]
            · rintro ⟨c, hc, hcD⟩
              obtain ⟨p, hp, -, -, hpD⟩ := forall2_mem_left hpr c hc
              rcases (Proper.mem_all (hgood.proper p hp) e).1 ((hpD e).2 hcD) with hh | hh
              exacts [Or.inl ⟨p, hp, hh⟩, Or.inr ⟨p, hp, hh⟩]
        | INTERSECT =>
          rw [hop] at ho
          have ho := liftSet_ok ho
          match ps, hpr, hgood, hone, hk, hmesh, ho with
          | [], _, _, _, _, _, ho => cases ho
          | p0 :: rest, hpr, hgood, hone, hk, hmesh, ho =>
            obtain ⟨s, hs1, hs2, hs3⟩ := intersect_fresh ho
            obtain ⟨o', ho', hp', hO, hG, -⟩ := intersect_is_intersection _ p0 rest hgood hone
            have : o = o' := by rw [ho] at ho'; injection ho'
            subst this hs1
            simp only [Out.obj] at hp'
            refine ⟨s, rfl, hs2.trans (hk p0 (by simp)), hs3.trans (hmesh p0 (by simp)), hp', fun e => ?_⟩
            rw [Proper.mem_all hp', hm.inter n r hr ht hop]
            simp only [Out.obj, entities] at hO hG ⊢
            have hOe : e ∈ s.owned ↔ e ∈ p0.obj.owned ∧ ∀ p ∈ p0 :: rest, e ∈ p.obj.owned := by
              rw [hO, List.mem_filter]; exact and_congr Iff.rfl ⟨of_decide_eq_true, fun hh => decide_eq_true hh⟩
            have hGe : e ∈ s.ghost ↔ e ∈ p0.obj.ghost ∧ ∀ p ∈ p0 :: rest, e ∈ p.obj.ghost := by
              rw [hG, List.mem_filter]; exact and_congr Iff.rfl ⟨of_decide_eq_true, fun hh => decide_eq_true hh⟩
            rw [hOe, hGe]
            have ht0 := (hgood.proper p0 (by simp)).typed
            constructor
            · intro hh c hc
              obtain ⟨p, hp, -, -, hpD⟩ := forall2_mem_left hpr c hc
              rw [← hpD e, Proper.mem_all (hgood.proper p hp)]
              rcases hh with hh | hh
              exacts [Or.inl (hh.2 p hp), Or.inr (hh.2 p hp)]
            · intro hh
              have hall : ∀ p ∈ p0 :: rest, e ∈ p.obj.owned ∨ e ∈ p.obj.ghost := by
                intro p hp
                obtain ⟨c, hc, -, -, hcD⟩ := forall2_mem_right hpr p hp
                exact (Proper.mem_all (hgood.proper p hp) e).1 ((hcD e).2 (hh c hc))
              rcases hall p0 (by simp) with h0 | h0
              · refine Or.inl ⟨h0, fun p hp => (hall p hp).resolve_right fun hg => ?_⟩
                have e1 := ht0.1 e h0
                have e2 := (hgood.proper p hp).typed.2 e hg
                rw [e2.2] at e1; cases e1.2
              · refine Or.inr ⟨h0, fun p hp => (hall p hp).resolve_left fun hg => ?_⟩
                have e1 := ht0.2 e h0
                have e2 := (hgood.proper p hp).typed.1 e hg
                rw [e2.2] at e1; cases e1.2
        | SUBTRACT =>
          rw [hop] at ho
          simp only [applyOp] at ho
          match ps, hpr, hgood, hone, hk, hmesh, hheap, ho with
          | [], _, _, _, _, _, _, ho => cases ho
          | p0 :: rest, hpr, hgood, hone, hk, hmesh, hheap, ho =>
            have ho := liftSet_ok ho
            obtain ⟨s, hs1, hs2, hs3⟩ := subtract_fresh ho
            cases hpr' : r.comps with
            | nil => rw [hpr'] at hpr; cases hpr
            | cons c cs =>
            rw [hpr'] at hpr
            obtain ⟨hc0, hcs⟩ := List.forall₂_cons.1 hpr
            have hdist : ∀ p ∈ rest, p.addr ≠ p0.addr := by
              intro p hp he
              have := hgood.addr p (by simp [hp]) p0 (by simp) he
              obtain ⟨c', hc', hn', -⟩ := forall2_mem_right hcs p hp
              rw [this, hc0.1] at hn'
              exact hs.diff r hrm c cs ht hop hpr' (hn' ▸ hc')
            have hoth : others p0 (p0 :: rest) = rest := by
              simp only [others, List.filter_cons, ne_eq, not_true, decide_false, Bool.false_eq_true, if_false]
              rw [List.filter_eq_self]
              intro p hp; simpa using hdist p hp
            rw [hoth] at ho
            cases rest with
            | nil => cases ho
            | cons q qs =>
            have hgq : GoodInputs (w.view kind) (q :: qs) :=
              ⟨fun p hp => hgood.proper p (List.mem_cons_of_mem _ hp),
               fun p hp p' hp' => hgood.addr p (List.mem_cons_of_mem _ hp) p' (List.mem_cons_of_mem _ hp')⟩
            obtain ⟨⟨o', ho', hp', hO, hG, -⟩, -⟩ := subtract_is_difference _ p0 q qs
              (hgood.proper p0 (by simp)) hgq hone
            have : o = o' := by rw [ho] at ho'; injection ho'
            subst this hs1
            simp only [Out.obj] at hp'
            refine ⟨s, rfl, hs2.trans (hk p0 (by simp)), hs3.trans (hmesh p0 (by simp)), hp', fun e => ?_⟩
            rw [Proper.mem_all hp', hm.diff n r c cs hr ht hop hpr', ← hc0.2.2 e,
              Proper.mem_all (hgood.proper p0 (by simp))]
            simp only [Out.obj, entities] at hO hG ⊢
            have hOe : e ∈ s.owned ↔ e ∈ p0.obj.owned ∧ ∀ p ∈ q :: qs, e ∉ p.obj.owned := by
              rw [hO, List.mem_filter]; exact and_congr Iff.rfl ⟨of_decide_eq_true, fun hh => decide_eq_true hh⟩
            have hGe : e ∈ s.ghost ↔ e ∈ p0.obj.ghost ∧ ∀ p ∈ q :: qs, e ∉ p.obj.ghost := by
              rw [hG, List.mem_filter]; exact and_congr Iff.rfl ⟨of_decide_eq_true, fun hh => decide_eq_true hh⟩
            rw [hOe, hGe]
            have ht0 := (hgood.proper p0 (by simp)).typed
            constructor
            · intro hh
              refine ⟨?_, fun c' hc' hD' => ?_⟩
              · rcases hh with hh | hh
                exacts [Or.inl hh.1, Or.inr hh.1]
              · obtain ⟨p, hp, -, -, hpD⟩ := forall2_mem_left hcs c' hc'
                have hpe := (Proper.mem_all (hgq.proper p hp) e).1 ((hpD e).2 hD')
                rcases hh with hh | hh
                · refine hh.2 p hp (hpe.resolve_right fun hg => ?_)
                  have e1 := ht0.1 e hh.1
                  have e2 := (hgq.proper p hp).typed.2 e hg
                  rw [e2.2] at e1; cases e1.2
                · refine hh.2 p hp (hpe.resolve_left fun hg => ?_)
                  have e1 := ht0.2 e hh.1
                  have e2 := (hgq.proper p hp).typed.1 e hg
                  rw [e2.2] at e1; cases e1.2
            · rintro ⟨hh, hnot⟩
              have hno : ∀ p ∈ q :: qs, e ∉ p.obj.all := by
                intro p hp hpe
                obtain ⟨c', hc', -, -, hcD⟩ := forall2_mem_right hcs p hp
                exact hnot c' hc' ((hcD e).1 hpe)
              rcases hh with hh | hh
              · exact Or.inl ⟨hh, fun p hp hpe => hno p hp ((Proper.mem_all (hgq.proper p hp) e).2 (Or.inl hpe))⟩
              · exact Or.inr ⟨hh, fun p hp hpe => hno p hp ((Proper.mem_all (hgq.proper p hp) e).2 (Or.inr hpe))⟩
        | COMPLEMENT =>
          rw [hop] at ho
          have ho := liftSet_ok ho
          match ps, hpr, hgood, hone, hk, hmesh, ho with
          | [], _, _, _, _, _, ho => cases ho
          | p0 :: rest, hpr, hgood, hone, hk, hmesh, ho =>
            obtain ⟨s, hs1, hs2, hs3⟩ := complement_fresh ho
            obtain ⟨o', ho', hp', hA, -⟩ := complement_partial _ hf.ownedFirst (hs.compl r hrm ht hop) p0 rest hgood hone
            have : o = o' := by rw [ho] at ho'; injection ho'
            subst this hs1
            simp only [Out.obj] at hp'
            refine ⟨s, rfl, hs2.trans (hk p0 (by simp)), hs3.trans (hmesh p0 (by simp)), hp', fun e => ?_⟩
            rw [hm.compl n r hr ht hop]
            simp only [Out.obj, entities] at hA ⊢
            have hAe : e ∈ s.all ↔ e < (w.view kind).nAll ∧ ∀ p ∈ p0 :: rest, e ∉ p.obj.all := by
              rw [hA, List.mem_filter, List.mem_range]
              exact and_congr Iff.rfl ⟨of_decide_eq_true, fun hh => decide_eq_true hh⟩
            rw [hAe]
            constructor
            · rintro ⟨hlt, hh⟩
              refine ⟨hlt, fun c hc hD' => ?_⟩
              obtain ⟨p, hp, -, -, hpD⟩ := forall2_mem_left hpr c hc
              exact hh p hp ((hpD e).2 hD')
            · rintro ⟨hlt, hh⟩
              refine ⟨hlt, fun p hp hpe => ?_⟩
              obtain ⟨c, hc, -, -, hcD⟩ := forall2_mem_right hpr p hp
              exact hh c hc ((hcD e).1 hpe)
    · cases h

/-- a `Meaning` and the other conditions only look at the counts and types of the mesh -/
theorem regionLists_view {g : Geo P K} {w w' : World} (h : w'.view = w.view) (kind : EntityKind) (r : Region P) :
    regionLists g w' kind r = regionLists g w kind r := by
  simp only [regionLists, h]

theorem Meaning.of_view {g : Geo P K} {gm : List (Region P)} {w w' : World} {kind : EntityKind}
    {D : String → Nat → Prop} (hm : Meaning g gm w kind D) (h : w'.view = w.view) : Meaning g gm w' kind D :=
  ⟨hm.union, hm.inter, hm.diff, by rw [h]; exact hm.compl,
   fun n r o k h1 h2 h3 => hm.prim n r o k h1 h2 (by rw [← regionLists_view h]; exact h3)⟩

theorem Fits.of_view {g : Geo P K} {gm : List (Region P)} {w w' : World} {kind : EntityKind}
    (hm : Fits g gm w kind) (h : w'.view = w.view) : Fits g gm w' kind :=
  ⟨by rw [h]; exact hm.ownedFirst, by rw [h]; exact hm.nodeCells, by simp only [regionLists_view h, h]; exact hm.labeled⟩

theorem Sane.of_view {gm : List (Region P)} {w w' : World} {kind : EntityKind}
    (hm : Sane gm w kind) (h : w'.view = w.view) : Sane gm w' kind :=
  ⟨hm.union, hm.diff, by rw [h]; exact hm.compl⟩

/-- what a successful build gives -/
def Built (gm : List (Region P)) (kind : EntityKind) (D : String → Nat → Prop) (n : String) (w : World) (a : Nat)
    (w' : World) : Prop :=
  Grows kind w w' ∧ InOrder gm w' kind D ∧ ∃ s, w'.heap[a]? = some s ∧ s.name = n ∧ s.kind = kind ∧
    Proper (w.view kind) s ∧ (∀ e, e ∈ s.all ↔ D n e) ∧ w.heap.length ≤ a ∧
    ∃ r, findRegion gm n = some r ∧ (a ∈ w'.reg ↔ r.type ≠ .LOGICAL ∨ r.temporary = false)

theorem built_of_withSet {gm : List (Region P)} {kind : EntityKind} {D : String → Nat → Prop} {n : String}
    {w w1 : World} {s : Obj} {t : Bool} {r : Region P} (hg : Grows kind w w1) (hi : InOrder gm w1 kind D)
    (hn : s.name = n) (hk : s.kind = kind) (hm : s.mesh = 0) (hp : Proper (w1.view kind) s)
    (hD : ∀ e, e ∈ s.all ↔ D n e) (hr : findRegion gm n = some r)
    (ht : t = false ↔ r.type ≠ .LOGICAL ∨ r.temporary = false) :
    Built gm kind D n w w1.heap.length (withSet w1 s t) := by
  refine ⟨hg.trans (hk ▸ withSet_grows _ _ _), inOrder_withSet hi s t hm hp (by rw [hn]; exact hD), s, withSet_get _ _ _,
    hn, hk, by rw [← hg.view]; exact hp, hD, hg.heap.length_le, r, hr, ?_⟩
  rw [← ht]
  cases t
  · simp only [iff_true]; exact withSet_reg _ _
  · simp only [Bool.true_eq_false, iff_false]
    intro h
    have : w1.heap.length ∈ w1.reg := h
    have := hi.reg _ this
    omega

/-- the component loop with the recursive call filled in -/
def components (g : Geo P K) (gm : List (Region P)) (depth : Nat) (w : World) (kind : EntityKind) (b : Bool)
    (ns : List String) : Except Err (List Nat × World) :=
  componentsWith (fun w n => build g gm depth w n kind b) gm kind ns w

theorem build_succ (g : Geo P K) (gm : List (Region P)) (depth : Nat) (w : World) (n : String) (kind : EntityKind)
    (b : Bool) : build g gm (depth + 1) w n kind b =
      match findRegion gm n with
      | none => .error .thrown
      | some r =>
        match regionLists g w kind r with
        | .error e => .error e
        | .ok (some (owned, ghost)) =>
          match makeMeshset w n kind owned ghost b with
          | .error e => .error e
          | .ok (a, w') => .ok (some a, w')
        | .ok none =>
          if r.type = .LOGICAL then
            match components g gm depth w kind b r.comps with
            | .error e => .error e
            | .ok (as, w1) =>
              match combine w1 r n kind as with
              | .error e => .error e
              | .ok (a, w2) => .ok (some a, w2)
          else .ok (none, w) := by
  rw [build]
  rfl

theorem components_cons (g : Geo P K) (gm : List (Region P)) (depth : Nat) (w : World) (kind : EntityKind) (b : Bool)
    (n : String) (ns : List String) : components g gm depth w kind b (n :: ns) =
    match findRegion gm n with
    | none => .error .thrown
    | some _ =>
      match findMeshset w n kind with
      | some a =>
        match components g gm depth w kind b ns with
        | .error e => .error e
        | .ok (as, w2) => .ok (a :: as, w2)
      | none =>
        match build g gm depth w n kind b with
        | .error e => .error e
        | .ok (none, _) => .error .assertFailed
        | .ok (some a, w1) =>
          match components g gm depth w1 kind b ns with
          | .error e => .error e
          | .ok (as, w2) => .ok (a :: as, w2) := rfl

theorem build_ok {g : Geo P K} {gm : List (Region P)} {kind : EntityKind} {D : String → Nat → Prop} {b : Bool} :
    ∀ (depth : Nat) (w : World) (n : String) (a : Nat) (w' : World), Fits g gm w kind → Sane gm w kind →
      Meaning g gm w kind D → InOrder gm w kind D → build g gm depth w n kind b = .ok (some a, w') →
      Built gm kind D n w a w' := by
  intro depth
  induction depth with
  | zero =>
    intro w n a w' hf hs hm hi h
    rw [build] at h
    split at h
    · cases h
    · rename_i r hr
      split at h
      · cases h
      · rename_i o gh hl
        obtain ⟨g1, g2, g3, g4⟩ := regionLists_good hf (findRegion_mem hr).1 hl
        obtain ⟨s, hmk, m1, m2, m3, m4, m5, m6, -⟩ := makeMeshset_ok (n := n) (b := b) g1 g2 g3 g4
        rw [hmk] at h
        injection h with h; injection h with h1 h2; injection h1 with h1
        subst h1 h2
        have hnl : r.type ≠ .LOGICAL := by
          intro ht
          cases kind <;> simp [regionLists, cellLists, faceLists, nodeLists, ht] at hl
        refine built_of_withSet (Grows.refl kind w) hi m1 m2 m3 m6 (fun e => ?_) hr (by simp [hnl])
        rw [hm.prim n r o gh hr hnl hl, Proper.mem_all m6, m4, m5]
      · split at h
        · cases h
        · injection h with h; injection h with h1 h2; cases h1
  | succ depth ih =>
    intro w n a w' hf hs hm hi h
    rw [build_succ] at h
    split at h
    · cases h
    · rename_i r hr
      split at h
      · cases h
      · rename_i o gh hl
        obtain ⟨g1, g2, g3, g4⟩ := regionLists_good hf (findRegion_mem hr).1 hl
        obtain ⟨s, hmk, m1, m2, m3, m4, m5, m6, -⟩ := makeMeshset_ok (n := n) (b := b) g1 g2 g3 g4
        rw [hmk] at h
        injection h with h; injection h with h1 h2; injection h1 with h1
        subst h1 h2
        have hnl : r.type ≠ .LOGICAL := by
          intro ht
          cases kind <;> simp [regionLists, cellLists, faceLists, nodeLists, ht] at hl
        refine built_of_withSet (Grows.refl kind w) hi m1 m2 m3 m6 (fun e => ?_) hr (by simp [hnl])
        rw [hm.prim n r o gh hr hnl hl, Proper.mem_all m6, m4, m5]
      · split at h
        · rename_i ht
          split at h
          · cases h
          · rename_i as w1 hcomp
            split at h
            · cases h
            · rename_i a2 w2 hcb
              injection h with h; injection h with h1 h2; injection h1 with h1
              subst h1 h2
              -- the components
              have hcomps : ∀ (ns : List String) (w : World) (as : List Nat) (w1 : World), Fits g gm w kind →
                  Sane gm w kind → Meaning g gm w kind D → InOrder gm w kind D →
                  components g gm depth w kind b ns = .ok (as, w1) →
                  Grows kind w w1 ∧ InOrder gm w1 kind D ∧ List.Forall₂ (Repr w1 kind D) ns as := by
                intro ns
                induction ns with
                | nil =>
                  intro w as w1 _ _ _ hi h
                  injection h with h; injection h with h1 h2
                  subst h1 h2
                  exact ⟨Grows.refl kind w, hi, .nil⟩
                | cons c cs ihc =>
                  intro w as w1 hf hs hm hi h
                  rw [components_cons] at h
                  split at h
                  · cases h
                  · rename_i rc hrc
                    split at h
                    · rename_i a0 hfind
                      split at h
                      · cases h
                      · rename_i as' w2 hrest
                        injection h with h; injection h with h1 h2
                        subst h1 h2
                        obtain ⟨k1, k2, k3⟩ := ihc w as' w2 hf hs hm hi hrest
                        obtain ⟨hreg, s0, hs0, hn0, hk0⟩ := findMeshset_some hfind
                        refine ⟨k1, k2, .cons ⟨s0, k1.get hs0, hn0, hk0, ?_⟩ k3⟩
                        have := hi.holds a0 hreg s0 hs0 hk0 ⟨rc, by rw [hn0]; exact hrc⟩
                        rw [hn0] at this; exact this
                    · split at h
                      · cases h
                      · cases h
                      · rename_i a0 w2 hb
                        split at h
                        · cases h
                        · rename_i as' w3 hrest
                          injection h with h; injection h with h1 h2
                          subst h1 h2
                          obtain ⟨j1, j2, s0, j3, j4, j5, -, j6, -⟩ := ih w c a0 w2 hf hs hm hi hb
                          obtain ⟨k1, k2, k3⟩ := ihc w2 as' w3 (hf.of_view j1.view) (hs.of_view j1.view)
                            (hm.of_view j1.view) j2 hrest
                          exact ⟨j1.trans k1, k2, .cons ⟨s0, k1.get j3, j4, j5, j6⟩ k3⟩
              obtain ⟨k1, k2, k3⟩ := hcomps r.comps w as w1 hf hs hm hi hcomp
              obtain ⟨s, c1, c2, c3, c4, c5, c6, c7⟩ := combine_ok (hf.of_view k1.view) (hs.of_view k1.view)
                (hm.of_view k1.view) k2 hr ht k3 hcb
              rw [c1, c2]
              exact built_of_withSet k1 k2 c3 c4 c5 c6 c7 hr (by simp [ht])
        · injection h with h; injection h with h1 h2; cases h1

end Jali.Reg
