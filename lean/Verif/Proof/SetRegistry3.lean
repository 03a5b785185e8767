import Verif.Proof.SetRegistry2
import Verif.Model.SetInit
namespace Jali.Reg
open Jali.MSet

variable {P K : Type} [Field K] [LinearOrder K]

theorem Ready.of_view {g : Geo P K} {gm : List (Region P)} {w w' : World} {kind : EntityKind} (h : w'.view = w.view)
    {d : Nat} {n : String} (hr : Ready g gm w kind d n) : Ready g gm w' kind d n := by
  induction hr with
  | prim d n r l h1 h2 h3 => exact .prim d n r l h1 h2 (by rw [regionLists_view h]; exact h3)
  | logical d n r h1 h2 h3 h4 h5 _ ih => exact .logical d n r h1 h2 h3 h4 h5 ih

theorem ptrs_total {w : World} {kind : EntityKind} {D : String → Nat → Prop} : ∀ {ns : List String}
    {as : List Nat}, List.Forall₂ (Repr w kind D) ns as → ∃ ps, ptrs w as = .ok ps := by
  intro ns as h
  induction h with
  | nil => exact ⟨[], rfl⟩
  | cons hr _ ih =>
    obtain ⟨s, hs, -⟩ := hr
    obtain ⟨ps, hps⟩ := ih
    exact ⟨_, by simp only [ptrs, hs, hps]; rfl⟩

theorem combine_total {gm : List (Region P)} {w : World} {kind : EntityKind} {D : String → Nat → Prop}
    {r : Region P} {n : String} {as : List Nat} {g : Geo P K}
    (hf : Fits g gm w kind) (hs : Sane gm w kind) (hi : InOrder gm w kind D)
    (hr : findRegion gm n = some r) (ht : r.type = .LOGICAL) (hop : r.op ≠ .NOBOOLEAN) (hne : r.comps ≠ [])
    (hsub : r.op = .SUBTRACT → 2 ≤ r.comps.length)
    (has : List.Forall₂ (Repr w kind D) r.comps as) : ∃ a w', combine w r n kind as = .ok (a, w') := by
  obtain ⟨hrm, -⟩ := findRegion_mem hr
  obtain ⟨ps, hps⟩ := ptrs_total has
  have hpr := ptrs_repr has hps
  obtain ⟨hmap, hheap⟩ := ptrs_ok hps
  have hk : ∀ p ∈ ps, p.obj.kind = kind := fun p hp => by
    obtain ⟨c, _, _, h, _⟩ := forall2_mem_right hpr p hp; exact h
  have hmesh : ∀ p ∈ ps, p.obj.mesh = 0 := fun p hp =>
    (hi.proper _ (List.mem_of_getElem? (hheap p hp))).1
  have hgood : GoodInputs (w.view kind) ps := by
    refine ⟨fun p hp => (hi.proper _ (List.mem_of_getElem? (hheap p hp))).2 (hk p hp), ?_⟩
    intro p hp q hq hpq
    have h1 := hheap p hp
    have h2 := hheap q hq
    rw [hpq, h2] at h1
    injection h1 with h1
    obtain ⟨pa, po⟩ := p
    obtain ⟨qa, qo⟩ := q
    simp_all
  have hone : OneKind ps := fun p hp q hq => ⟨(hmesh p hp).trans (hmesh q hq).symm, (hk p hp).trans (hk q hq).symm⟩
  have hall : (ps.all fun p => decide (p.obj.kind = kind)) = true := by simpa using hk
  have key : (∃ o, applyOp (w.view kind) r.op ps = .ok o) → ∃ a w', combine w r n kind as = .ok (a, w') := by
    rintro ⟨o, ho⟩
    simp only [combine, hps]
    rw [if_pos hall, ho]
    exact ⟨_, _, rfl⟩
  apply key
  match ps, hpr, hgood, hone with
  | [], hpr, _, _ =>
    exact absurd (List.length_eq_zero_iff.1 hpr.length_eq) hne
  | p0 :: rest, hpr, hgood, hone =>
    cases hop' : r.op with
    | NOBOOLEAN => exact absurd hop' hop
    | UNION =>
      obtain ⟨o, ho, -⟩ := merge_is_union _ p0 rest hgood hone
      exact ⟨o, by simp only [applyOp, ho, liftSet]⟩
    | INTERSECT =>
      obtain ⟨o, ho, -⟩ := intersect_is_intersection _ p0 rest hgood hone
      exact ⟨o, by simp only [applyOp, ho, liftSet]⟩
    | COMPLEMENT =>
      obtain ⟨o, ho, -⟩ := complement_partial _ hf.ownedFirst (hs.compl r hrm ht hop') p0 rest hgood hone
      exact ⟨o, by simp only [applyOp, ho, liftSet]⟩
    | SUBTRACT =>
      cases hpr' : r.comps with
      | nil => exact absurd hpr' hne
      | cons c cs =>
      rw [hpr'] at hpr
      obtain ⟨hc0, hcs⟩ := List.forall₂_cons.1 hpr
      have hdist : ∀ p ∈ rest, p.addr ≠ p0.addr := by
        intro p hp he
        have := hgood.addr p (by simp [hp]) p0 (by simp) he
        obtain ⟨c', hc', hn', -⟩ := forall2_mem_right hcs p hp
        rw [this, hc0.1] at hn'
        exact hs.diff r hrm c cs ht hop' hpr' (hn' ▸ hc')
      have hoth : others p0 (p0 :: rest) = rest := by
        simp only [others, List.filter_cons, ne_eq, not_true, decide_false, Bool.false_eq_true, if_false]
        rw [List.filter_eq_self]
        intro p hp; simpa using hdist p hp
      cases rest with
      | nil =>
        have h2 := hsub hop'
        rw [hpr'] at h2
        cases hcs
        simp at h2
      | cons q qs =>
      have hgq : GoodInputs (w.view kind) (q :: qs) :=
        ⟨fun p hp => hgood.proper p (List.mem_cons_of_mem _ hp),
         fun p hp p' hp' => hgood.addr p (List.mem_cons_of_mem _ hp) p' (List.mem_cons_of_mem _ hp')⟩
      obtain ⟨⟨o, ho, -⟩, -⟩ := subtract_is_difference _ p0 q qs (hgood.proper p0 (by simp)) hgq hone
      exact ⟨o, by simp only [applyOp, hoth, ho, liftSet]⟩

theorem components_ok {g : Geo P K} {gm : List (Region P)} {kind : EntityKind} {D : String → Nat → Prop} {b : Bool}
    {depth : Nat} : ∀ (ns : List String) (w : World) (as : List Nat) (w1 : World), Fits g gm w kind →
      Sane gm w kind → Meaning g gm w kind D → InOrder gm w kind D →
      components g gm depth w kind b ns = .ok (as, w1) →
      Grows kind w w1 ∧ InOrder gm w1 kind D ∧ List.Forall₂ (Repr w1 kind D) ns as := by
  intro ns
  induction ns with
  | nil =>
    intro w as w1 _ _ _ hi h
    injection h with h; injection h with h1 h2
    subst h1 h2
    exact ⟨Grows.refl kind w, hi, .nil⟩
  | cons c cs ihc =>
    intro w as w1 hf hs hm hi h
    rw [components_cons] at h
    split at h
    · cases h
    · rename_i rc hrc
      split at h
      · rename_i a0 hfind
        split at h
        · cases h
        · rename_i as' w2 hrest
          injection h with h; injection h with h1 h2
          subst h1 h2
          obtain ⟨k1, k2, k3⟩ := ihc w as' w2 hf hs hm hi hrest
          obtain ⟨hreg, s0, hs0, hn0, hk0⟩ := findMeshset_some hfind
          refine ⟨k1, k2, .cons ⟨s0, k1.get hs0, hn0, hk0, ?_⟩ k3⟩
          have := hi.holds a0 hreg s0 hs0 hk0 ⟨rc, by rw [hn0]; exact hrc⟩
          rw [hn0] at this; exact this
      · split at h
        · cases h
        · cases h
        · rename_i a0 w2 hb
          split at h
          · cases h
          · rename_i as' w3 hrest
            injection h with h; injection h with h1 h2
            subst h1 h2
            obtain ⟨j1, j2, s0, j3, j4, j5, -, j6, -⟩ := build_ok depth w c a0 w2 hf hs hm hi hb
            obtain ⟨k1, k2, k3⟩ := ihc w2 as' w3 (hf.of_view j1.view) (hs.of_view j1.view)
              (hm.of_view j1.view) j2 hrest
            exact ⟨j1.trans k1, k2, .cons ⟨s0, k1.get j3, j4, j5, j6⟩ k3⟩

theorem build_total {g : Geo P K} {gm : List (Region P)} {kind : EntityKind} {D : String → Nat → Prop} {b : Bool}
    {w0 : World} {d : Nat} {n : String} (hrd : Ready g gm w0 kind d n) :
    ∀ (w : World), w.view = w0.view → Fits g gm w kind → Sane gm w kind →
      Meaning g gm w kind D → InOrder gm w kind D →
      ∃ a w', build g gm d w n kind b = .ok (some a, w') := by
  induction hrd with
  | prim d n r l h1 h2 h3 =>
    intro w hv hf hs hm hi
    rw [← regionLists_view hv] at h3
    rw [build]
    simp only [h1, h3]
    obtain ⟨o, gh⟩ := l
    obtain ⟨g1, g2, g3, g4⟩ := regionLists_good hf (findRegion_mem h1).1 h3
    obtain ⟨s, hmk, -⟩ := makeMeshset_ok (n := n) (b := b) g1 g2 g3 g4
    simp only [hmk]
    exact ⟨_, _, rfl⟩
  | logical d n r h1 h2 h3 h4 h5 _ ih =>
    intro w hv hf hs hm hi
    have hnone : regionLists g w kind r = .ok none := by
      cases kind <;> simp [regionLists, cellLists, faceLists, nodeLists, h2]
    have hcomps : ∀ (ns : List String), (∀ c ∈ ns, c ∈ r.comps) → ∀ w : World, w.view = w0.view →
        Fits g gm w kind → Sane gm w kind → Meaning g gm w kind D → InOrder gm w kind D →
        ∃ as w1, components g gm d w kind b ns = .ok (as, w1) := by
      intro ns
      induction ns with
      | nil => intro _ w _ _ _ _ _; exact ⟨[], w, rfl⟩
      | cons c cs ihc =>
        intro hsub w hv hf hs hm hi
        rw [components_cons]
        obtain ⟨rc, hrc⟩ : ∃ rc, findRegion gm c = some rc := by
          obtain ⟨_, _, hb⟩ := ih c (hsub c (by simp)) w hv hf hs hm hi
          rw [build] at hb
          split at hb
          · cases hb
          · rename_i rc hrc; exact ⟨rc, hrc⟩
        simp only [hrc]
        cases hfm : findMeshset w c kind with
        | some a0 =>
          obtain ⟨as, w1, hc⟩ := ihc (fun x hx => hsub x (by simp [hx])) w hv hf hs hm hi
          exact ⟨a0 :: as, w1, by simp only [hc]⟩
        | none =>
          obtain ⟨a0, w2, hb⟩ := ih c (hsub c (by simp)) w hv hf hs hm hi
          obtain ⟨j1, j2, -⟩ := build_ok d w c a0 w2 hf hs hm hi hb
          obtain ⟨as, w1, hc⟩ := ihc (fun x hx => hsub x (by simp [hx])) w2 (j1.view.trans hv)
            (hf.of_view j1.view) (hs.of_view j1.view) (hm.of_view j1.view) j2
          exact ⟨a0 :: as, w1, by simp only [hb, hc]⟩
    obtain ⟨as, w1, hc⟩ := hcomps r.comps (fun _ h => h) w hv hf hs hm hi
    obtain ⟨k1, k2, k3⟩ := components_ok r.comps w as w1 hf hs hm hi hc
    obtain ⟨a, w2, hcb⟩ := combine_total (hf.of_view k1.view) (hs.of_view k1.view) k2 h1 h2 h3 h4 h5 k3
    exact ⟨a, w2, by rw [build_succ]; simp only [h1, hnone, h2, hc, hcb, if_true]⟩

/-- building sets of one kind leaves the registry in order for the others -/
theorem InOrder.other {gm : List (Region P)} {w w' : World} {k k' : EntityKind} {D D' : String → Nat → Prop}
    (hi : InOrder gm w k' D') (hi' : InOrder gm w' k D) (hg : Grows k w w') (hne : k' ≠ k) : InOrder gm w' k' D' := by
  have old : ∀ (a : Nat) (s : Obj), w'.heap[a]? = some s → s.kind = k' → w.heap[a]? = some s := by
    intro a s hs hk
    by_cases hlt : a < w.heap.length
    · obtain ⟨t, ht⟩ := hg.heap
      rw [← ht, List.getElem?_append_left hlt] at hs
      exact hs
    · exact absurd (hk.symm.trans (hg.newKind a s hs (by omega))) hne
  refine ⟨hi'.reg, fun s hs => ⟨(hi'.proper s hs).1, fun hk => ?_⟩, ?_⟩
  · obtain ⟨a, ha⟩ := List.mem_iff_getElem?.1 hs
    rw [hg.view]
    exact (hi.proper s (List.mem_of_getElem? (old a s ha hk))).2 hk
  · intro a ha s hs hk hr
    have := old a s hs hk
    rcases hg.newReg a ha with h | h
    · exact hi.holds a h s this hk hr
    · rw [List.getElem?_eq_none h] at this; cases this

end Jali.Reg
