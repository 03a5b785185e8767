import Verif.Proof.StateSites3
/-! Several state managers on one mesh: histories of all managers. -/
namespace Jali.St
open Jali.MSet
variable {V : Type}

theorem remMaterial_world {s s' : State V} {m : Nat} (h : remMaterial s m = .ok s') :
    s'.w = s.w ∧ ∀ a ∈ s'.mats, a ∈ s.mats := by
  unfold remMaterial at h
  split at h
  · cases h; exact ⟨rfl, fun _ x => x⟩
  · split at h
    · cases h
    · split at h
      · cases h
      · cases h; exact ⟨rfl, fun a x => List.mem_of_mem_eraseIdx x⟩

theorem op_world {zero : V} {count : Count} {s s' : State V} {o : Op V} {p : Option Nat}
    (h : o.run zero count s = .ok (p, s')) :
    (s'.w = s.w ∧ ∀ a ∈ s'.mats, a ∈ s.mats) ∨
    (∃ n cs a w1, o = .addMaterial n cs ∧ materialSetFor s.w n = .ok (a, w1) ∧ growSet w1 a cs = .ok s'.w ∧
      s'.mats = s.mats ++ [a]) ∨
    (∃ (m : Nat) (cs : List Nat) (a : Nat), s.mats[m]? = some a ∧ growSet s.w a cs = .ok s'.w ∧ s'.mats = s.mats) := by
  cases o with
  | add r =>
    obtain ⟨i, -, h'⟩ := withPos_ok h
    left
    unfold St.add at h'
    repeat' split at h'
    all_goals first
      | (cases h'; done)
      | (cases h'; exact ⟨rfl, fun _ x => x⟩)
  | addCopy v =>
    obtain ⟨i, -, h'⟩ := withPos_ok h
    left
    unfold St.addCopy St.copyForAdd St.copyVec at h'
    split at h'
    · cases h'; exact ⟨rfl, fun _ x => x⟩
    · split at h'
      · cases h'
      · rename_i v1 s1 h1
        have hs1 : s1.w = s.w ∧ s1.mats = s.mats := by
          repeat' split at h1
          all_goals first
            | (cases h1; done)
            | (cases h1; exact ⟨rfl, rfl⟩)
        split at h'
        · cases h'
        · cases h'
          exact ⟨hs1.1, fun a x => by rw [← hs1.2]; exact x⟩
  | addMaterial n cs =>
    obtain ⟨-, h'⟩ := noPos_ok h
    unfold St.addMaterial at h'
    split at h'
    · cases h'; exact Or.inl ⟨rfl, fun _ x => x⟩
    · right; left
      split at h'
      · cases h'
      · rename_i a w1 h1
        split at h'
        · cases h'
        · rename_i w2 h2
          split at h'
          · cases h'
          · split at h'
            · cases h'
            · cases h'
              exact ⟨n, cs, a, w1, rfl, h1, h2, rfl⟩
  | addCells m cs =>
    obtain ⟨-, h'⟩ := noPos_ok h
    right; right
    unfold St.addCells at h'
    split at h'
    · cases h'
    · rename_i a ha
      split at h'
      · cases h'
      · rename_i w1 h1
        split at h'
        · cases h'
        · split at h'
          · cases h'
          · cases h'
            exact ⟨m, cs, a, ha, h1, rfl⟩
  | remMaterial m =>
    obtain ⟨-, h'⟩ := noPos_ok h
    exact Or.inl (remMaterial_world h')
  | remMaterialByName n =>
    obtain ⟨-, h'⟩ := noPos_ok h
    left
    unfold St.remMaterialByName at h'
    split at h'
    · exact remMaterial_world h'
    · cases h'; exact ⟨rfl, fun _ x => x⟩
  | copy v =>
    obtain ⟨-, v', h'⟩ := copied_ok h
    left
    unfold St.copyVec at h'
    split at h'
    · cases h'
    · cases h'; exact ⟨rfl, fun _ x => x⟩
  | uniWrite v i x =>
    obtain ⟨-, h'⟩ := noPos_ok h
    left
    unfold St.uniWrite at h'
    repeat' split at h'
    all_goals first
      | (cases h'; done)
      | (cases h'; exact ⟨rfl, fun _ x => x⟩)
  | uniResize v n x =>
    obtain ⟨-, h'⟩ := noPos_ok h
    left
    unfold St.uniResize at h'
    repeat' split at h'
    all_goals first
      | (cases h'; done)
      | (cases h'; exact ⟨rfl, fun _ x => x⟩)
  | multiWrite v i j l x =>
    obtain ⟨-, h'⟩ := noPos_ok h
    left
    unfold St.multiWrite at h'
    repeat' split at h'
    all_goals first
      | (cases h'; done)
      | (cases h'; exact ⟨rfl, fun _ x => x⟩)
  | multiAssign v l d =>
    obtain ⟨-, h'⟩ := noPos_ok h
    left
    unfold St.multiAssign at h'
    repeat' split at h'
    all_goals first
      | (cases h'; done)
      | (cases h'; exact ⟨rfl, fun _ x => x⟩)
  | multiFill v x =>
    obtain ⟨-, h'⟩ := noPos_ok h
    left
    unfold St.multiFill at h'
    repeat' split at h'
    all_goals first
      | (cases h'; done)
      | (cases h'; exact ⟨rfl, fun _ x => x⟩)

theorem op_keeps {zero : V} {count : Count} {s s' : State V} {o : Op V} {p : Option Nat}
    (h : o.run zero count s = .ok (p, s')) : KeepsNames s.w s'.w := by
  rcases op_world h with ⟨e, -⟩ | ⟨n, cs, a, w1, -, h1, h2, -⟩ | ⟨m, cs, a, -, h2, -⟩
  · rw [e]; exact .refl _
  · exact (materialSetFor_keeps h1).1.trans (growSet_keeps h2)
  · exact growSet_keeps h2

theorem op_quiet {N : String → Prop} {zero : V} {count : Count} {s s' : State V} {o : Op V} {p : Option Nat}
    (hm : NamesIn N s.w s.mats) (hn : ∀ n cs, o = .addMaterial n cs → N n) (h : o.run zero count s = .ok (p, s')) :
    Quiet N s.w s'.w ∧ NamesIn N s'.w s'.mats := by
  rcases op_world h with ⟨e, hsub⟩ | ⟨n, cs, a, w1, ho, h1, h2, e⟩ | ⟨m, cs, a, ha, h2, e⟩
  · rw [e]; exact ⟨.refl _ _, fun a x => hm a (hsub a x)⟩
  · have hN := hn n cs ho
    obtain ⟨hk, o1, ho1, hon⟩ := materialSetFor_keeps h1
    refine ⟨(materialSetFor_quiet h1 hN).trans (growSet_quiet h2 ⟨o1, ho1, by rw [hon]; exact hN⟩), ?_⟩
    rw [e]
    intro b hb
    rw [List.mem_append, List.mem_singleton] at hb
    rcases hb with hb | rfl
    · exact hm.keeps (hk.trans (growSet_keeps h2)) b hb
    · obtain ⟨o2, ho2, e2⟩ := growSet_keeps h2 b o1 ho1
      exact ⟨o2, ho2, by rw [e2, hon]; exact hN⟩
  · refine ⟨growSet_quiet h2 (hm a (List.mem_of_getElem? ha)), ?_⟩
    rw [e]; exact hm.keeps (growSet_keeps h2)

theorem StRel.quiet {N : String → Prop} {s s0 : State V} {w' : Reg.World} (h : StRel N s s0)
    (hq : Quiet N s.w w') : StRel N { s with w := w' } s0 :=
  ⟨h.eq, h.w.quiet hq, h.mats.mono (fun m b hm hb => by rw [hq.find h.w.ok m hm]; exact hb) (fun _ _ _ hb => hb)⟩

/-- while a history runs: the other managers' materials have names in `N`, manager `i` is not yet made, or related to
its solitary run, or gone -/
structure SiteInv (N : String → Prop) (i mesh : Nat) (w0 : Reg.World) (t : Site V) (s0 : State V) : Prop where
  same : t.mesh = mesh
  others : ∀ (j : Nat) (s : State V), j ≠ i → t.managers[j]? = some (some s) → NamesIn N t.w s.mats
  mine : (t.managers.length ≤ i ∧ s0 = create mesh w0 ∧ WorldRel N t.w w0) ∨
    (∃ s, t.managers[i]? = some (some s) ∧ StRel N { s with w := t.w } s0) ∨ t.managers[i]? = some none

theorem manager_some {t : Site V} {i : Nat} {s : State V} (h : t.manager i = some s) :
    ∃ s1, t.managers[i]? = some (some s1) ∧ s = { s1 with w := t.w } := by
  unfold Site.manager at h
  split at h
  · rename_i s1 h1
    cases h; exact ⟨s1, h1, rfl⟩
  · cases h

/-- the names an act gives to materials of manager `j` -/
def Act.names (j : Nat) : Act V → List String
  | .op k (.addMaterial n _) => if k = j then [n] else []
  | _ => []

theorem materialNames_cons (j : Nat) (a : Act V) (as : List (Act V)) :
    materialNames j (a :: as) = a.names j ++ materialNames j as := by
  unfold materialNames opsOf
  cases a with
  | create => rfl
  | destroy i => rfl
  | op k o =>
    by_cases hk : k = j
    · simp only [List.filterMap_cons, hk, if_true]
      cases o <;> simp [Act.names, hk]
    · simp only [List.filterMap_cons, hk, if_false]
      cases o <;> simp [Act.names, hk]

theorem opsOf_cons (j : Nat) (a : Act V) (as : List (Act V)) :
    opsOf j (a :: as) = (match a with | .op k o => if k = j then [o] else [] | _ => []) ++ opsOf j as := by
  unfold opsOf
  cases a with
  | create => rfl
  | destroy i => rfl
  | op k o =>
    by_cases hk : k = j
    · simp [hk]
    · simp [hk]

theorem act_inv {N : String → Prop} {zero : V} {count : Count} {i mesh : Nat} {w0 : Reg.World} {t t' : Site V}
    {s0 : State V} {a : Act V} (hi : SiteInv N i mesh w0 t s0) (hmine : ∀ n ∈ a.names i, ¬ N n)
    (hothers : ∀ j, j ≠ i → ∀ n ∈ a.names j, N n) (h : a.run zero count t = .ok t') :
    ∃ ps s0', run zero count s0 (opsOf i [a]) = .ok (ps, s0') ∧ SiteInv N i mesh w0 t' s0' := by
  cases a with
  | create =>
    simp only [Act.run, Except.ok.injEq] at h
    subst h
    refine ⟨[], s0, rfl, hi.same, ?_, ?_⟩
    · intro j s hj hs
      dsimp only at hs ⊢
      rcases getElem?_append_one hs with h1 | ⟨-, h1⟩
      · exact hi.others j s hj h1
      · cases h1; intro b hb; cases hb
    · dsimp only
      rcases hi.mine with ⟨h1, h2, h3⟩ | ⟨s, h1, h2⟩ | h1
      · by_cases hl : t.managers.length = i
        · right; left
          refine ⟨create t.mesh t.w, ?_, ?_⟩
          · rw [← hl, List.getElem?_concat_length]
          · rw [h2, hi.same]; exact ⟨rfl, h3, List.Forall₂.nil⟩
        · left
          refine ⟨?_, h2, h3⟩
          rw [List.length_append, List.length_singleton]; omega
      · right; left
        exact ⟨s, by rw [List.getElem?_append_left (List.getElem?_eq_some_iff.1 h1).1, h1], h2⟩
      · right; right
        rw [List.getElem?_append_left (List.getElem?_eq_some_iff.1 h1).1, h1]
  | destroy k =>
    simp only [Act.run] at h
    split at h
    · cases h
    · rename_i s1 hs1
      cases h
      obtain ⟨s2, hk, -⟩ := manager_some hs1
      have hkl := (List.getElem?_eq_some_iff.1 hk).1
      refine ⟨[], s0, rfl, hi.same, ?_, ?_⟩
      · intro j s hj hs
        dsimp only at hs ⊢
        by_cases hkj : k = j
        · subst hkj; rw [List.getElem?_set_self hkl] at hs; cases hs
        · rw [List.getElem?_set_ne hkj] at hs; exact hi.others j s hj hs
      · dsimp only
        by_cases hki : k = i
        · subst hki; right; right; exact List.getElem?_set_self hkl
        · rw [List.length_set, List.getElem?_set_ne hki]; exact hi.mine
  | op k o =>
    simp only [Act.run] at h
    split at h
    · cases h
    · rename_i s1 hs1
      obtain ⟨s2, hk, rfl⟩ := manager_some hs1
      have hkl := (List.getElem?_eq_some_iff.1 hk).1
      split at h
      · cases h
      · rename_i p s' hrun
        cases h
        have hkeeps := op_keeps hrun
        by_cases hki : k = i
        · subst hki
          have hrel : StRel N { s2 with w := t.w } s0 := by
            rcases hi.mine with ⟨h1, -⟩ | ⟨s, h1, h2⟩ | h1
            · omega
            · rw [hk] at h1; cases h1; exact h2
            · rw [hk] at h1; cases h1
          obtain ⟨s0', hrun0, hrel'⟩ := op_rel hrel (fun n cs ho => hmine n (by subst ho; simp [Act.names])) hrun
          refine ⟨[p], s0', ?_, hi.same, ?_, ?_⟩
          · rw [opsOf_cons]
            simp [opsOf, run, hrun0]
          · intro j s hj hs
            dsimp only at hs ⊢
            rw [List.getElem?_set_ne (fun e => hj e.symm)] at hs
            exact (hi.others j s hj hs).keeps hkeeps
          · right; left
            exact ⟨s', List.getElem?_set_self hkl, hrel'⟩
        · obtain ⟨hq, hN⟩ := op_quiet (N := N) (hi.others k s2 hki hk)
            (fun n cs ho => hothers k hki n (by subst ho; simp [Act.names])) hrun
          refine ⟨[], s0, ?_, hi.same, ?_, ?_⟩
          · rw [opsOf_cons]; simp [hki, opsOf, run]
          · intro j s hj hs
            dsimp only at hs ⊢
            by_cases hkj : k = j
            · subst hkj; rw [List.getElem?_set_self hkl] at hs; cases hs; exact hN
            · rw [List.getElem?_set_ne hkj] at hs
              exact (hi.others j s hj hs).keeps hkeeps
          · dsimp only
            rw [List.length_set, List.getElem?_set_ne hki]
            rcases hi.mine with ⟨h1, h2, h3⟩ | ⟨s, h1, h2⟩ | h1
            · exact Or.inl ⟨h1, h2, h3.quiet hq⟩
            · exact Or.inr (Or.inl ⟨s, h1, h2.quiet hq⟩)
            · exact Or.inr (Or.inr h1)

theorem run_append {zero : V} {count : Count} (os os' : List (Op V)) : ∀ {s s1 s2 : State V} {ps qs : List (Option Nat)},
    run zero count s os = .ok (ps, s1) → run zero count s1 os' = .ok (qs, s2) →
    run zero count s (os ++ os') = .ok (ps ++ qs, s2) := by
  induction os with
  | nil => intro s s1 s2 ps qs h h'; simp only [run, Except.ok.injEq, Prod.mk.injEq] at h; obtain ⟨rfl, rfl⟩ := h; exact h'
  | cons o os ih =>
    intro s s1 s2 ps qs h h'
    obtain ⟨p, ps', s3, rfl, h1, h2⟩ := run_cons h
    have := ih h2 h'
    simp only [List.cons_append, run, h1, this]

theorem site_run {N : String → Prop} {zero : V} {count : Count} {i mesh : Nat} {w0 : Reg.World} (acts : List (Act V)) :
    ∀ {t t' : Site V} {s0 : State V}, SiteInv N i mesh w0 t s0 → (∀ n ∈ materialNames i acts, ¬ N n) →
    (∀ j, j ≠ i → ∀ n ∈ materialNames j acts, N n) → runSite zero count t acts = .ok t' →
    ∃ ps s0', run zero count s0 (opsOf i acts) = .ok (ps, s0') ∧ SiteInv N i mesh w0 t' s0' := by
  induction acts with
  | nil =>
    intro t t' s0 hi _ _ h
    simp only [runSite, Except.ok.injEq] at h; subst h
    exact ⟨[], s0, rfl, hi⟩
  | cons a as ih =>
    intro t t' s0 hi h1 h2 h
    unfold runSite at h
    split at h
    · cases h
    · rename_i t1 ht1
      obtain ⟨ps, s1, hr, hi1⟩ := act_inv hi (fun n hn => h1 n (by rw [materialNames_cons]; simp [hn]))
        (fun j hj n hn => h2 j hj n (by rw [materialNames_cons]; simp [hn])) ht1
      obtain ⟨qs, s2, hr2, hi2⟩ := ih hi1 (fun n hn => h1 n (by rw [materialNames_cons]; simp [hn]))
        (fun j hj n hn => h2 j hj n (by rw [materialNames_cons]; simp [hn])) h
      refine ⟨ps ++ qs, s2, ?_, hi2⟩
      have e : opsOf i (a :: as) = opsOf i [a] ++ opsOf i as := by
        unfold opsOf; rw [← List.filterMap_append]; rfl
      rw [e]
      exact run_append _ _ hr hr2

theorem StRel.answers {N : String → Prop} {s s0 : State V} (zero : V) (h : StRel N s s0) : SameAnswers zero s s0 := by
  have hv : s0.vecs = s.vecs := by rw [h.eq]
  have hc : s0.cellMats = s.cellMats := by rw [h.eq]
  have hb : s0.blocks = s.blocks := by rw [h.eq]
  have hx : s0.indexes = s.indexes := by rw [h.eq]
  have hn : s0.names = s.names := by rw [h.eq]
  refine ⟨h.len, fun m => ?_, h.index, fun m => ?_, fun m => ?_, fun c => ?_, h.cellIndex, hv.symm, hn.symm,
    fun k => ?_, fun v i => ?_, fun v i j l => ?_⟩
  · unfold materialName; rw [h.matSet m]
  · unfold materialCells; rw [h.matSet m]
  · unfold numMaterialCells; rw [h.matSet m]
  · unfold cellMaterials; rw [h.len, hc]
  · unfold vecsOfKind; rw [hv, hx]
  · unfold uniRead; rw [hb]
  · unfold multiRead; rw [h.cellIndex, hb]

end Jali.St
