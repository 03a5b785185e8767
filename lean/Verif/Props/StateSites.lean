import Verif.Proof.StateSites4
import Verif.Props.Materials
/-! Property theorems C152: several state managers on one mesh. -/
namespace Jali.St
open Jali.MSet
variable {V : Type}

/-- **C152.** Any number of state managers on one mesh, created, used and destroyed in any order: as long as no other
manager of the mesh is given a material of the same name, a manager gives the answers it would give if its
operations had been the only ones on the mesh — and these operations succeed there too. Missing: materials of the
same name (see `shared_material_name`), names of managers already destroyed (see `remade_manager`). -/
theorem managers_as_if_alone_partial (zero : V) (count : Count) (mesh : Nat) (w : Reg.World) (hw : RegOk w)
    (acts : List (Act V)) (t : Site V) (h : runSite zero count ⟨mesh, w, []⟩ acts = .ok t) (i : Nat) (s : State V)
    (hi : t.manager i = some s) (hd : ∀ n ∈ materialNames i acts, ∀ j, j ≠ i → n ∉ materialNames j acts) :
    ∃ ps s0, run zero count (create mesh w) (opsOf i acts) = .ok (ps, s0) ∧ SameAnswers zero s s0 := by
  let N : String → Prop := fun n => ∃ j, j ≠ i ∧ n ∈ materialNames j acts
  have h0 : SiteInv N i mesh w (⟨mesh, w, []⟩ : Site V) (create mesh w) := by
    refine ⟨rfl, fun j s _ hs => by simp at hs, Or.inl ⟨by simp, rfl, rfl, hw, hw, fun n _ => ?_⟩⟩
    cases hf : Reg.findMeshset w n .CELL with
    | none => exact Or.inl ⟨rfl, rfl⟩
    | some a =>
      obtain ⟨-, o, ho, -⟩ := Reg.findMeshset_some hf
      exact Or.inr ⟨a, a, o, rfl, rfl, ho, ho⟩
  obtain ⟨ps, s0, hr, hinv⟩ := site_run acts h0
    (fun n hn => fun hx => by obtain ⟨j, hj, hnj⟩ := hx; exact hd n hn j hj hnj)
    (fun j hj n hn => ⟨j, hj, hn⟩) h
  refine ⟨ps, s0, hr, ?_⟩
  obtain ⟨s1, h1, rfl⟩ := manager_some hi
  rcases hinv.mine with ⟨h2, -⟩ | ⟨s2, h2, h3⟩ | h2
  · have := (List.getElem?_eq_some_iff.1 h1).1; omega
  · rw [h1] at h2; cases h2; exact h3.answers zero
  · rw [h1] at h2; cases h2

theorem SameAnswers.symm {zero : V} {s s' : State V} (h : SameAnswers zero s s') : SameAnswers zero s' s :=
  ⟨h.1.symm, fun m => (h.2 m).symm, fun n => (h.3 n).symm, fun m => (h.4 m).symm, fun m => (h.5 m).symm,
    fun m => (h.6 m).symm, fun c m => (h.7 c m).symm, h.8.symm, h.9.symm, fun k => (h.10 k).symm,
    fun v i => (h.11 v i).symm, fun v i j l => (h.12 v i j l).symm⟩

theorem SameAnswers.trans {zero : V} {a b c : State V} (h : SameAnswers zero a b) (h' : SameAnswers zero b c) :
    SameAnswers zero a c :=
  ⟨h.1.trans h'.1, fun m => (h.2 m).trans (h'.2 m), fun n => (h.3 n).trans (h'.3 n), fun m => (h.4 m).trans (h'.4 m),
    fun m => (h.5 m).trans (h'.5 m), fun m => (h.6 m).trans (h'.6 m), fun c m => (h.7 c m).trans (h'.7 c m),
    h.8.trans h'.8, h.9.trans h'.9, fun k => (h.10 k).trans (h'.10 k), fun v i => (h.11 v i).trans (h'.11 v i),
    fun v i j l => (h.12 v i j l).trans (h'.12 v i j l)⟩

theorem runSite_append {zero : V} {count : Count} (as bs : List (Act V)) : ∀ {t t1 t2 : Site V},
    runSite zero count t as = .ok t1 → runSite zero count t1 bs = .ok t2 → runSite zero count t (as ++ bs) = .ok t2 := by
  induction as with
  | nil => intro t t1 t2 h h'; simp only [runSite, Except.ok.injEq] at h; subst h; exact h'
  | cons a as ih =>
    intro t t1 t2 h h'
    unfold runSite at h
    split at h
    · cases h
    · rename_i t3 h3
      simp only [List.cons_append, runSite, h3]
      exact ih h h'

/-- **C152**, step by step: whatever is done with other managers, the answers of a manager stay the same. -/
theorem managers_undisturbed_partial (zero : V) (count : Count) (mesh : Nat) (w : Reg.World) (hw : RegOk w)
    (acts more : List (Act V)) (t t' : Site V) (h : runSite zero count ⟨mesh, w, []⟩ acts = .ok t)
    (h' : runSite zero count t more = .ok t') (i : Nat) (s s' : State V) (hi : t.manager i = some s)
    (hi' : t'.manager i = some s') (hmore : opsOf i more = [])
    (hd : ∀ n ∈ materialNames i acts, ∀ j, j ≠ i → n ∉ materialNames j (acts ++ more)) : SameAnswers zero s s' := by
  have hops : opsOf i (acts ++ more) = opsOf i acts := by
    unfold opsOf at *
    rw [List.filterMap_append, hmore, List.append_nil]
  have hnames : materialNames i (acts ++ more) = materialNames i acts := by unfold materialNames; rw [hops]
  have hsub : ∀ j, ∀ n ∈ materialNames j acts, n ∈ materialNames j (acts ++ more) := by
    intro j n hn
    unfold materialNames opsOf at *
    rw [List.filterMap_append, List.filterMap_append]
    exact List.mem_append_left _ hn
  obtain ⟨ps, s0, hr, ha⟩ := managers_as_if_alone_partial zero count mesh w hw acts t h i s hi
    (fun n hn j hj hx => hd n hn j hj (hsub j n hx))
  obtain ⟨qs, s1, hr1, ha1⟩ := managers_as_if_alone_partial zero count mesh w hw (acts ++ more) t'
    (runSite_append acts more h h') i s' hi' (fun n hn j hj => hd n (by rw [← hnames]; exact hn) j hj)
  rw [hops, hr] at hr1
  cases hr1
  exact ha.trans ha1.symm

/-! ### where it fails -/

/-- the first material of a manager -/
theorem first_material (zero : V) (mesh : Nat) (w : Reg.World) (hw : RegOk w) (n : String) (cs : List Nat)
    (hn : Reg.findMeshset w n .CELL = none) (hc : NewCells (w.view .CELL) [] cs) :
    ∃ (s : State V) (a : Nat) (o : Obj), addMaterial zero (create mesh w) n cs = .ok s ∧ s.mats = [a] ∧
      Reg.findMeshset s.w n .CELL = some a ∧ s.w.heap[a]? = some o ∧ Proper (w.view .CELL) o ∧ o.all.Perm cs ∧
      s.w.view = w.view ∧ ∀ c, c < (w.view .CELL).nAll → c ∉ cs → cellMaterials s c = .ok [] := by
  obtain ⟨s, h1, h2, -⟩ := addMaterial_new zero (minv_create (V := V) mesh w hw) n cs (by simp [Mats.none]) hn hc
  have hA : ((Op.addMaterial (V := V) n cs).onMats Mats.none).mats = [⟨n, cs, false⟩] := by
    simp [Op.onMats, Mats.none]
  have hlen : s.mats.length = 1 := by rw [h2.len, hA]; rfl
  obtain ⟨a, ha⟩ := List.length_eq_one_iff.1 hlen
  obtain ⟨o, ho, hok⟩ := h2.sets 0 a ⟨n, cs, false⟩ (by rw [ha]; rfl) (by rw [hA]; rfl)
  refine ⟨s, a, o, h1, ha, h2.found 0 a ⟨n, cs, false⟩ (by rw [ha]; rfl) (by rw [hA]; rfl), ho, (hok.exact rfl).1,
    hok.perm, h2.view, fun c hcl hcn => ?_⟩
  have hl : s.cellMats.length = (w.view .CELL).nAll := h2.cellLen (by rw [hA]; simp)
  have hlt : c < s.cellMats.length := by rw [hl]; exact hcl
  unfold cellMaterials
  rw [if_pos (by rw [ha]; simp), List.getElem?_eq_getElem hlt]
  dsimp only
  have hcell := h2.cell c _ (List.getElem?_eq_getElem hlt)
  rw [hcell]
  have : ((Op.addMaterial (V := V) n cs).onMats Mats.none).cell c = [] := by
    rw [List.eq_nil_iff_forall_not_mem]
    intro m hm
    obtain ⟨x, hx, hcx⟩ := (h2.inv c m).1 hm
    rw [hA] at hx
    cases m with
    | zero => simp at hx; subst hx; exact hcn hcx
    | succ m => simp at hx
  rw [this]

/-- **C152** fails for materials of the same name: two managers on one mesh, each given a material of this name with
cells of its own. Both then have the cells of both, and neither knows of the other's cells in its
`cell_materials`. -/
theorem shared_material_name (zero : V) (count : Count) (mesh : Nat) (w : Reg.World) (hw : RegOk w) (n : String)
    (cs ds : List Nat) (hn : Reg.findMeshset w n .CELL = none) (hc : NewCells (w.view .CELL) [] cs)
    (hdn : NewCells (w.view .CELL) cs ds) :
    ∃ (t : Site V) (s s' : State V),
      runSite zero count ⟨mesh, w, []⟩
        [.create, .create, .op 0 (.addMaterial n cs), .op 1 (.addMaterial n ds)] = .ok t ∧
      t.manager 0 = some s ∧ t.manager 1 = some s' ∧
      (∀ d ∈ ds, d ∈ materialCells s 0 ∧ cellMaterials s d = .ok []) ∧
      (∀ c ∈ cs, c ∈ materialCells s' 0 ∧ cellMaterials s' c = .ok []) := by
  obtain ⟨s1, a, o, h1, hm, hf, ho, hp, hperm, hv, hcell⟩ := first_material zero mesh w hw n cs hn hc
  have hlt : a < s1.w.heap.length := (List.getElem?_eq_some_iff.1 ho).1
  have hnew : NewCells (s1.w.view .CELL) o.all ds := by
    rw [hv]
    exact ⟨hdn.nodup, fun c hcc hx => hdn.absent c hcc (hperm.mem_iff.1 hx), hdn.bound, hdn.typed, hdn.some_owned⟩
  obtain ⟨o', hadd, -, -, hperm', -⟩ := addEntities_loose (s1.w.view .CELL) o ds (by rw [hv]; exact Proper.loose hp)
    ⟨hnew.nodup, hnew.absent, hnew.bound, hnew.typed, hnew.some_owned⟩
  obtain ⟨s2, h2, -, hover⟩ := material_takes_over_set (V := V) mesh s1.w zero n ds a o hf ho (by rw [hv]; exact hp) hnew
  have hw2 : s2.w = { s1.w with heap := s1.w.heap.set a o' } ∧ s2.mats = [a] := by
    have hset : materialSetFor s1.w n = .ok (a, s1.w) := by simp only [materialSetFor, hf]
    have hgrow : growSet s1.w a ds = .ok { s1.w with heap := s1.w.heap.set a o' } := by
      simp only [growSet, ho, hadd]
    simp only [addMaterial, create, List.any_nil, Bool.false_eq_true, if_false, hset, hgrow] at h2
    split at h2
    · cases h2
    · split at h2
      · cases h2
      · cases h2; exact ⟨rfl, rfl⟩
  refine ⟨⟨mesh, s2.w, [some s1, some s2]⟩, { s1 with w := s2.w }, s2, ?_, rfl, rfl, ?_, ?_⟩
  · have e1 : ({ create (V := V) mesh w with w := w } : State V) = create mesh w := rfl
    have e2 : ({ create (V := V) mesh w with w := s1.w } : State V) = create mesh s1.w := rfl
    simp [runSite, Act.run, Site.manager, Op.run, e1, e2, h1, h2, noPos]
  · intro d hd
    refine ⟨?_, hcell d (hdn.bound d hd) (fun hx => hdn.absent d hd hx)⟩
    simp only [materialCells, matSet, hm, List.getElem?_cons_zero, hw2.1, List.getElem?_set_self hlt]
    exact hperm'.mem_iff.2 (List.mem_append_right _ hd)
  · intro c hcc
    exact hover c (hperm.mem_iff.2 hcc)

/-- **C152** fails for a manager made after another one is gone: with a material of the same name it starts with the
cells of the old one, and its `cell_materials` knows nothing of them. -/
theorem remade_manager (zero : V) (count : Count) (mesh : Nat) (w : Reg.World) (hw : RegOk w) (n : String)
    (cs : List Nat) (hn : Reg.findMeshset w n .CELL = none) (hc : NewCells (w.view .CELL) [] cs) :
    ∃ (t : Site V) (s : State V),
      runSite zero count ⟨mesh, w, []⟩
        [.create, .op 0 (.addMaterial n cs), .destroy 0, .create, .op 1 (.addMaterial n [])] = .ok t ∧
      t.manager 0 = none ∧ t.manager 1 = some s ∧
      ∀ c ∈ cs, c ∈ materialCells s 0 ∧ cellMaterials s c = .ok [] := by
  obtain ⟨s1, a, o, h1, hm, hf, ho, hp, hperm, hv, hcell⟩ := first_material zero mesh w hw n cs hn hc
  have hnew : NewCells (s1.w.view .CELL) o.all [] := ⟨List.nodup_nil, by simp, by simp, by simp, by simp⟩
  obtain ⟨s2, h2, -, hover⟩ := material_takes_over_set (V := V) mesh s1.w zero n [] a o hf ho (by rw [hv]; exact hp) hnew
  refine ⟨⟨mesh, s2.w, [none, some s2]⟩, s2, ?_, rfl, rfl, fun c hcc => hover c (hperm.mem_iff.2 hcc)⟩
  have e1 : ({ create (V := V) mesh w with w := w } : State V) = create mesh w := rfl
  have e2 : ({ create (V := V) mesh s1.w with w := s1.w } : State V) = create mesh s1.w := rfl
  simp [runSite, Act.run, Site.manager, Op.run, e1, e2, h1, h2, noPos]

/-! ### examples -/

/-- two managers, used in turns, one destroyed -/
def siteActs : List (Act Int) :=
  [.create, .op 0 (.addMaterial "steel" [1, 2]), .create, .op 1 (.addMaterial "water" [0, 2]),
   .op 0 (.add ⟨.MULTIVAL, 0, "rho", .mesh 0, .CELL, .ALL, .value 7⟩), .op 1 (.addCells 0 [3]),
   .op 0 (.addMaterial "air" [0]), .create, .op 2 (.addMaterial "oil" [1]), .destroy 1]

example : ∃ t, runSite 0 exCount ⟨0, exWorld, []⟩ siteActs = .ok t := by
  have : (runSite 0 exCount ⟨0, exWorld, []⟩ siteActs).isOk = true := by decide +kernel
  cases h : runSite 0 exCount ⟨0, exWorld, []⟩ siteActs with
  | ok t => exact ⟨t, rfl⟩
  | error e => rw [h] at this; cases this

example : ∀ n ∈ materialNames 0 siteActs, ∀ j, j ≠ 0 → n ∉ materialNames j siteActs := by
  intro n hn j hj
  have h0 : materialNames 0 siteActs = ["steel", "air"] := by decide +kernel
  rw [h0] at hn
  match j, hj with
  | 1, _ => revert hn n; decide +kernel
  | 2, _ => revert hn n; decide +kernel
  | j + 3, _ =>
    have : materialNames (j + 3) siteActs = [] := by simp [materialNames, opsOf, siteActs]
    rw [this]; simp

example : NewCells (exWorld.view .CELL) [] [1, 2] ∧ NewCells (exWorld.view .CELL) [1, 2] [0, 3] :=
  ⟨⟨by decide, by simp, by decide, by decide, fun _ => ⟨1, by simp, rfl⟩⟩,
   ⟨by decide, by decide, by decide, by decide, fun _ => ⟨0, by simp, rfl⟩⟩⟩

end Jali.St
