import Verif.Spec.MaterialNames
import Verif.Proof.StateSites4
/-! Property theorems C186: materials by name. -/
namespace Jali.St
open Jali.MSet

variable {V : Type}

/-- the set at the address has the name -/
def NameAt (w : Reg.World) (a : Nat) (n : String) : Prop := ∃ o : Obj, w.heap[a]? = some o ∧ o.name = n

/-- the sets of the materials have the names, all different -/
structure Named (w : Reg.World) (mats : List Nat) (N : List String) : Prop where
  names : List.Forall₂ (NameAt w) mats N
  nodup : N.Nodup

theorem addrNamed_at {s : State V} {a : Nat} {x n : String} (h : NameAt s.w a x) : addrNamed s n a = (x == n) := by
  obtain ⟨o, ho, rfl⟩ := h
  unfold addrNamed
  rw [ho]
  simp [Bool.beq_eq_decide_eq]

theorem any_at {p : Nat → Bool} {q : String → Bool} {mats : List Nat} {N : List String} (h : List.Forall₂ (fun a x => p a = q x) mats N) :
    mats.any p = N.any q ∧ mats.findIdx? p = N.findIdx? q := by
  induction h with
  | nil => exact ⟨rfl, rfl⟩
  | cons e _ ih => simp only [List.any_cons, List.findIdx?_cons, e, ih.1, ih.2, and_self]

theorem find_at {p : Nat → Bool} {mats : List Nat} {a : Nat} :
    mats.find? p = some a ↔ ∃ m, mats.findIdx? p = some m ∧ mats[m]? = some a := by
  induction mats with
  | nil => simp
  | cons b l ih =>
    rw [List.find?_cons, List.findIdx?_cons]
    cases hb : p b with
    | true => simp
    | false =>
      simp only [Bool.false_eq_true, if_false]
      rw [ih]
      constructor
      · rintro ⟨m, h1, h2⟩; exact ⟨m + 1, by simp [h1], by simpa using h2⟩
      · rintro ⟨m, h1, h2⟩
        rw [Option.map_eq_some_iff] at h1
        obtain ⟨k, h3, rfl⟩ := h1
        exact ⟨k, h3, by simpa using h2⟩

theorem Named.index {s : State V} {N : List String} (h : Named s.w s.mats N) (n : String) :
    materialIndexByName s n = N.findIdx? (fun x => x == n) :=
  (any_at (h.names.imp fun _ _ e => addrNamed_at e)).2

theorem Named.any {s : State V} {N : List String} (h : Named s.w s.mats N) (n : String) :
    s.mats.any (fun a => addrNamed s n a) = N.any (fun x => x == n) :=
  (any_at (h.names.imp fun _ _ e => addrNamed_at e)).1

theorem nodup_findIdx {N : List String} (hN : N.Nodup) {n : String} {m : Nat} : N.findIdx? (fun x => x == n) = some m ↔ N[m]? = some n := by
  rw [List.findIdx?_eq_some_iff_getElem]
  constructor
  · rintro ⟨hlt, e, -⟩
    rw [List.getElem?_eq_getElem hlt, eq_of_beq e]
  · intro h
    obtain ⟨hlt, e⟩ := List.getElem?_eq_some_iff.1 h
    refine ⟨hlt, by simp [e], fun j hj hjn => ?_⟩
    have hj' : j < N.length := by omega
    have := (hN.getElem_inj_iff (hi := hj') (hj := hlt)).1 ((eq_of_beq hjn).trans e.symm)
    omega

theorem Named.keeps {w w' : Reg.World} {mats : List Nat} {N : List String} (h : Named w mats N) (hk : KeepsNames w w') : Named w' mats N := by
  refine ⟨h.names.imp fun a n ⟨o, ho, e⟩ => ?_, h.nodup⟩
  obtain ⟨o', ho', e'⟩ := hk a o ho
  exact ⟨o', ho', e'.trans e⟩

theorem remMaterial_both {s s' : State V} {m : Nat} (h : remMaterial s m = .ok s') :
    (matSet s m = none ∧ s' = s) ∨ ((∃ o, matSet s m = some o) ∧ s'.w = s.w ∧ s'.mats = s.mats.eraseIdx m) := by
  unfold remMaterial at h
  split at h
  · next e => cases h; exact .inl ⟨e, rfl⟩
  · next o e =>
    right
    split at h
    · cases h
    · split at h
      · cases h
      · cases h; exact ⟨⟨o, e⟩, rfl, rfl⟩

theorem Named.rem {s s' : State V} {N : List String} {m : Nat} (h : Named s.w s.mats N) (hr : remMaterial s m = .ok s') :
    s'.w = s.w ∧ s'.mats = s.mats.eraseIdx m ∧ Named s'.w s'.mats (N.eraseIdx m) := by
  have key : s'.w = s.w ∧ s'.mats = s.mats.eraseIdx m := by
    rcases remMaterial_both hr with ⟨e, rfl⟩ | ⟨-, e1, e2⟩
    · refine ⟨rfl, ?_⟩
      rw [List.eraseIdx_of_length_le]
      by_contra hlt
      have hlt : m < s'.mats.length := by omega
      have hl := h.names.length_eq
      obtain ⟨o, ho, -⟩ := (List.forall₂_iff_get.1 h.names).2 m hlt (by omega)
      unfold matSet at e
      rw [List.getElem?_eq_getElem hlt] at e
      rw [List.get_eq_getElem] at ho
      simp only [ho] at e
      cases e
    · exact ⟨e1, e2⟩
  refine ⟨key.1, key.2, ?_⟩
  rw [key.1, key.2]
  exact ⟨forall2_eraseIdx h.names m, h.nodup.sublist (List.eraseIdx_sublist ..)⟩

theorem filter_of_index {N : List String} (hN : N.Nodup) (n : String) :
    (N.filter fun x => x ≠ n) = match N.findIdx? (fun x => x == n) with | none => N | some m => N.eraseIdx m := by
  have h1 : (N.filter fun x => x ≠ n) = N.erase n := by
    rw [hN.erase_eq_filter]
    refine List.filter_congr fun x _ => ?_
    by_cases e : x = n <;> simp [e, bne]
  rw [h1, List.erase_eq_eraseIdx]
  rfl

theorem Named.step {zero : V} {count : Count} {s s' : State V} {o : Op V} {p : Option Nat} {N : List String} (h : Named s.w s.mats N)
    (hr : o.run zero count s = .ok (p, s')) : Named s'.w s'.mats (o.onNames N) := by
  have same : ∀ {t : State V}, t.w = s.w → t.mats = s.mats → Named t.w t.mats N := fun e1 e2 => by rw [e1, e2]; exact h
  cases o with
  | add r =>
    obtain ⟨i, -, h'⟩ := withPos_ok hr
    unfold St.add at h'
    repeat' split at h'
    all_goals first
      | (cases h'; done)
      | (cases h'; exact same rfl rfl)
  | addCopy v =>
    obtain ⟨i, -, h'⟩ := withPos_ok hr
    unfold St.addCopy St.copyForAdd St.copyVec at h'
    split at h'
    · cases h'; exact same rfl rfl
    · split at h'
      · cases h'
      · rename_i v1 s1 h1
        have hs1 : s1.w = s.w ∧ s1.mats = s.mats := by
          repeat' split at h1
          all_goals first
            | (cases h1; done)
            | (cases h1; exact ⟨rfl, rfl⟩)
        split at h'
        · cases h'
        · cases h'
          exact same hs1.1 hs1.2
  | addMaterial n cs =>
    obtain ⟨-, h'⟩ := noPos_ok hr
    unfold St.addMaterial at h'
    rw [h.any] at h'
    have hmem : N.any (fun x => x == n) = true ↔ n ∈ N := by simp
    show Named s'.w s'.mats (if n ∈ N then N else N ++ [n])
    split at h'
    · next e => cases h'; rw [if_pos (hmem.1 e)]; exact h
    · next e =>
      rw [if_neg fun c => e (hmem.2 c)]
      split at h'
      · cases h'
      · rename_i a w1 h1
        split at h'
        · cases h'
        · rename_i w2 h2
          split at h'
          · cases h'
          · split at h'
            · cases h'
            · cases h'
              obtain ⟨k1, o, ho, hn⟩ := materialSetFor_keeps h1
              refine Named.keeps (w := w1) ⟨?_, ?_⟩ (growSet_keeps h2)
              · exact List.rel_append (h.keeps k1).names (.cons ⟨o, ho, hn⟩ .nil)
              · rw [List.nodup_append]
                refine ⟨h.nodup, by simp, fun x hx y hy exy => e (hmem.2 ?_)⟩
                rw [List.mem_singleton] at hy
                rw [← hy, ← exy]; exact hx
  | addCells m cs =>
    obtain ⟨-, h'⟩ := noPos_ok hr
    unfold St.addCells at h'
    split at h'
    · cases h'
    · split at h'
      · cases h'
      · rename_i w1 h1
        split at h'
        · cases h'
        · split at h'
          · cases h'
          · cases h'
            exact h.keeps (growSet_keeps h1)
  | remMaterial m =>
    obtain ⟨-, h'⟩ := noPos_ok hr
    exact (h.rem h').2.2
  | remMaterialByName n =>
    obtain ⟨-, h'⟩ := noPos_ok hr
    show Named s'.w s'.mats (N.filter fun x => x ≠ n)
    unfold St.remMaterialByName at h'
    rw [h.index] at h'
    rw [filter_of_index h.nodup n]
    split at h'
    · next m e => rw [e]; exact (h.rem h').2.2
    · next e => rw [e]; cases h'; exact h
  | copy v =>
    obtain ⟨-, v', h'⟩ := copied_ok hr
    obtain ⟨-, -, -, -, -, -, e1, e2, -⟩ := copyVec_effect h'
    exact same e1 e2
  | uniWrite v i x =>
    obtain ⟨-, h'⟩ := noPos_ok hr
    unfold St.uniWrite at h'
    repeat' split at h'
    all_goals first
      | (cases h'; done)
      | (cases h'; exact same rfl rfl)
  | uniResize v n x =>
    obtain ⟨-, h'⟩ := noPos_ok hr
    unfold St.uniResize at h'
    repeat' split at h'
    all_goals first
      | (cases h'; done)
      | (cases h'; exact same rfl rfl)
  | multiWrite v i j l x =>
    obtain ⟨-, h'⟩ := noPos_ok hr
    unfold St.multiWrite at h'
    repeat' split at h'
    all_goals first
      | (cases h'; done)
      | (cases h'; exact same rfl rfl)
  | multiAssign v l d =>
    obtain ⟨-, h'⟩ := noPos_ok hr
    unfold St.multiAssign at h'
    repeat' split at h'
    all_goals first
      | (cases h'; done)
      | (cases h'; exact same rfl rfl)
  | multiFill v x =>
    obtain ⟨-, h'⟩ := noPos_ok hr
    unfold St.multiFill at h'
    repeat' split at h'
    all_goals first
      | (cases h'; done)
      | (cases h'; exact same rfl rfl)

theorem Named.run {zero : V} {count : Count} : ∀ (ops : List (Op V)) {s s' : State V} {ps : List (Option Nat)} {N : List String},
    Named s.w s.mats N → St.run zero count s ops = .ok (ps, s') → Named s'.w s'.mats (ops.foldl (fun N o => o.onNames N) N) := by
  intro ops
  induction ops with
  | nil => intro s s' ps N h hr; cases hr; exact h
  | cons o ops ih =>
    intro s s' ps N h hr
    rw [St.run] at hr
    split at hr
    · cases hr
    · rename_i q s1 h1
      split at hr
      · cases hr
      · rename_i qs s2 h2
        cases hr
        exact ih (h.step h1) h2

/-- the materials after a history carry the names of the list -/
theorem named_after {mesh : Nat} {w : Reg.World} {zero : V} {count : Count} {ops : List (Op V)} {ps : List (Option Nat)} {s : State V}
    (hr : run zero count (create mesh w) ops = .ok (ps, s)) : Named s.w s.mats (namesAfter ops) :=
  Named.run ops ⟨.nil, .nil⟩ hr

/-- **C186, names.** After every history of calls of a state manager that goes through, whatever materials are added and removed and whatever
sets the mesh has, the names of the materials are those that the history asks for, in order and all different; the number of the material of a
name is its place in this list, or -1 if the name is not in it. -/
theorem names_after {mesh : Nat} {w : Reg.World} {zero : V} {count : Count} {ops : List (Op V)} {ps : List (Option Nat)} {s : State V}
    (hr : run zero count (create mesh w) ops = .ok (ps, s)) :
    (namesAfter ops).Nodup ∧ numMaterials s = (namesAfter ops).length ∧
    (∀ m n, (namesAfter ops)[m]? = some n → materialName s m = n) ∧
    (∀ m n, materialIndexByName s n = some m ↔ (namesAfter ops)[m]? = some n) ∧
    (∀ n, materialIndexByName s n = none ↔ n ∉ namesAfter ops) := by
  have h := named_after hr
  refine ⟨h.nodup, h.names.length_eq, fun m n hn => ?_, fun m n => ?_, fun n => ?_⟩
  · have hl := h.names.length_eq
    obtain ⟨hlt, e⟩ := List.getElem?_eq_some_iff.1 hn
    obtain ⟨o, ho, ho2⟩ := (List.forall₂_iff_get.1 h.names).2 m (by omega) hlt
    unfold materialName matSet
    rw [List.getElem?_eq_getElem (by omega : m < s.mats.length)]
    rw [List.get_eq_getElem] at ho ho2
    simp only [ho, ho2, e]
  · rw [h.index, nodup_findIdx h.nodup]
  · rw [h.index, List.findIdx?_eq_none_iff]
    constructor
    · intro hall hn; simpa using hall n hn
    · intro hn x hx
      simp only [beq_eq_false_iff_ne, ne_eq]
      rintro rfl; exact hn hx

/-- **C186, sets by name.** The set found by name is the one found by the number that the name has, and null if no material has the name. -/
theorem set_by_name (s : State V) (n : String) :
    (∀ a, materialSetByName s n = some a ↔ ∃ m, materialIndexByName s n = some m ∧ materialSet s m = .ok a) ∧
    (materialSetByName s n = none ↔ materialIndexByName s n = none) := by
  have key : ∀ a, materialSetByName s n = some a ↔ ∃ m, materialIndexByName s n = some m ∧ materialSet s m = .ok a := fun a => by
    unfold materialSetByName materialIndexByName
    rw [find_at]
    refine exists_congr fun m => and_congr_right fun _ => ?_
    unfold materialSet
    cases s.mats[m]? <;> simp
  refine ⟨key, ?_⟩
  unfold materialSetByName materialIndexByName
  rw [List.find?_eq_none, List.findIdx?_eq_none_iff]
  simp

theorem Named.list {s : State V} {N : List String} (h : Named s.w s.mats N) : (List.range (numMaterials s)).map (materialName s) = N := by
  have hl := h.names.length_eq
  refine List.ext_getElem (by simp [numMaterials, hl]) fun m h1 h2 => ?_
  obtain ⟨o, ho, ho2⟩ := (List.forall₂_iff_get.1 h.names).2 m (by omega) h2
  rw [List.getElem_map, List.getElem_range]
  unfold materialName matSet
  rw [List.getElem?_eq_getElem (by omega : m < s.mats.length)]
  rw [List.get_eq_getElem] at ho ho2
  simp only [ho, ho2]

theorem find_erase {p : Nat → Bool} : ∀ {l : List Nat} {m : Nat}, (∀ a, l[m]? = some a → p a = false) → (l.eraseIdx m).find? p = l.find? p := by
  intro l
  induction l with
  | nil => intro m _; rfl
  | cons b l ih =>
    intro m h
    cases m with
    | zero => rw [List.eraseIdx_cons_zero, List.find?_cons, h b rfl]
    | succ m => rw [List.eraseIdx_cons_succ, List.find?_cons, List.find?_cons, ih fun a ha => h a (by simpa using ha)]

theorem cells_by_name (s : State V) (n : String) : (materialIndexByName s n).map (materialCells s) =
    (materialSetByName s n).map fun a => match s.w.heap[a]? with | some o => entities o .ALL | none => [] := by
  have key := fun a => find_at (p := fun a => addrNamed s n a) (mats := s.mats) (a := a)
  unfold materialIndexByName materialSetByName
  cases hi : s.mats.findIdx? fun a => addrNamed s n a with
  | none =>
    have : s.mats.find? (fun a => addrNamed s n a) = none := by
      rw [List.find?_eq_none]
      rw [List.findIdx?_eq_none_iff] at hi
      simpa using hi
    rw [this]; rfl
  | some m =>
    have hlt := (List.findIdx?_eq_some_iff_getElem.1 hi).1
    have ha : s.mats[m]? = some s.mats[m] := List.getElem?_eq_getElem hlt
    rw [(key _).2 ⟨m, hi, ha⟩]
    simp only [Option.map_some, materialCells, matSet, ha]
    cases s.w.heap[s.mats[m]]? <;> rfl

/-- **C186, removal by name.** Where the removal of a material by name has a defined result (C42), no material has the name any more, and the
others keep their names, sets and cells and their order; if no material has the name, nothing changes. -/
theorem removed_by_name {mesh : Nat} {w : Reg.World} {zero : V} {count : Count} {ops : List (Op V)} {ps : List (Option Nat)} {s s' : State V}
    (hr : run zero count (create mesh w) ops = .ok (ps, s)) {n : String} (h : remMaterialByName s n = .ok s') :
    (n ∉ namesAfter ops → s' = s) ∧ materialIndexByName s' n = none ∧ materialSetByName s' n = none ∧
    (∀ x, x ≠ n → materialSetByName s' x = materialSetByName s x ∧ (materialIndexByName s' x).map (materialCells s') =
      (materialIndexByName s x).map (materialCells s)) ∧
    (List.range (numMaterials s')).map (materialName s') = ((List.range (numMaterials s)).map (materialName s)).filter fun x => x ≠ n := by
  have hn := named_after hr
  have hr' : run zero count (create mesh w) (ops ++ [.remMaterialByName n]) = .ok (ps ++ [none], s') := by
    have gen : ∀ (ops : List (Op V)) (t : State V) (ps : List (Option Nat)), run zero count t ops = .ok (ps, s) →
        run zero count t (ops ++ [.remMaterialByName n]) = .ok (ps ++ [none], s') := by
      intro ops
      induction ops with
      | nil =>
        intro t ps e
        cases e
        simp only [List.nil_append, run, Op.run, h, noPos]
      | cons o ops ih =>
        intro t ps e
        rw [run] at e
        rw [List.cons_append, run]
        split at e
        · cases e
        · rename_i q t1 e1
          split at e
          · cases e
          · rename_i qs t2 e2
            cases e
            simp only [ih _ _ e2, List.cons_append]
    exact gen ops _ _ hr
  have hn' := named_after hr'
  have hN : namesAfter (ops ++ [.remMaterialByName n]) = (namesAfter ops).filter fun x => x ≠ n := by
    unfold namesAfter; rw [List.foldl_append]; rfl
  rw [hN] at hn'
  have h0 : materialIndexByName s' n = none := by
    rw [hn'.index, List.findIdx?_eq_none_iff]
    intro x hx
    simpa using (List.mem_filter.1 hx).2
  have hw : s'.w = s.w ∧ ∀ x, x ≠ n → s'.mats.find? (fun a => addrNamed s' x a) = s.mats.find? (fun a => addrNamed s x a) := by
    unfold remMaterialByName at h
    split at h
    · next m e =>
      obtain ⟨e1, e2, -⟩ := hn.rem h
      refine ⟨e1, fun x hx => ?_⟩
      have e3 : (fun a => addrNamed s' x a) = fun a => addrNamed s x a := by funext a; unfold addrNamed; rw [e1]
      rw [e2, e3]
      refine find_erase fun a ha => ?_
      have hlt := (List.getElem?_eq_some_iff.1 ha).1
      have hlN : m < (namesAfter ops).length := by rw [← hn.names.length_eq]; exact hlt
      have hm : NameAt s.w a (namesAfter ops)[m] := by
        have := (List.forall₂_iff_get.1 hn.names).2 m hlt hlN
        rw [List.get_eq_getElem, List.get_eq_getElem, (List.getElem?_eq_some_iff.1 ha).2] at this
        exact this
      rw [hn.index, nodup_findIdx hn.nodup, List.getElem?_eq_getElem hlN, Option.some.injEq] at e
      rw [addrNamed_at hm, e]
      simpa using hx.symm
    · cases h; exact ⟨rfl, fun _ _ => rfl⟩
  refine ⟨fun hno => ?_, h0, (set_by_name s' n).2.2 h0, fun x hx => ⟨hw.2 x hx, ?_⟩, by rw [hn'.list, hn.list]⟩
  · have e := (names_after hr).2.2.2.2 n
    unfold remMaterialByName at h
    rw [e.2 hno] at h
    cases h; rfl
  · rw [cells_by_name, cells_by_name, show materialSetByName s' x = materialSetByName s x from hw.2 x hx, hw.1]

/-- a mesh of three cells without sets; materials "a" and "b" are added, "a" again (refused), "a" removed, "c" added -/
def namesWorld : Reg.World := ⟨fun _ => ⟨fun e => if e < 3 then .PARALLEL_OWNED else .TYPE_UNKNOWN, 3, 0⟩, [], []⟩
def namesOps : List (Op Nat) :=
  [.addMaterial "a" [0], .addMaterial "b" [1, 2], .addMaterial "a" [1], .remMaterialByName "a", .addMaterial "c" [0]]

example : ∃ ps s, run 0 (fun _ _ _ => 3) (create 0 namesWorld) namesOps = .ok (ps, s) ∧ namesAfter namesOps = ["b", "c"] ∧
    materialIndexByName s "a" = none ∧ materialIndexByName s "c" = some 1 ∧ materialSetByName s "c" = some 2 ∧ materialCells s 0 = [1, 2] ∧
    ∃ s', remMaterialByName s "b" = .ok s' ∧ numMaterials s' = 1 :=
  ⟨_, _, rfl, by decide, rfl, rfl, rfl, rfl, _, rfl, rfl⟩

end Jali.St
