import Verif.Proof.SetRegistry3
/-! Property theorems C35, C36, C73, C74: mesh set registry, sets of regions. -/
namespace Jali.Reg
open Jali.MSet

variable {P K : Type} [Field K] [LinearOrder K]

/-! ### example mesh: four owned entities of each kind, entity `e` at position `e` -/

/-- four owned entities, no ghosts -/
def exV : MeshView := ⟨fun e => if e < 4 then .PARALLEL_OWNED else .TYPE_UNKNOWN, 4, 0⟩
/-- a mesh without sets -/
def exW : World := ⟨fun _ => exV, [], []⟩
/-- positions are natural numbers -/
def exG : Geo Nat := ⟨3, true, id, id, id, fun c => [c], fun f => [f], fun n => if n < 4 then [n] else [], fun p c => p = c,
  fun a b => ((a : Rat) - b) * ((a : Rat) - b)⟩
/-- a box region -/
def exBox (n : String) (lo hi : Nat) : Region Nat :=
  ⟨n, .BOX, 3, false, fun p => decide (lo ≤ p ∧ p ≤ hi), none, .NOBOOLEAN, [], "", ([], [])⟩
/-- a logical region -/
def exLog (n : String) (op : BoolOp) (cs : List String) (t : Bool := false) : Region Nat :=
  ⟨n, .LOGICAL, 3, t, fun _ => false, none, op, cs, "", ([], [])⟩

/-! ### C35 -/

theorem named_iff (w : World) (a : Nat) (n : String) (k : EntityKind) :
    nameKind w a n k = true ↔ Named w a n k := by
  unfold nameKind Named
  cases h : w.heap[a]? with
  | none => simp
  | some s => simp

/-- **C35.** `find_meshset(name, kind)` returns the first registered set with that name and kind, and null exactly
when there is none. -/
theorem find_meshset_first (w : World) (n : String) (k : EntityKind) :
    (∀ a, findMeshset w n k = some a ↔ ∃ i : Nat, w.reg[i]? = some a ∧ Named w a n k ∧
      ∀ j a' : Nat, j < i → w.reg[j]? = some a' → ¬ Named w a' n k) ∧
    (findMeshset w n k = none ↔ ∀ a ∈ w.reg, ¬ Named w a n k) := by
  refine ⟨fun a => ?_, ?_⟩
  · unfold findMeshset
    rw [List.find?_eq_some_iff_getElem]
    constructor
    · rintro ⟨hp, i, hi, rfl, hj⟩
      refine ⟨i, by simp [hi], (named_iff _ _ _ _).1 hp, fun j a' hji ha' hn => ?_⟩
      have := hj j hji
      have hjl : j < w.reg.length := by omega
      rw [List.getElem?_eq_getElem hjl] at ha'
      injection ha' with ha'
      rw [ha', (named_iff _ _ _ _).2 hn] at this
      cases this
    · rintro ⟨i, hi, hn, hj⟩
      obtain ⟨hil, rfl⟩ := List.getElem?_eq_some_iff.1 hi
      refine ⟨(named_iff _ _ _ _).2 hn, i, hil, rfl, fun j hji => ?_⟩
      have hjl : j < w.reg.length := by omega
      have := hj j _ hji (List.getElem?_eq_getElem hjl)
      rw [← named_iff] at this
      simpa using this
  · unfold findMeshset
    rw [List.find?_eq_none]
    exact ⟨fun h a ha hn => h a ha ((named_iff _ _ _ _).2 hn), fun h a ha hn => h a ha ((named_iff _ _ _ _).1 hn)⟩

/-- **C35.** `sets(kind)` lists the registered sets of that kind in order of registration (all of them for
`ANY_KIND`); `num_sets(kind)` is their number. -/
theorem sets_of_kind (w : World) (k : EntityKind) :
    (∀ a, a ∈ sets w k ↔ a ∈ w.reg ∧ (k = .ANY_KIND ∨ ∃ s, w.heap[a]? = some s ∧ s.kind = k)) ∧
    (sets w k).Sublist w.reg ∧ numSets w k = (sets w k).length ∧
    ((∀ a ∈ w.reg, k = .ANY_KIND ∨ ∃ s, w.heap[a]? = some s ∧ s.kind = k) → sets w k = w.reg) := by
  have hs : ∀ l acc : List Nat, l.foldl (fun l a => if hasKind w k a then l ++ [a] else l) acc =
      acc ++ l.filter (hasKind w k) := by
    intro l
    induction l with
    | nil => intro acc; simp
    | cons a l ih =>
      intro acc
      rw [List.foldl_cons, ih, List.filter_cons]
      split <;> simp
  have hn : ∀ (l : List Nat) (n : Nat), l.foldl (fun n a => if hasKind w k a then n + 1 else n) n =
      n + (l.filter (hasKind w k)).length := by
    intro l
    induction l with
    | nil => intro n; simp
    | cons a l ih =>
      intro n
      rw [List.foldl_cons, ih, List.filter_cons]
      split <;> simp <;> omega
  have hk : ∀ a, hasKind w k a = true ↔ ∃ s, w.heap[a]? = some s ∧ s.kind = k := by
    intro a
    unfold hasKind
    cases h : w.heap[a]? with
    | none => simp
    | some s => simp
  unfold sets numSets
  by_cases hany : k = .ANY_KIND
  · simp [hany]
  · rw [if_neg hany, if_neg hany, hs, hn]
    refine ⟨fun a => by simp [List.mem_filter, hk, hany], by simp, by simp, fun h => ?_⟩
    rw [List.nil_append, List.filter_eq_self]
    intro a ha
    exact (hk a).2 ((h a ha).resolve_left hany)

/-- **C35.** `get_set_size` and `get_set_entities` answer for the set that `find_meshset` finds: its entities of the
type in its order and their number; 0 and an empty list when there is none. -/
theorem set_queries (w : World) (n : String) (k : EntityKind) (t : EntityType) :
    (∀ a s, findMeshset w n k = some a → w.heap[a]? = some s →
      getSetEntities w n k t = entities s t) ∧
    (findMeshset w n k = none → getSetEntities w n k t = []) ∧
    getSetSize w n k t = (getSetEntities w n k t).length := by
  refine ⟨fun a s ha hs => ?_, fun h => by simp [getSetEntities, h], ?_⟩
  · simp only [getSetEntities, ha, hs]
    cases t <;> simp [entities]
  · unfold getSetSize getSetEntities
    cases findMeshset w n k with
    | none => rfl
    | some a =>
      dsimp only
      cases w.heap[a]? with
      | none => rfl
      | some s => cases t <;> simp [entities, numEntities]

theorem runMakes_spec : ∀ (ms : List Make) (w w' : World), runMakes ms w = .ok w' →
    ∃ ss : List Obj, w'.view = w.view ∧ w'.heap = w.heap ++ ss ∧
      w'.reg = w.reg ++ (List.range ss.length).map (w.heap.length + ·) ∧
      List.Forall₂ (fun (m : Make) (s : Obj) => s.name = m.name ∧ s.kind = m.kind ∧ s.owned = m.owned ∧
        s.ghost = m.ghost) ms ss := by
  intro ms
  induction ms with
  | nil => intro w w' h; injection h with h; subst h; exact ⟨[], rfl, by simp, by simp, .nil⟩
  | cons m ms ih =>
    intro w w' h
    simp only [runMakes] at h
    split at h
    · cases h
    · rename_i a w1 hm
      obtain ⟨s, -, rfl, h1, h2, h3, h4⟩ := makeMeshset_name hm
      obtain ⟨ss, k1, k2, k3, k4⟩ := ih _ _ h
      refine ⟨s :: ss, k1.trans (withSet_view _ _ _), by rw [k2, withSet_heap]; simp, ?_, .cons ⟨h1, h2, h3, h4⟩ k4⟩
      rw [k3, withSet_heap, List.length_cons, List.range_succ_eq_map]
      simp only [withSet, Bool.false_eq_true, if_false, addSet, alloc]
      simp [List.map_map, Function.comp_def]
      intro i _
      omega

/-- **C35, histories.** After any history of sets made on a mesh without sets, `find_meshset(name, kind)` is the
first set made with that name and kind (set number `i` of the history), later sets of the same name and kind are never
found, and every set holds the owned and ghost lists it was made with. -/
theorem find_after_makes (w w' : World) (hw : w.heap = [] ∧ w.reg = []) (ms : List Make)
    (h : runMakes ms w = .ok w') (n : String) (k : EntityKind) :
    findMeshset w' n k = ms.findIdx? (fun m => decide (m.name = n ∧ m.kind = k)) ∧
    (∀ (i : Nat) (m : Make), ms[i]? = some m → ∃ s : Obj, w'.heap[i]? = some s ∧ s.name = m.name ∧ s.kind = m.kind ∧
      s.owned = m.owned ∧ s.ghost = m.ghost) ∧
    numSets w' .ANY_KIND = ms.length := by
  obtain ⟨ss, -, h2, h3, h4⟩ := runMakes_spec ms w w' h
  rw [hw.1, List.nil_append] at h2
  rw [hw.1, hw.2, List.nil_append] at h3
  have h3' : w'.reg = List.range ss.length := by
    rw [h3]; simp
  refine ⟨?_, ?_, ?_⟩
  · cases hfi : ms.findIdx? (fun m => decide (m.name = n ∧ m.kind = k)) with
    | none =>
      rw [(find_meshset_first w' n k).2]
      intro a _ ⟨s, hs, hn, hk⟩
      rw [h2] at hs
      obtain ⟨m, hm, hmn, hmk, -⟩ := forall2_mem_right h4 s (List.mem_of_getElem? hs)
      rw [List.findIdx?_eq_none_iff] at hfi
      have := hfi m hm
      simp only [decide_eq_false_iff_not] at this
      exact this ⟨hmn.symm.trans hn, hmk.symm.trans hk⟩
    | some i =>
      rw [List.findIdx?_eq_some_iff_getElem] at hfi
      obtain ⟨hi, hp, hj⟩ := hfi
      have hlen := h4.length_eq
      rw [(find_meshset_first w' n k).1]
      have hnamed : ∀ j (hjl : j < ms.length), Named w' j n k ↔ (ms[j].name = n ∧ ms[j].kind = k) := by
        intro j hjl
        have hjs : j < ss.length := by omega
        have := h4.get hjl hjs
        simp only [List.get_eq_getElem] at this
        constructor
        · rintro ⟨s, hs, hn, hk⟩
          rw [h2, List.getElem?_eq_getElem hjs] at hs
          injection hs with hs
          rw [← hs] at hn hk
          exact ⟨this.1.symm.trans hn, this.2.1.symm.trans hk⟩
        · rintro ⟨hn, hk⟩
          exact ⟨ss[j], by rw [h2, List.getElem?_eq_getElem hjs], this.1.trans hn, this.2.1.trans hk⟩
      refine ⟨i, ?_, ?_, ?_⟩
      · rw [h3', List.getElem?_range (by omega)]
      · rw [hnamed i hi]; simpa using hp
      · intro j a' hji ha' hn'
        rw [h3', List.getElem?_range (by omega)] at ha'
        injection ha' with ha'
        subst ha'
        rw [hnamed j (by omega)] at hn'
        have := hj j hji
        simp [hn'] at this
  · intro i m hm
    obtain ⟨hi, rfl⟩ := List.getElem?_eq_some_iff.1 hm
    have his : i < ss.length := by have := h4.length_eq; omega
    have := h4.get hi his
    exact ⟨ss[i], by rw [h2, List.getElem?_eq_getElem his], this⟩
  · simp only [numSets, if_true]
    rw [h3', List.length_range, h4.length_eq]

/-- three sets, the third shadowed by the first; the second has another kind -/
def exMakes : List Make :=
  [⟨"a", .CELL, [0, 1], [], true⟩, ⟨"a", .NODE, [2], [], false⟩, ⟨"a", .CELL, [3], [], true⟩]

example : ∃ w', runMakes exMakes exW = .ok w' ∧ findMeshset w' "a" .CELL = some 0 ∧
    findMeshset w' "a" .NODE = some 1 ∧ findMeshset w' "b" .CELL = none ∧
    getSetEntities w' "a" .CELL .ALL = [0, 1] ∧ numSets w' .CELL = 2 ∧ sets w' .CELL = [0, 2] := by
  refine ⟨_, rfl, ?_⟩
  decide +kernel

/-! ### C36 -/

/-- **C36 (partial).** The set of a region: if the region and its components exist and are not nested in a circle
(`Ready`), building the set succeeds, and the set has the region's name and the kind, holds exactly the entities that
belong to the region (union, intersection, difference or complement of the components, at any nesting depth),
each once, owned entities in OWNED and ghosts in GHOST. It is registered unless the logical region is temporary, in
which case it is not found later; no set that existed before is changed. Afterwards `find_meshset` finds, for a
registered set, a set with exactly the region's entities.

Missing against the full property: a union of a single component, a difference that names its first component again,
and complement with ghosts (`Sane`); these are false of the code, see below and C22. -/
theorem region_set_partial {g : Geo P K} {gm : List (Region P)} {w : World} {kind : EntityKind}
    {D : String → Nat → Prop} (hf : Fits g gm w kind) (hs : Sane gm w kind) (hm : Meaning g gm w kind D)
    (hi : InOrder gm w kind D) (d : Nat) (n : String) (hr : Ready g gm w kind d n) (b : Bool) :
    ∃ a w' s r, build g gm d w n kind b = .ok (some a, w') ∧ w'.heap[a]? = some s ∧ s.name = n ∧ s.kind = kind ∧
      (∀ e, e ∈ entities s .ALL ↔ D n e) ∧ (entities s .ALL).Nodup ∧
      (∀ e, e ∈ entities s .PARALLEL_OWNED ↔ D n e ∧ (w.view kind).typeOf e = .PARALLEL_OWNED) ∧
      (∀ e, e ∈ entities s .PARALLEL_GHOST ↔ D n e ∧ (w.view kind).typeOf e = .PARALLEL_GHOST) ∧
      findRegion gm n = some r ∧ (a ∈ w'.reg ↔ (r.type = .LOGICAL → r.temporary = false)) ∧
      w.heap <+: w'.heap ∧ w.reg <+: w'.reg ∧ InOrder gm w' kind D ∧
      (a ∈ w'.reg → ∃ a' s', findMeshset w' n kind = some a' ∧ w'.heap[a']? = some s' ∧
        ∀ e, e ∈ entities s' .ALL ↔ D n e) := by
  obtain ⟨a, w', hb⟩ := build_total (b := b) hr w rfl hf hs hm hi
  obtain ⟨j1, j2, s, j3, j4, j5, j6, j7, j8, r, j9, j10⟩ := build_ok d w n a w' hf hs hm hi hb
  refine ⟨a, w', s, r, hb, j3, j4, j5, j7, j6.nodup, fun e => ?_, fun e => ?_, j9, ?_, j1.heap, j1.reg, j2, ?_⟩
  · show e ∈ s.owned ↔ _
    rw [← j7, Proper.mem_all j6]
    constructor
    · intro h; exact ⟨Or.inl h, j6.owned_type e h⟩
    · rintro ⟨h | h, ht⟩
      · exact h
      · rw [j6.ghost_type e h] at ht; cases ht
  · show e ∈ s.ghost ↔ _
    rw [← j7, Proper.mem_all j6]
    constructor
    · intro h; exact ⟨Or.inr h, j6.ghost_type e h⟩
    · rintro ⟨h | h, ht⟩
      · rw [j6.owned_type e h] at ht; cases ht
      · exact h
  · rw [j10]
    by_cases ht : r.type = .LOGICAL <;> simp [ht]
  · intro ha
    cases hfm : findMeshset w' n kind with
    | none =>
      exact absurd ⟨s, j3, j4, j5⟩ ((find_meshset_first w' n kind).2.1 hfm a ha)
    | some a' =>
      obtain ⟨hreg, s', hs', hn', hk'⟩ := findMeshset_some hfm
      have := j2.holds a' hreg s' hs' hk' ⟨r, by rw [hn']; exact j9⟩
      rw [hn'] at this
      exact ⟨a', s', rfl, hs', this⟩

/-- regions for the example: boxes 0–1 and 1–2, their union, and that without the box 1–2 -/
def exGm : List (Region Nat) :=
  [exLog "S" .SUBTRACT ["U", "B"], exBox "A" 0 1, exBox "B" 1 2, exLog "U" .UNION ["A", "B"]]

/-- what the example regions mean -/
def exD (n : String) (e : Nat) : Prop :=
  (n = "A" ∧ e ≤ 1) ∨ (n = "B" ∧ 1 ≤ e ∧ e ≤ 2) ∨ (n = "U" ∧ e ≤ 2) ∨ (n = "S" ∧ e = 0)

theorem exV_ownedFirst : (∀ e, exV.typeOf e = .PARALLEL_OWNED ↔ e < exV.nOwned) ∧
    (∀ e, exV.typeOf e = .PARALLEL_GHOST ↔ exV.nOwned ≤ e ∧ e < exV.nAll) := by
  refine ⟨fun e => ?_, fun e => ?_⟩
  · simp only [exV]; split <;> simp <;> omega
  · simp only [exV, MeshView.nAll]; split <;> simp <;> omega

theorem exGm_cases {n : String} {r : Region Nat} (h : findRegion exGm n = some r) :
    (n = "S" ∧ r = exLog "S" .SUBTRACT ["U", "B"]) ∨ (n = "A" ∧ r = exBox "A" 0 1) ∨
    (n = "B" ∧ r = exBox "B" 1 2) ∨ (n = "U" ∧ r = exLog "U" .UNION ["A", "B"]) := by
  obtain ⟨h1, h2⟩ := findRegion_mem h
  simp only [exGm, List.mem_cons, List.not_mem_nil, or_false] at h1
  rcases h1 with rfl | rfl | rfl | rfl <;> simp only [exLog, exBox] at h2 <;> subst h2 <;> simp [exLog, exBox]

theorem exGm_fits : Fits exG exGm exW .CELL := by
  refine ⟨exV_ownedFirst, fun _ n => ?_, fun r hr ht => ?_⟩
  · simp only [exG, exW, exV, MeshView.nAll]
    split <;> simp
    omega
  · simp only [exGm, List.mem_cons, List.not_mem_nil, or_false] at hr
    rcases hr with rfl | rfl | rfl | rfl <;> simp [exLog, exBox] at ht

theorem exGm_sane : Sane exGm exW .CELL := by
  refine ⟨?_, ?_, ?_⟩ <;> intro r hr <;>
    simp only [exGm, List.mem_cons, List.not_mem_nil, or_false] at hr <;>
    rcases hr with rfl | rfl | rfl | rfl <;> simp [exLog, exBox]

theorem exGm_meaning : Meaning exG exGm exW .CELL exD := by
  refine ⟨?_, ?_, ?_, ?_, ?_⟩
  · intro n r hr ht hop e
    rcases exGm_cases hr with ⟨rfl, rfl⟩ | ⟨rfl, rfl⟩ | ⟨rfl, rfl⟩ | ⟨rfl, rfl⟩ <;> simp [exLog, exBox] at ht hop
    simp [exLog, exD]; omega
  · intro n r hr ht hop e
    rcases exGm_cases hr with ⟨rfl, rfl⟩ | ⟨rfl, rfl⟩ | ⟨rfl, rfl⟩ | ⟨rfl, rfl⟩ <;> simp [exLog, exBox] at ht hop
  · intro n r c cs hr ht hop hc e
    rcases exGm_cases hr with ⟨rfl, rfl⟩ | ⟨rfl, rfl⟩ | ⟨rfl, rfl⟩ | ⟨rfl, rfl⟩ <;> simp [exLog, exBox] at ht hop
    simp only [exLog, List.cons.injEq] at hc
    obtain ⟨rfl, rfl⟩ := hc
    simp [exD]; omega
  · intro n r hr ht hop e
    rcases exGm_cases hr with ⟨rfl, rfl⟩ | ⟨rfl, rfl⟩ | ⟨rfl, rfl⟩ | ⟨rfl, rfl⟩ <;> simp [exLog, exBox] at ht hop
  · intro n r o h hr ht hl e
    rcases exGm_cases hr with ⟨rfl, rfl⟩ | ⟨rfl, rfl⟩ | ⟨rfl, rfl⟩ | ⟨rfl, rfl⟩ <;> simp [exLog, exBox] at ht <;>
      simp [regionLists, cellLists, exBox, exW, exV, exG] at hl <;> obtain ⟨rfl, rfl⟩ := hl <;>
      simp [exD] <;> omega

theorem exGm_inOrder : InOrder exGm exW .CELL exD :=
  ⟨(fun a ha => by cases ha), (fun s hs => by cases hs), (fun a ha => by cases ha)⟩

theorem exGm_ready : Ready exG exGm exW .CELL 2 "S" := by
  have hA : ∀ d, Ready exG exGm exW .CELL d "A" := fun d =>
    .prim d "A" (exBox "A" 0 1) _ rfl (by simp [exBox]) rfl
  have hB : ∀ d, Ready exG exGm exW .CELL d "B" := fun d =>
    .prim d "B" (exBox "B" 1 2) _ rfl (by simp [exBox]) rfl
  have hU : Ready exG exGm exW .CELL 1 "U" :=
    .logical 0 "U" (exLog "U" .UNION ["A", "B"]) rfl rfl (by simp [exLog]) (by simp [exLog]) (by simp [exLog])
      (by simp [exLog, hA, hB])
  exact .logical 1 "S" (exLog "S" .SUBTRACT ["U", "B"]) rfl rfl (by simp [exLog]) (by simp [exLog]) (by simp [exLog])
      (by simp [exLog, hU, hB])

/-- the hypotheses of `region_set_partial` are met: the nested region S = (A ∪ B) \ B holds cell 0 -/
example : ∃ a w' s r, build exG exGm 2 exW "S" .CELL true = .ok (some a, w') ∧ w'.heap[a]? = some s ∧
    findRegion exGm "S" = some r ∧ a ∈ w'.reg ∧ (∀ e, e ∈ entities s .ALL ↔ e = 0) := by
  obtain ⟨a, w', s, r, h1, h2, -, -, h3, -, -, -, h4, h5, -⟩ :=
    region_set_partial exGm_fits exGm_sane exGm_meaning exGm_inOrder 2 "S" exGm_ready true
  refine ⟨a, w', s, r, h1, h2, h4, ?_, fun e => (h3 e).trans (by simp [exD])⟩
  rw [h5]
  rcases exGm_cases h4 with ⟨-, rfl⟩ | ⟨h, -⟩ | ⟨h, -⟩ | ⟨h, -⟩
  · exact fun _ => rfl
  all_goals simp at h

theorem logical_none {g : Geo P K} {w : World} {kind : EntityKind} {r : Region P} (h : r.type = .LOGICAL) :
    regionLists g w kind r = .ok none := by
  cases kind <;> simp [regionLists, cellLists, faceLists, nodeLists, h]

theorem components_found {g : Geo P K} {gm : List (Region P)} {w : World} {kind : EntityKind} {b : Bool} {d : Nat} :
    ∀ {ns : List String} {as : List Nat},
      List.Forall₂ (fun c a => (∃ rc, findRegion gm c = some rc) ∧ findMeshset w c kind = some a) ns as →
      components g gm d w kind b ns = .ok (as, w) := by
  intro ns as h
  induction h with
  | nil => rfl
  | cons hr _ ih =>
    obtain ⟨⟨rc, hrc⟩, hf⟩ := hr
    rw [components_cons]
    simp only [hrc, hf, ih]

/-- **C36, negation.** A union of a single component: if the component's set exists, the call makes no new set but
returns the component's own set under the new name; when no other set has the component's name, `find_meshset` no
longer finds the component afterwards. -/
theorem union_of_one_takes_over (g : Geo P K) (gm : List (Region P)) (w : World) (kind : EntityKind) (b : Bool)
    (d : Nat) (n c : String) (r rc : Region P) (a : Nat) (hr : findRegion gm n = some r) (ht : r.type = .LOGICAL)
    (hop : r.op = .UNION) (hc : r.comps = [c]) (hrc : findRegion gm c = some rc)
    (ha : findMeshset w c kind = some a) (hnc : n ≠ c) :
    ∃ w', build g gm (d + 1) w n kind b = .ok (some a, w') ∧ w'.heap.length = w.heap.length ∧
      Named w' a n kind ∧
      ((∀ a' ∈ w.reg, Named w a' c kind → a' = a) → findMeshset w' c kind = none) := by
  obtain ⟨hreg, s, hs, hsn, hsk⟩ := findMeshset_some ha
  have hcomp : components g gm d w kind b r.comps = .ok ([a], w) := by
    rw [hc]; exact components_found (.cons ⟨⟨rc, hrc⟩, ha⟩ .nil)
  have hptr : ptrs w [a] = .ok [⟨a, s⟩] := by simp only [ptrs, hs]
  have hcb : combine w r n kind [a] = .ok (a, setName w a n) := by
    simp only [combine, hptr, List.all_cons, List.all_nil, Bool.and_true, hsk, decide_true, if_true, applyOp, hop,
      merge, liftSet, finish]
  have hget : ∀ a', (setName w a n).heap[a']? = if a' = a then some { s with name := n } else w.heap[a']? := by
    intro a'
    simp only [setName, List.getElem?_modify]
    by_cases h : a' = a
    · subst h; simp [hs]
    · have h2 : ¬ a = a' := fun h' => h h'.symm
      simp [h, h2]
  refine ⟨setName w a n, ?_, by simp [setName], ⟨{ s with name := n }, by rw [hget]; simp, rfl, hsk⟩, ?_⟩
  · rw [build_succ]
    simp only [hr, logical_none ht, ht, if_true, hcomp, hcb]
  · intro honly
    rw [(find_meshset_first _ _ _).2]
    rintro a' ha' ⟨s', hs', hn', hk'⟩
    rw [hget] at hs'
    by_cases h : a' = a
    · rw [if_pos h] at hs'
      injection hs' with hs'
      rw [← hs'] at hn'
      exact hnc hn'
    · rw [if_neg h] at hs'
      exact h (honly a' ha' ⟨s', hs', hn', hk'⟩)

/-- regions: box A and a union of A alone -/
def exGm1 : List (Region Nat) := [exBox "A" 0 1, exLog "L" .UNION ["A"]]

/-- the set A is made first and found; after making L it is not found any more -/
example : ∃ a w1 w2, build exG exGm1 1 exW "A" .CELL true = .ok (some a, w1) ∧
    findMeshset w1 "A" .CELL = some a ∧ build exG exGm1 1 w1 "L" .CELL true = .ok (some a, w2) ∧
    findMeshset w2 "L" .CELL = some a ∧ findMeshset w2 "A" .CELL = none :=
  ⟨0, _, _, rfl, rfl, rfl, rfl, rfl⟩

theorem ptrs_found {gm : List (Region P)} {w : World} {kind : EntityKind} {ns : List String} {as : List Nat}
    (hc : List.Forall₂ (fun c a => (∃ rc, findRegion gm c = some rc) ∧ findMeshset w c kind = some a) ns as) :
    ∃ ps, ptrs w as = .ok ps ∧ ∀ p ∈ ps, p.obj.kind = kind := by
  induction hc with
  | nil => exact ⟨[], rfl, by simp⟩
  | cons h _ ih =>
    obtain ⟨-, s, hs, -, hk⟩ := findMeshset_some h.2
    obtain ⟨ps, hps, hkps⟩ := ih
    refine ⟨_, by simp only [ptrs, hs, hps]; rfl, ?_⟩
    simp only [List.mem_cons, forall_eq_or_imp]
    exact ⟨hk, hkps⟩

/-- **C36, negation.** A logical region without an operation dereferences a null pointer, whatever its
components. -/
theorem no_operation_undefined (g : Geo P K) (gm : List (Region P)) (w : World) (kind : EntityKind) (b : Bool)
    (d : Nat) (n : String) (r : Region P) (as : List Nat) (hr : findRegion gm n = some r) (ht : r.type = .LOGICAL)
    (hop : r.op = .NOBOOLEAN)
    (hc : List.Forall₂ (fun c a => (∃ rc, findRegion gm c = some rc) ∧ findMeshset w c kind = some a) r.comps as) :
    build g gm (d + 1) w n kind b = .error .undefinedBehaviour := by
  obtain ⟨ps, hps, hk⟩ := ptrs_found hc
  have hall : (ps.all fun p => decide (p.obj.kind = kind)) = true := by simpa using hk
  have hcb : combine w r n kind as = .error .undefinedBehaviour := by
    simp only [combine, hps]
    rw [if_pos hall]
    simp only [applyOp, hop]
  rw [build_succ]
  simp only [hr, logical_none ht, ht, if_true, components_found hc, hcb]

example : ∃ w1, build exG [exBox "A" 0 1, exLog "L" .NOBOOLEAN ["A"]] 1 exW "A" .CELL true = .ok (some 0, w1) ∧
    findMeshset w1 "A" .CELL = some 0 ∧
    build exG [exBox "A" 0 1, exLog "L" .NOBOOLEAN ["A"]] 1 w1 "L" .CELL true = .error .undefinedBehaviour :=
  ⟨_, rfl, rfl, rfl⟩

/-- **C36, negation.** The difference of a region and itself is not the empty set: the call fails an
assertion. -/
theorem difference_with_itself_aborts (g : Geo P K) (gm : List (Region P)) (w : World) (kind : EntityKind) (b : Bool)
    (d : Nat) (n c : String) (r rc : Region P) (a : Nat) (hr : findRegion gm n = some r) (ht : r.type = .LOGICAL)
    (hop : r.op = .SUBTRACT) (hc : r.comps = [c, c]) (hrc : findRegion gm c = some rc)
    (ha : findMeshset w c kind = some a) :
    build g gm (d + 1) w n kind b = .error (.set .assertFailed) := by
  obtain ⟨hreg, s, hs, hsn, hsk⟩ := findMeshset_some ha
  have hcomp : components g gm d w kind b r.comps = .ok ([a, a], w) := by
    rw [hc]; exact components_found (.cons ⟨⟨rc, hrc⟩, ha⟩ (.cons ⟨⟨rc, hrc⟩, ha⟩ .nil))
  have hptr : ptrs w [a, a] = .ok [⟨a, s⟩, ⟨a, s⟩] := by simp only [ptrs, hs]
  have hcb : combine w r n kind [a, a] = .error (.set .assertFailed) := by
    simp only [combine, hptr, List.all_cons, List.all_nil, Bool.and_true, hsk, decide_true, if_true, applyOp, hop]
    simp [others, subtract, compatible, merge, liftSet]
  rw [build_succ]
  simp only [hr, logical_none ht, ht, if_true, hcomp, hcb]

/-- **C36, negation.** A difference that names its first component again ignores it: A \ (B ∪ A) holds cell 0 instead
of nothing. -/
theorem difference_ignores_first_again :
    ∃ a w' s, build exG [exBox "A" 0 1, exBox "B" 1 2, exLog "S" .SUBTRACT ["A", "B", "A"]] 1 exW "S" .CELL true =
      .ok (some a, w') ∧ w'.heap[a]? = some s ∧ entities s .ALL = [0] :=
  ⟨2, _, _, rfl, rfl, rfl⟩

/-- **C36, temporary regions.** A temporary logical region gives a set that `find_meshset` does not find. -/
example : ∃ a w' s, build exG [exBox "A" 0 1, exBox "B" 1 2, exLog "T" .UNION ["A", "B"] true] 1 exW "T" .CELL true =
    .ok (some a, w') ∧ w'.heap[a]? = some s ∧ entities s .ALL = [0, 1, 2] ∧ findMeshset w' "T" .CELL = none :=
  ⟨2, _, _, rfl, rfl, rfl, rfl⟩

/-! ### C73 -/

theorem mem_split {v : MeshView} {es : List Nat} {e : Nat} :
    (e ∈ (splitByType v es).1 ↔ e ∈ es ∧ v.typeOf e = .PARALLEL_OWNED) ∧
    (e ∈ (splitByType v es).2 ↔ e ∈ es ∧ v.typeOf e = .PARALLEL_GHOST) := by
  simp [splitByType]

theorem inRegion_lists {g : Geo P K} {gm : List (Region P)} {w : World} {kind : EntityKind} {r : Region P}
    (hf : Fits g gm w kind) (hp : Positional kind r.type = true) :
    ∃ o h, regionLists g w kind r = .ok (some (o, h)) ∧ ∀ e, (e ∈ o ∨ e ∈ h) ↔ InRegion g w kind r e := by
  have hty : ∀ e, e < (w.view kind).nAll →
      (w.view kind).typeOf e = .PARALLEL_OWNED ∨ (w.view kind).typeOf e = .PARALLEL_GHOST := by
    intro e he
    by_cases h : e < (w.view kind).nOwned
    · exact Or.inl ((hf.ownedFirst.1 e).2 h)
    · exact Or.inr ((hf.ownedFirst.2 e).2 ⟨by omega, he⟩)
  have hsplit : ∀ (p : Nat → Bool) (e : Nat),
      (e ∈ (splitByType (w.view kind) ((List.range (w.view kind).nAll).filter p)).1 ∨
       e ∈ (splitByType (w.view kind) ((List.range (w.view kind).nAll).filter p)).2) ↔
      e < (w.view kind).nAll ∧ p e = true := by
    intro p e
    rw [mem_split.1, mem_split.2, List.mem_filter, List.mem_range]
    constructor
    · rintro (h | h) <;> exact h.1
    · intro h
      rcases hty e h.1 with h' | h'
      exacts [Or.inl ⟨h, h'⟩, Or.inr ⟨h, h'⟩]
  unfold Positional at hp
  split at hp <;> rename_i ht
  · refine ⟨_, _, by simp only [regionLists, cellLists, ht]; rfl, fun e => ?_⟩
    simp only [InRegion, ht, List.mem_filter, List.mem_range, List.mem_map, MeshView.nAll]
    constructor
    · rintro (⟨h1, h2⟩ | ⟨⟨i, hi, rfl⟩, h2⟩)
      exacts [⟨by omega, h2⟩, ⟨by omega, h2⟩]
    · rintro ⟨h1, h2⟩
      by_cases h : e < (w.view .CELL).nOwned
      · exact Or.inl ⟨h, h2⟩
      · exact Or.inr ⟨⟨e - (w.view .CELL).nOwned, by omega, by omega⟩, h2⟩
  · by_cases hd : g.celldim = 2
    · refine ⟨_, _, by simp only [regionLists, cellLists, ht, hd, if_true]; rfl, fun e => ?_⟩
      refine (hsplit _ e).trans ?_
      simp [InRegion, ht, hd]
    · refine ⟨_, _, by simp only [regionLists, cellLists, ht]; rw [if_neg hd], fun e => ?_⟩
      simp [InRegion, ht, hd]
  all_goals first
    | exact absurd hp (by decide)
    | (refine ⟨_, _, by simp only [regionLists, faceLists, nodeLists, ht]; rfl, fun e => ?_⟩
       refine (hsplit _ e).trans ?_
       simp [InRegion, ht])

/-- **C73.** The set made for a box, plane or polygon region holds exactly the entities located in the region: cells
and faces with centroid in the box, nodes in the region, faces (and cells of a surface or plane mesh) with all
corners on the plane or in the polygon; owned ones in OWNED, ghosts in GHOST, each once; the set is registered and
nothing else changes. -/
theorem region_set_exact {g : Geo P K} {gm : List (Region P)} {w : World} {kind : EntityKind} {r : Region P}
    (hf : Fits g gm w kind) (n : String) (hr : findRegion gm n = some r) (hp : Positional kind r.type = true)
    (d : Nat) (b : Bool) :
    ∃ w' s, build g gm d w n kind b = .ok (some w.heap.length, w') ∧
      w'.heap = w.heap ++ [s] ∧ w'.reg = w.reg ++ [w.heap.length] ∧ s.name = n ∧ s.kind = kind ∧
      (∀ e, e ∈ entities s .ALL ↔ InRegion g w kind r e) ∧ (entities s .ALL).Nodup ∧
      entities s .ALL = entities s .PARALLEL_OWNED ++ entities s .PARALLEL_GHOST ∧
      (∀ e ∈ entities s .PARALLEL_OWNED, (w.view kind).typeOf e = .PARALLEL_OWNED) ∧
      (∀ e ∈ entities s .PARALLEL_GHOST, (w.view kind).typeOf e = .PARALLEL_GHOST) ∧
      (b = true → IndexExact (w.view kind) s) := by
  obtain ⟨o, h, hl, hmem⟩ := inRegion_lists hf hp
  obtain ⟨g1, g2, g3, g4⟩ := regionLists_good hf (findRegion_mem hr).1 hl
  obtain ⟨s, hmk, m1, m2, m3, m4, m5, m6, m7⟩ := makeMeshset_ok (n := n) (b := b) g1 g2 g3 g4
  refine ⟨withSet w s false, s, ?_, withSet_heap _ _ _, rfl, m1, m2, fun e => ?_, m6.nodup, m6.all_eq,
    m6.owned_type, m6.ghost_type, m7⟩
  · cases d <;> rw [build] <;> simp only [hr, hl, hmk]
  · show e ∈ s.all ↔ _
    rw [Proper.mem_all m6, m4, m5]; exact hmem e

example : ∃ w' s, build exG exGm 0 exW "B" .CELL true = .ok (some 0, w') ∧ w'.heap = [s] ∧
    entities s .ALL = [1, 2] := ⟨_, _, rfl, rfl, rfl⟩

example : Positional .CELL (exBox "B" 1 2).type = true ∧ findRegion exGm "B" = some (exBox "B" 1 2) := ⟨rfl, rfl⟩

end Jali.Reg
