import Verif.Proof.MeshSet
/-! Property theorems C18 – C24: mesh sets. -/
namespace Jali.MSet

/-- Five entities, the last two ghosts: mesh for the examples and the counterexamples. -/
def exMesh : MeshView where
  typeOf e := if e < 3 then .PARALLEL_OWNED else if e < 5 then .PARALLEL_GHOST else .TYPE_UNKNOWN
  nOwned := 3
  nGhost := 2

/-- Set with owned 0, 1 and ghost 3, with index storage. -/
def exSet : Obj := ⟨"s", 0, .CELL, [0, 1], [3], [0, 1, 3], true, [0, 1, -1, 2, -1]⟩

theorem exSet_proper : Proper exMesh exSet := by
  refine ⟨rfl, by decide, by decide, by decide, by decide, by decide⟩

theorem exSet_built : construct exMesh "s" 0 .CELL [0, 1] [3] true = .ok exSet := by decide

/-- **C18.** A set constructed from lists of entities of the mesh reports exactly these lists; ALL is OWNED followed
by GHOST; the counts are the lengths; if the lists have no repetition, `index_in_set` is the position in
ALL, or -1 for entities not in the set (always -1 without index storage). -/
theorem construct_lists_and_index (m : MeshView) (name : String) (mesh : Nat) (kind : EntityKind)
    (owned ghost : List Nat) (b : Bool) (hb : ∀ e ∈ owned ++ ghost, e < m.nAll)
    (hn : (owned ++ ghost).Nodup) :
    ∃ s, construct m name mesh kind owned ghost b = .ok s ∧
      entities s .PARALLEL_OWNED = owned ∧ entities s .PARALLEL_GHOST = ghost ∧
      entities s .ALL = owned ++ ghost ∧ (∀ t, numEntities s t = (entities s t).length) ∧
      s.name = name ∧ s.kind = kind ∧ s.mesh = mesh ∧
      ∀ e, e < m.nAll → indexInSet s e = .ok (if b then posOrNeg (owned ++ ghost) e else -1) := by
  obtain ⟨map, h1, h2, h3⟩ := construct_ok m name mesh kind owned ghost b hb hn
  refine ⟨_, h1, rfl, rfl, rfl, fun t => by cases t <;> rfl, rfl, rfl, rfl, fun e he => ?_⟩
  cases b with
  | false => simp at h2; subst h2; simp [indexInSet]
  | true => exact indexInSet_eq (h3 rfl e he)

example : ∃ s, construct exMesh "s" 0 .CELL [2, 0] [4] true = .ok s ∧ indexInSet s 4 = .ok 2 ∧
    indexInSet s 1 = .ok (-1) := by
  obtain ⟨s, h, -, -, -, -, -, -, -, hi⟩ := construct_lists_and_index exMesh "s" 0 .CELL [2, 0] [4] true
    (by decide) (by decide)
  exact ⟨s, h, by rw [hi 4 (by decide)]; decide, by rw [hi 1 (by decide)]; decide⟩

/-- C18, boundary of the domain: with index storage, an entity outside the mesh makes the constructor write out of
bounds. -/
theorem construct_out_of_range (m : MeshView) (name : String) (mesh : Nat) (kind : EntityKind) (e : Nat)
    (rest : List Nat) (he : m.nAll ≤ e) :
    construct m name mesh kind (e :: rest) [] true = .error .undefinedBehaviour := by
  simp [construct, List.range_succ_eq_map, indexLoop, writeMap, Nat.not_lt.2 he]

example : exMesh.nAll ≤ 5 := by decide

/-- What the inputs of the set operations have to satisfy: pointers to sets with proper lists, and equal addresses
mean the same object. -/
structure GoodInputs (m : MeshView) (ps : List Ptr) : Prop where
  proper : ∀ p ∈ ps, Proper m p.obj
  addr : ∀ p ∈ ps, ∀ q ∈ ps, p.addr = q.addr → p = q

/-- all inputs belong to one mesh and have one kind -/
def OneKind (ps : List Ptr) : Prop :=
  ∀ p ∈ ps, ∀ q ∈ ps, p.obj.mesh = q.obj.mesh ∧ p.obj.kind = q.obj.kind

theorem mem_others {p0 : Ptr} {ps : List Ptr} {p : Ptr} :
    p ∈ others p0 ps ↔ p ∈ ps ∧ p.addr ≠ p0.addr := by simp [others]

theorem exists_others {m : MeshView} {p0 : Ptr} {rest : List Ptr} (h : GoodInputs m (p0 :: rest))
    (P : Ptr → Prop) : (P p0 ∨ ∃ p ∈ others p0 (p0 :: rest), P p) ↔ ∃ p ∈ p0 :: rest, P p := by
  constructor
  · rintro (h' | ⟨p, hp, hP⟩)
    · exact ⟨p0, by simp, h'⟩
    · exact ⟨p, (mem_others.1 hp).1, hP⟩
  · rintro ⟨p, hp, hP⟩
    by_cases e : p.addr = p0.addr
    · left; rw [← h.addr p hp p0 (by simp) e]; exact hP
    · exact Or.inr ⟨p, mem_others.2 ⟨hp, e⟩, hP⟩

/-- **C19.** Union. For any nonempty list of sets of one mesh and kind, `merge` succeeds; the result's OWNED (GHOST)
list contains exactly the entities that are in the OWNED (GHOST) list of at least one input, each once, ALL is
OWNED followed by GHOST, and the result has a right index when the first input has index storage. -/
theorem merge_is_union (m : MeshView) (p0 : Ptr) (rest : List Ptr) (h : GoodInputs m (p0 :: rest))
    (hk : OneKind (p0 :: rest)) :
    ∃ o, merge m (p0 :: rest) = .ok o ∧ Proper m o.obj ∧
      (∀ e, e ∈ entities o.obj .PARALLEL_OWNED ↔ ∃ p ∈ p0 :: rest, e ∈ entities p.obj .PARALLEL_OWNED) ∧
      (∀ e, e ∈ entities o.obj .PARALLEL_GHOST ↔ ∃ p ∈ p0 :: rest, e ∈ entities p.obj .PARALLEL_GHOST) ∧
      o.obj.kind = p0.obj.kind ∧ o.obj.mesh = p0.obj.mesh ∧
      (rest ≠ [] → p0.obj.haveMap = true → IndexExact m o.obj) := by
  have h0 := h.proper p0 (by simp)
  match rest, h, hk with
  | [], h, hk =>
    exact ⟨.same p0, rfl, h0, by simp [Out.obj], by simp [Out.obj], rfl, rfl, fun hh => absurd rfl hh⟩
  | p1 :: rest, h, hk =>
    obtain ⟨hno, hng⟩ := h0.loose.nodups
    obtain ⟨o1, o2⟩ := foldl_pushNew (fun p => p.obj.owned) (others p0 (p0 :: p1 :: rest)) _ hno
    obtain ⟨g1, g2⟩ := foldl_pushNew (fun p => p.obj.ghost) (others p0 (p0 :: p1 :: rest)) _ hng
    have ho : ∀ e, e ∈ _ ↔ _ := fun e => (o2 e).trans (exists_others h fun p => e ∈ p.obj.owned)
    have hg : ∀ e, e ∈ _ ↔ _ := fun e => (g2 e).trans (exists_others h fun p => e ∈ p.obj.ghost)
    have hcomp : compatible p0 (others p0 (p0 :: p1 :: rest)) = true := by
      simp only [compatible, List.all_eq_true, Bool.and_eq_true, decide_eq_true_eq]
      intro p hp
      exact hk p (mem_others.1 hp).1 p0 (by simp)
    unfold merge
    simp only [hcomp, if_true]
    obtain ⟨s, hc, so, sg, sp, si⟩ := construct_proper (m := m)
      (name := (others p0 (p0 :: p1 :: rest)).foldl (fun acc p => acc ++ "_PLUS_(" ++ p.obj.name ++ ")")
        ("(" ++ p0.obj.name ++ ")")) (mesh := p0.obj.mesh) (kind := p0.obj.kind)
      (decide (p0.obj.map.length ≠ 0)) o1 g1
      (fun e he => by obtain ⟨p, hp, hpe⟩ := (ho e).1 he; exact (h.proper p hp).typed.1 e hpe)
      (fun e he => by obtain ⟨p, hp, hpe⟩ := (hg e).1 he; exact (h.proper p hp).typed.2 e hpe)
    rw [hc]
    refine ⟨.fresh s, rfl, sp, fun e => ?_, fun e => ?_, ?_, ?_, fun _ hm => ?_⟩
    · show e ∈ s.owned ↔ _; rw [so]; exact ho e
    · show e ∈ s.ghost ↔ _; rw [sg]; exact hg e
    · exact (construct_fields hc).1
    · exact (construct_fields hc).2.1
    · by_cases hz : m.nAll = 0
      · intro e he; omega
      · exact si (by simp only [decide_eq_true_eq]; rw [h0.map_len, if_pos hm]; exact hz)

/-- C19, errors: no inputs, or inputs of different meshes or kinds, fail an assertion. -/
theorem merge_rejects (m : MeshView) :
    merge m [] = .error .assertFailed ∧
    ∀ p0 p1 rest, (∃ p ∈ p1 :: rest, p.addr ≠ p0.addr ∧ (p.obj.mesh ≠ p0.obj.mesh ∨ p.obj.kind ≠ p0.obj.kind)) →
      merge m (p0 :: p1 :: rest) = .error .assertFailed := by
  refine ⟨rfl, fun p0 p1 rest ⟨p, hp, ha, hd⟩ => ?_⟩
  have : compatible p0 (others p0 (p0 :: p1 :: rest)) = false := by
    rw [Bool.eq_false_iff]
    intro h
    simp only [compatible, List.all_eq_true, Bool.and_eq_true, decide_eq_true_eq] at h
    have := h p (mem_others.2 ⟨by simp only [List.mem_cons] at hp ⊢; tauto, ha⟩)
    rcases hd with hd | hd
    exacts [hd this.1, hd this.2]
  unfold merge
  simp [this]

/-- inputs for the examples: `exSet` and a set with owned 2, 1 and ghosts 4, 3 -/
def exSet2 : Obj := ⟨"t", 0, .CELL, [2, 1], [4, 3], [2, 1, 4, 3], false, []⟩

theorem exInputs : GoodInputs exMesh [⟨10, exSet⟩, ⟨11, exSet2⟩] ∧ OneKind [⟨10, exSet⟩, ⟨11, exSet2⟩] := by
  refine ⟨⟨?_, ?_⟩, ?_⟩
  · intro p hp
    simp only [List.mem_cons, List.not_mem_nil, or_false] at hp
    rcases hp with rfl | rfl
    · exact exSet_proper
    · exact ⟨rfl, by decide, by decide, by decide, by decide, by decide⟩
  · intro p hp q hq h
    simp only [List.mem_cons, List.not_mem_nil, or_false] at hp hq
    rcases hp with rfl | rfl <;> rcases hq with rfl | rfl <;> first | rfl | (simp at h)
  · intro p hp q hq
    simp only [List.mem_cons, List.not_mem_nil, or_false] at hp hq
    rcases hp with rfl | rfl <;> rcases hq with rfl | rfl <;> exact ⟨rfl, rfl⟩

example : ∃ o, merge exMesh [⟨10, exSet⟩, ⟨11, exSet2⟩] = .ok o ∧ o.obj.all = [0, 1, 2, 3, 4] ∧
    o.obj.name = "(s)_PLUS_(t)" := ⟨_, rfl, by decide, by decide⟩

/-- **C20.** Difference. `subtract(s0, sets)` with at least one set to subtract contains exactly the entities of `s0`
that are in none of the sets, in the order they have in `s0`; with none to subtract an assertion
fails. -/
theorem subtract_is_difference (m : MeshView) (p0 q : Ptr) (qs : List Ptr) (h0 : Proper m p0.obj)
    (h : GoodInputs m (q :: qs)) (hk : OneKind (p0 :: q :: qs)) :
    (∃ o, subtract m p0 (q :: qs) = .ok o ∧ Proper m o.obj ∧
      entities o.obj .PARALLEL_OWNED = (entities p0.obj .PARALLEL_OWNED).filter
        (fun e => decide (∀ p ∈ q :: qs, e ∉ entities p.obj .PARALLEL_OWNED)) ∧
      entities o.obj .PARALLEL_GHOST = (entities p0.obj .PARALLEL_GHOST).filter
        (fun e => decide (∀ p ∈ q :: qs, e ∉ entities p.obj .PARALLEL_GHOST)) ∧
      (p0.obj.haveMap = true → IndexExact m o.obj)) ∧
    subtract m p0 [] = .error .assertFailed := by
  refine ⟨?_, rfl⟩
  obtain ⟨u, hu, up, uo, ug, -⟩ := merge_is_union m q qs h
    (fun a ha b hb => hk a (List.mem_cons_of_mem _ ha) b (List.mem_cons_of_mem _ hb))
  obtain ⟨hno, hng⟩ := h0.loose.nodups
  have hcomp : compatible p0 (q :: qs) = true := by
    simp only [compatible, List.all_eq_true, Bool.and_eq_true, decide_eq_true_eq]
    intro p hp
    exact hk p (List.mem_cons_of_mem _ hp) p0 (by simp)
  obtain ⟨s, hc, so, sg, sp, si⟩ := construct_proper (m := m)
    (name := "(" ++ p0.obj.name ++ ")_MINUS_(" ++ u.obj.name ++ ")") (mesh := p0.obj.mesh)
    (kind := p0.obj.kind) (decide (p0.obj.map.length ≠ 0)) (hno.filter fun e => decide (e ∉ u.obj.owned))
    (hng.filter fun e => decide (e ∉ u.obj.ghost))
    (fun e he => h0.typed.1 e (List.mem_filter.1 he).1) (fun e he => h0.typed.2 e (List.mem_filter.1 he).1)
  refine ⟨.fresh s, ?_, sp, ?_, ?_, fun hm => ?_⟩
  · unfold subtract
    simp only [hcomp, if_true, hu, hc]
  · show s.owned = _
    rw [so]
    apply List.filter_congr
    intro e _
    rw [decide_eq_decide]
    refine (not_congr (uo e)).trans ?_
    simp
  · show s.ghost = _
    rw [sg]
    apply List.filter_congr
    intro e _
    rw [decide_eq_decide]
    refine (not_congr (ug e)).trans ?_
    simp
  · by_cases hz : m.nAll = 0
    · intro e he; omega
    · exact si (by simp only [decide_eq_true_eq]; rw [h0.map_len, if_pos hm]; exact hz)

example : ∃ o, subtract exMesh ⟨10, exSet⟩ [⟨11, exSet2⟩] = .ok o ∧ o.obj.all = [0] ∧
    o.obj.name = "(s)_MINUS_(t)" := ⟨_, rfl, by decide, by decide⟩

/-- **C21.** Intersection: exactly the entities that are in every input, in the order of the first. -/
theorem intersect_is_intersection (m : MeshView) (p0 : Ptr) (rest : List Ptr) (h : GoodInputs m (p0 :: rest))
    (hk : OneKind (p0 :: rest)) :
    ∃ o, intersect m (p0 :: rest) = .ok o ∧ Proper m o.obj ∧
      entities o.obj .PARALLEL_OWNED = (entities p0.obj .PARALLEL_OWNED).filter
        (fun e => decide (∀ p ∈ p0 :: rest, e ∈ entities p.obj .PARALLEL_OWNED)) ∧
      entities o.obj .PARALLEL_GHOST = (entities p0.obj .PARALLEL_GHOST).filter
        (fun e => decide (∀ p ∈ p0 :: rest, e ∈ entities p.obj .PARALLEL_GHOST)) ∧
      (p0.obj.haveMap = true → IndexExact m o.obj) := by
  have h0 := h.proper p0 (by simp)
  obtain ⟨hno, hng⟩ := h0.loose.nodups
  have hcomp : compatible p0 (others p0 (p0 :: rest)) = true := by
    simp only [compatible, List.all_eq_true, Bool.and_eq_true, decide_eq_true_eq]
    intro p hp
    exact hk p (mem_others.1 hp).1 p0 (by simp)
  obtain ⟨s, hc, so, sg, sp, si⟩ := construct_proper (m := m)
    (name := (others p0 (p0 :: rest)).foldl (fun acc p => acc ++ "_INTERSECT_(" ++ p.obj.name ++ ")")
        ("(" ++ p0.obj.name ++ ")")) (mesh := p0.obj.mesh)
    (kind := p0.obj.kind) (decide (p0.obj.map.length ≠ 0))
    (hno.filter fun e => (others p0 (p0 :: rest)).all fun p => decide (e ∈ p.obj.owned))
    (hng.filter fun e => (others p0 (p0 :: rest)).all fun p => decide (e ∈ p.obj.ghost))
    (fun e he => h0.typed.1 e (List.mem_filter.1 he).1) (fun e he => h0.typed.2 e (List.mem_filter.1 he).1)
  have key : ∀ f : Obj → List Nat, (f p0.obj).filter
      (fun e => (others p0 (p0 :: rest)).all fun p => decide (e ∈ f p.obj)) =
      (f p0.obj).filter fun e => decide (∀ p ∈ p0 :: rest, e ∈ f p.obj) := by
    intro f
    apply List.filter_congr
    intro e he
    rw [Bool.eq_iff_iff]
    simp only [List.all_eq_true, decide_eq_true_eq]
    constructor
    · intro hh p hp
      by_cases ha : p.addr = p0.addr
      · rw [h.addr p hp p0 (by simp) ha]; exact he
      · exact hh p (mem_others.2 ⟨hp, ha⟩)
    · intro hh p hp
      exact hh p (mem_others.1 hp).1
  refine ⟨.fresh s, ?_, sp, ?_, ?_, fun hm => ?_⟩
  · unfold intersect
    simp only [hcomp, if_true, hc]
  · show s.owned = _
    rw [so]; exact key Obj.owned
  · show s.ghost = _
    rw [sg]; exact key Obj.ghost
  · by_cases hz : m.nAll = 0
    · intro e he; omega
    · exact si (by simp only [decide_eq_true_eq]; rw [h0.map_len, if_pos hm]; exact hz)

example : ∃ o, intersect exMesh [⟨10, exSet⟩, ⟨11, exSet2⟩] = .ok o ∧ o.obj.all = [1, 3] :=
  ⟨_, rfl, by decide⟩

/-- C21, the empty list of inputs is read out of bounds. -/
theorem intersect_of_nothing (m : MeshView) : intersect m [] = .error .undefinedBehaviour := rfl

/-- The usual numbering: owned entities first, then ghosts. -/
def OwnedFirst (m : MeshView) : Prop :=
  (∀ e, m.typeOf e = .PARALLEL_OWNED ↔ e < m.nOwned) ∧
  (∀ e, m.typeOf e = .PARALLEL_GHOST ↔ m.nOwned ≤ e ∧ e < m.nAll)

/-- **C22 (part that holds).** On a mesh numbered owned-first *without ghosts*, `complement` contains exactly the
entities of the mesh that are in none of the inputs, in increasing order. Missing: ghosts, refuted below. -/
theorem complement_partial (m : MeshView) (hm : OwnedFirst m) (hg : m.nGhost = 0) (p0 : Ptr) (rest : List Ptr)
    (h : GoodInputs m (p0 :: rest)) (hk : OneKind (p0 :: rest)) :
    ∃ o, complement m (p0 :: rest) = .ok o ∧ Proper m o.obj ∧
      entities o.obj .ALL = (List.range m.nAll).filter
        (fun e => decide (∀ p ∈ p0 :: rest, e ∉ entities p.obj .ALL)) ∧
      (p0.obj.haveMap = true → IndexExact m o.obj) := by
  have h0 := h.proper p0 (by simp)
  obtain ⟨u, hu, up, uo, ug, -⟩ := merge_is_union m p0 rest h hk
  have hall : m.nAll = m.nOwned := by simp [MeshView.nAll, hg]
  obtain ⟨s, hc, so, sg, sp, si⟩ := construct_proper (m := m)
    (name := "NOT_(" ++ u.obj.name ++ ")") (mesh := p0.obj.mesh)
    (kind := p0.obj.kind) (decide (p0.obj.map.length ≠ 0))
    (List.nodup_range.filter fun e => decide (e ∉ u.obj.owned)) (owned := (List.range m.nOwned).filter _)
    (ghost := (List.range m.nGhost).filter fun e => decide (e ∉ u.obj.ghost)) (List.nodup_range.filter _)
    (fun e he => by
      have := List.mem_range.1 (List.mem_filter.1 he).1
      exact ⟨by omega, (hm.1 e).2 this⟩)
    (fun e he => by
      have := List.mem_range.1 (List.mem_filter.1 he).1
      omega)
  refine ⟨.fresh s, ?_, sp, ?_, fun hh => ?_⟩
  · unfold complement
    simp only [hu, hc]
  · show s.all = _
    rw [sp.all_eq, so, sg, hg, hall]
    simp only [List.range_zero, List.filter_nil, List.append_nil]
    apply List.filter_congr
    intro e he
    rw [decide_eq_decide]
    have := uo e
    simp only [entities] at this ⊢
    rw [this]
    have hng : ∀ p ∈ p0 :: rest, p.obj.ghost = [] := by
      intro p hp
      rw [List.eq_nil_iff_forall_not_mem]
      intro x hx
      have := (h.proper p hp).typed.2 x hx
      have := (hm.2 x).1 this.2
      omega
    constructor
    · intro hh p hp hpe
      rw [(h.proper p hp).all_eq, hng p hp, List.append_nil] at hpe
      exact hh ⟨p, hp, hpe⟩
    · rintro hh ⟨p, hp, hpe⟩
      refine hh p hp ?_
      rw [(h.proper p hp).all_eq]; simp [hpe]
  · by_cases hz : m.nAll = 0
    · intro e he; omega
    · exact si (by simp only [decide_eq_true_eq]; rw [h0.map_len, if_pos hh]; exact hz)

/-- a mesh of four owned cells -/
def serialMesh : MeshView where
  typeOf e := if e < 4 then .PARALLEL_OWNED else .TYPE_UNKNOWN
  nOwned := 4
  nGhost := 0

example : OwnedFirst serialMesh := by
  constructor
  · intro e; by_cases h : e < 4 <;> simp [serialMesh, h]
  · intro e; by_cases h : e < 4 <;> simp [serialMesh, h, MeshView.nAll]

example : ∃ o, complement serialMesh [⟨1, ⟨"s", 0, .CELL, [2, 0], [], [2, 0], true, [1, -1, 0, -1]⟩⟩] = .ok o ∧
    o.obj.all = [1, 3] := ⟨_, rfl, by decide⟩

/-- **C22 is false of the code with ghosts.** On every owned-first mesh with at least one owned and one ghost entity,
the complement of a set without ghosts lists as GHOST the entity 0, which is owned, and omits the last
ghost of the mesh. -/
theorem complement_ghosts_wrong (m : MeshView) (hm : OwnedFirst m) (ho : 0 < m.nOwned) (hg : 0 < m.nGhost)
    (p : Ptr) (hp : Proper m p.obj) (hno : p.obj.ghost = []) :
    ∀ o, complement m [p] = .ok o →
      0 ∈ entities o.obj .PARALLEL_GHOST ∧ m.typeOf 0 = .PARALLEL_OWNED ∧
      m.typeOf (m.nAll - 1) = .PARALLEL_GHOST ∧ m.nAll - 1 ∉ entities o.obj .PARALLEL_GHOST := by
  intro o hoo
  have hs : o.obj.ghost = List.range m.nGhost := by
    unfold complement at hoo
    simp only [merge] at hoo
    split at hoo
    · cases hoo
    · rename_i s hc
      injection hoo with hoo
      rw [← hoo]
      rw [Out.obj, (construct_fields hc).2.2.2.1, List.filter_eq_self]
      intro a _; simp [Out.obj, hno]
  refine ⟨?_, (hm.1 0).2 ho, (hm.2 _).2 ?_, ?_⟩
  · show 0 ∈ o.obj.ghost; rw [hs]; exact List.mem_range.2 hg
  · unfold MeshView.nAll; omega
  · show _ ∉ o.obj.ghost
    rw [hs, List.mem_range]; unfold MeshView.nAll; omega

/-- non-vacuity: on a mesh where the mistaken ids exist the operation does return a set -/
example : ∃ o, complement exMesh [⟨10, ⟨"s", 0, .CELL, [0], [], [0], true, [0, -1, -1, -1, -1]⟩⟩] = .ok o ∧
    o.obj.owned = [1, 2] ∧ o.obj.ghost = [0, 1] := ⟨_, rfl, by decide, by decide⟩

end Jali.MSet
