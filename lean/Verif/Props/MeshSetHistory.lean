import Verif.Props.MeshSet
/-! Property theorems C23, C24: adding and removing entities of a mesh set. -/
namespace Jali.MSet

theorem tells_set {m : MeshView} {s s' : Obj} {e : Nat} {i : Int} (hs : Loose m s) (hm : s.haveMap = true)
    (hi : IndexTells m s) (hb : e < m.nAll) (hmap : s'.map = s.map.set e i)
    (hall : ∀ a, a ≠ e → (a ∈ s'.all ↔ a ∈ s.all)) (he : i = -1 ↔ e ∉ s'.all) : IndexTells m s' := by
  have hl : s.map.length = m.nAll := by rw [hs.map_len, if_pos hm]
  intro a ha
  by_cases hae : a = e
  · subst hae
    exact ⟨i, indexInSet_eq (by rw [hmap]; simp [hl, hb]), he⟩
  · obtain ⟨j, hj, hj'⟩ := hi a ha
    refine ⟨j, indexInSet_eq ?_, ?_⟩
    · rw [hmap, List.getElem?_set_ne (by omega)]
      exact indexInSet_get (by omega) hj
    · rw [hj']
      exact not_congr (hall a hae).symm

/-- **C23/C24 for the single-entity operations.** For every legal history of `add_entity` and `rem_entity`, the set
behaves like the abstract set: no undefined behaviour; ALL, OWNED and GHOST hold exactly the entities
added and not removed since, split by type, each once; and `index_in_set`, when there is storage for it,
tells members from non-members. (The *position* it gives and the order of ALL are not guaranteed, see
below.) -/
theorem history_membership_partial (m : MeshView) (ops : List Op) : ∀ (s : Obj) (x : Nat → Prop),
    Loose m s → (s.haveMap = true → IndexTells m s) → (∀ e, e ∈ s.all ↔ x e) → Legal m x ops →
    ∃ s', runOps m s ops = .ok s' ∧ Loose m s' ∧
      (∀ e, e ∈ entities s' .ALL ↔ ops.foldl Op.spec x e) ∧
      (∀ e, e ∈ entities s' .PARALLEL_OWNED ↔ ops.foldl Op.spec x e ∧ m.typeOf e = .PARALLEL_OWNED) ∧
      (∀ e, e ∈ entities s' .PARALLEL_GHOST ↔ ops.foldl Op.spec x e ∧ m.typeOf e = .PARALLEL_GHOST) ∧
      s'.haveMap = s.haveMap ∧ (s.haveMap = true → IndexTells m s') := by
  induction ops with
  | nil =>
    intro s x hs hi hx _
    refine ⟨s, rfl, hs, hx, fun e => ?_, fun e => ?_, rfl, hi⟩
    · rw [List.foldl_nil, ← hx, hs.mem_all]
      refine ⟨fun h => ⟨Or.inl h, hs.owned_type e h⟩, ?_⟩
      rintro ⟨h | h, ht⟩
      · exact h
      · rw [hs.ghost_type e h] at ht; cases ht
    · rw [List.foldl_nil, ← hx, hs.mem_all]
      refine ⟨fun h => ⟨Or.inr h, hs.ghost_type e h⟩, ?_⟩
      rintro ⟨h | h, ht⟩
      · rw [hs.owned_type e h] at ht; cases ht
      · exact h
  | cons o os ih =>
    intro s x hs hi hx hl
    cases o with
    | add e =>
      obtain ⟨hb, ht, hna, hl'⟩ := hl
      obtain ⟨s1, h1, h2, h3, h4, -, -, -, h5⟩ := addEntity_ok m s e hs hb ht (by rw [hx]; exact hna)
      obtain ⟨s', r1, r2, r3, r4, r5, r6, r7⟩ := ih s1 (Op.spec x (.add e)) h2
        (by
          intro hm
          rw [h4] at hm
          rw [if_pos hm] at h5
          refine tells_set hs hm (hi hm) hb h5 (fun a ha => by rw [h3]; simp [ha]) ?_
          rw [h3]
          simp only [true_or, not_true, iff_false]
          split <;> omega)
        (by intro a; rw [h3, hx]; rfl) hl'
      refine ⟨s', by simp [runOps, Op.run, h1, r1], r2, r3, r4, r5, by rw [r6, h4], fun hm => r7 (by rw [h4, hm])⟩
    | rem e =>
      obtain ⟨hb, ht, hl'⟩ := hl
      obtain ⟨s1, h1, h2, h3, h4, h5⟩ := remEntity_ok m s e hs hb ht
      obtain ⟨s', r1, r2, r3, r4, r5, r6, r7⟩ := ih s1 (Op.spec x (.rem e)) h2
        (by
          intro hm
          rw [h4] at hm
          rw [if_pos hm] at h5
          refine tells_set hs hm (hi hm) hb h5 (fun a ha => by rw [h3]; simp [ha]) ?_
          rw [h3]; simp)
        (by intro a; rw [h3, hx]; rfl) hl'
      refine ⟨s', by simp [runOps, Op.run, h1, r1], r2, r3, r4, r5, by rw [r6, h4], fun hm => r7 (by rw [h4, hm])⟩

example : Legal exMesh (· ∈ exSet.all) [.add 2, .rem 0, .add 0, .rem 3, .add 4] ∧ IndexTells exMesh exSet := by
  constructor
  · simp [Legal, Op.spec, exMesh, exSet, MeshView.nAll]
  · intro e he
    have : e < 5 := he
    match e, this with
    | 0, _ => exact ⟨0, by decide, by decide⟩
    | 1, _ => exact ⟨1, by decide, by decide⟩
    | 2, _ => exact ⟨-1, by decide, by decide⟩
    | 3, _ => exact ⟨2, by decide, by decide⟩
    | 4, _ => exact ⟨-1, by decide, by decide⟩

theorem insertIdx_owned (o g : List Nat) (e : Nat) : (o ++ g).insertIdx o.length e = o ++ [e] ++ g := by
  induction o with
  | nil => simp
  | cons a o ih => simpa using ih

theorem addEntity_proper (m : MeshView) (s : Obj) (e : Nat) (hs : Proper m s) (hb : e < m.nAll)
    (ht : m.typeOf e = .PARALLEL_OWNED ∨ m.typeOf e = .PARALLEL_GHOST) (hna : e ∉ s.all) :
    ∃ s', addEntity m s e = .ok s' ∧ Proper m s' ∧ (∀ a, a ∈ s'.all ↔ a = e ∨ a ∈ s.all) ∧
      s'.haveMap = s.haveMap ∧
      s'.owned = (if m.typeOf e = .PARALLEL_OWNED then s.owned ++ [e] else s.owned) ∧
      s'.ghost = (if m.typeOf e = .PARALLEL_GHOST then s.ghost ++ [e] else s.ghost) ∧
      s'.map = (if s.haveMap then
        s.map.set e (if m.typeOf e = .PARALLEL_OWNED then (s.owned.length : Int) else s.all.length)
        else s.map) := by
  obtain ⟨s', h1, h2, h3, h4, h5, h6, h7, h8⟩ := addEntity_ok m s e hs.loose hb ht hna
  refine ⟨s', h1, ⟨?_, h2.nodup, h2.owned_type, h2.ghost_type, h2.bound, h2.map_len⟩, h3, h4, h5, h6, h8⟩
  rw [h5, h6, h7]
  rcases ht with ht | ht
  · rw [ht]; simp only [if_true]
    rw [if_neg (by decide), hs.all_eq, insertIdx_owned]
  · rw [ht]; simp only [if_true]
    rw [if_neg (by decide), if_neg (by decide), hs.all_eq, List.append_assoc]

/-- **C23 for `add_entity`, lists.** Adding any number of absent entities one by one appends the owned ones to OWNED
and the ghosts to GHOST, in order, and ALL stays OWNED followed by GHOST without repetition. -/
theorem add_entity_lists_partial (m : MeshView) (es : List Nat) : ∀ s : Obj, Proper m s → es.Nodup →
    (∀ e ∈ es, e ∉ s.all ∧ e < m.nAll ∧ (m.typeOf e = .PARALLEL_OWNED ∨ m.typeOf e = .PARALLEL_GHOST)) →
    ∃ s', addEach m es s = .ok s' ∧ Proper m s' ∧
      entities s' .PARALLEL_OWNED =
        entities s .PARALLEL_OWNED ++ es.filter (fun e => m.typeOf e = .PARALLEL_OWNED) ∧
      entities s' .PARALLEL_GHOST =
        entities s .PARALLEL_GHOST ++ es.filter (fun e => m.typeOf e = .PARALLEL_GHOST) ∧
      entities s' .ALL = entities s' .PARALLEL_OWNED ++ entities s' .PARALLEL_GHOST ∧
      s'.haveMap = s.haveMap ∧
      ((s.haveMap = true → IndexTells m s) → s.haveMap = true → IndexTells m s') := by
  induction es with
  | nil => intro s hs _ _; exact ⟨s, rfl, hs, by simp, by simp, hs.all_eq, rfl, fun h => h⟩
  | cons e es ih =>
    intro s hs hn h
    obtain ⟨hna, hb, ht⟩ := h e (by simp)
    rw [List.nodup_cons] at hn
    obtain ⟨s1, h1, h2, h3, h4, h5, h6, h7⟩ := addEntity_proper m s e hs hb ht hna
    obtain ⟨s', r1, r2, r3, r4, r5, r6, r7⟩ := ih s1 h2 hn.2 (fun a ha => by
      obtain ⟨h1', h2', h3'⟩ := h a (by simp [ha])
      exact ⟨by rw [h3]; rintro (rfl | h'); exacts [hn.1 ha, h1' h'], h2', h3'⟩)
    refine ⟨s', by simp [addEach, h1, r1], r2, ?_, ?_, r5, by rw [r6, h4], ?_⟩
    · simp only [entities] at r3 ⊢
      rw [r3, h5]
      rcases ht with ht | ht <;> simp [ht]
    · simp only [entities] at r4 ⊢
      rw [r4, h6]
      rcases ht with ht | ht <;> simp [ht]
    · intro hi hm
      refine r7 (fun _ => ?_) (by rw [h4, hm])
      rw [if_pos hm] at h7
      refine tells_set hs.loose hm (hi hm) hb h7 (fun a ha => by rw [h3]; simp [ha]) ?_
      rw [h3]
      simp only [true_or, not_true, iff_false]
      split <;> omega

example : ∀ e ∈ [4, 2], e ∉ exSet.all ∧ e < exMesh.nAll ∧
    (exMesh.typeOf e = .PARALLEL_OWNED ∨ exMesh.typeOf e = .PARALLEL_GHOST) := by decide

/-- **C23 for `add_entity`, index.** `index_in_set` stays exact under additions as long as no owned entity is added
while the set has ghosts. -/
theorem add_entity_index_partial (m : MeshView) (es : List Nat) : ∀ s : Obj, Proper m s → s.haveMap = true →
    IndexExact m s → es.Nodup →
    (∀ e ∈ es, e ∉ s.all ∧ e < m.nAll) →
    ((∀ e ∈ es, m.typeOf e = .PARALLEL_GHOST) ∨ (s.ghost = [] ∧ ∀ e ∈ es, m.typeOf e = .PARALLEL_OWNED)) →
    ∃ s', addEach m es s = .ok s' ∧ Proper m s' ∧ IndexExact m s' := by
  induction es with
  | nil => intro s hs _ hi _ _ _; exact ⟨s, rfl, hs, hi⟩
  | cons e es ih =>
    intro s hs hm hi hn h hc
    obtain ⟨hna, hb⟩ := h e (by simp)
    rw [List.nodup_cons] at hn
    have ht : m.typeOf e = .PARALLEL_OWNED ∨ m.typeOf e = .PARALLEL_GHOST := by
      rcases hc with hc | hc
      exacts [Or.inr (hc e (by simp)), Or.inl (hc.2 e (by simp))]
    obtain ⟨s1, h1, h2, h3, h4, h5, h6, h7⟩ := addEntity_proper m s e hs hb ht hna
    have hall : s1.all = s.all ++ [e] := by
      rw [h2.all_eq, hs.all_eq, h5, h6]
      rcases hc with hc | hc
      · have := hc e (by simp); simp [this]
      · have := hc.2 e (by simp); simp [this, hc.1]
    have hpos : (if m.typeOf e = .PARALLEL_OWNED then (s.owned.length : Int) else s.all.length) =
        (s.all.length : Int) := by
      rcases hc with hc | hc
      · have := hc e (by simp); simp [this]
      · have := hc.2 e (by simp); rw [hs.all_eq, hc.1]; simp
    rw [if_pos hm, hpos] at h7
    have hl : s.map.length = m.nAll := by rw [hs.map_len, if_pos hm]
    have hi1 : IndexExact m s1 := by
      intro a ha
      apply indexInSet_eq
      by_cases hae : a = e
      · subst hae
        rw [h7]
        simp only [List.getElem?_set, hl, hb, if_true, entities, posOrNeg, hall]
        rw [if_pos (by simp), List.idxOf_append_of_notMem hna]
        simp
      · rw [h7, List.getElem?_set_ne (by omega), indexInSet_get (by omega) (hi a ha)]
        rw [entities_all, entities_all, hall]
        by_cases hm' : a ∈ s.all
        · rw [posOrNeg_of_mem hm', posOrNeg_of_mem (by simp [hm']), List.idxOf_append_of_mem hm']
        · rw [posOrNeg_of_not_mem hm', posOrNeg_of_not_mem (by simp [hm', hae])]
    obtain ⟨s', r1, r2, r3⟩ := ih s1 h2 (by rw [h4, hm]) hi1 hn.2
      (fun a ha => by
        obtain ⟨h1', h2'⟩ := h a (by simp [ha])
        exact ⟨by rw [h3]; rintro (rfl | h'); exacts [hn.1 ha, h1' h'], h2'⟩)
      (by
        rcases hc with hc | hc
        · exact Or.inl fun a ha => hc a (by simp [ha])
        · refine Or.inr ⟨?_, fun a ha => hc.2 a (by simp [ha])⟩
          have := hc.2 e (by simp)
          rw [h6, this]; simp [hc.1])
    exact ⟨s', by simp [addEach, h1, r1], r2, r3⟩

theorem exSet_exact : IndexExact exMesh exSet := by
  intro e he
  have : e < 5 := he
  match e, this with
  | 0, _ => decide
  | 1, _ => decide
  | 2, _ => decide
  | 3, _ => decide
  | 4, _ => decide

example : (∀ e ∈ [4], e ∉ exSet.all ∧ e < exMesh.nAll) ∧ ∀ e ∈ [4], exMesh.typeOf e = .PARALLEL_GHOST := by
  decide

/-- **C23 is false for `add_entity` with ghosts present.** Whenever an owned entity is added to a set that holds a
ghost, `index_in_set` of that ghost keeps its old value, which is no longer its position. -/
theorem add_entity_stale_ghost_index (m : MeshView) (s : Obj) (e g : Nat) (hs : Proper m s)
    (hm : s.haveMap = true) (hi : IndexExact m s) (hb : e < m.nAll) (ht : m.typeOf e = .PARALLEL_OWNED)
    (hna : e ∉ s.all) (hg : g ∈ s.ghost) :
    ∃ s', addEntity m s e = .ok s' ∧ indexInSet s' g = indexInSet s g ∧
      indexInSet s' g ≠ .ok (posOrNeg (entities s' .ALL) g) := by
  obtain ⟨s1, h1, h2, h3, h4, h5, h6, h7⟩ := addEntity_proper m s e hs hb (Or.inl ht) hna
  have hga : g ∈ s.all := by rw [hs.all_eq]; simp [hg]
  have hgb := hs.bound g hga
  have hge : g ≠ e := fun h => hna (h ▸ hga)
  rw [if_pos hm] at h7
  have hl : s.map.length = m.nAll := by rw [hs.map_len, if_pos hm]
  have hget := indexInSet_get (by omega) (hi g hgb)
  have hnew : indexInSet s1 g = .ok (posOrNeg (entities s .ALL) g) :=
    indexInSet_eq (by rw [h7, List.getElem?_set_ne (by omega)]; exact hget)
  refine ⟨s1, h1, by rw [hnew, hi g hgb], ?_⟩
  rw [hnew]
  have hno : g ∉ s.owned := fun h => by
    have := hs.owned_type g h; rw [hs.ghost_type g hg] at this; cases this
  have hga1 : g ∈ s1.all := (h3 g).2 (Or.inr hga)
  rw [entities_all, entities_all, posOrNeg_of_mem hga, posOrNeg_of_mem hga1, h2.all_eq, hs.all_eq, h5, h6, ht]
  simp only [if_true]
  rw [if_neg (by decide), List.idxOf_append_of_notMem hno,
    List.idxOf_append_of_notMem (by simp [hno, hge])]
  simp
  intro h
  omega

example : 2 < exMesh.nAll ∧ exMesh.typeOf 2 = .PARALLEL_OWNED ∧ 2 ∉ exSet.all ∧ 3 ∈ exSet.ghost := by decide

/-- **C23 is false for `add_entities`:** adding any nonempty list of ghosts is undefined behaviour (insertion at an
iterator of another vector). -/
theorem add_entities_ghosts_undefined (m : MeshView) (s : Obj) (es : List Nat) (hne : es ≠ [])
    (hg : ∀ e ∈ es, m.typeOf e = .PARALLEL_GHOST) : addEntities m s es = .error .undefinedBehaviour := by
  have h1 : countType m es .PARALLEL_OWNED = 0 := by
    rw [countType, List.countP_eq_zero]
    intro e he; rw [hg e he]; decide
  have h2 : countType m es .PARALLEL_GHOST = es.length := by
    rw [countType, List.countP_eq_length]
    intro e he; simp [hg e he]
  have h3 : es.length ≠ 0 := by simpa using hne
  simp [addEntities, addLists, h1, h2, h3]

example : ∀ e ∈ [4], exMesh.typeOf e = .PARALLEL_GHOST := by decide

/-- … and adding one absent owned entity with `add_entities` to a set without ghosts that holds something already,
`index_in_set` denies that the entity is in the set, and ALL is not OWNED followed by GHOST. -/
theorem add_entities_index_wrong (m : MeshView) (s : Obj) (e : Nat) (hs : Proper m s)
    (hm : s.haveMap = true) (hi : IndexExact m s) (hb : e < m.nAll) (ht : m.typeOf e = .PARALLEL_OWNED)
    (hna : e ∉ s.all) (hg : s.ghost = []) (ho : s.owned ≠ []) :
    ∃ s', addEntities m s [e] = .ok s' ∧ e ∈ entities s' .ALL ∧ indexInSet s' e = .ok (-1) ∧
      entities s' .ALL ≠ entities s' .PARALLEL_OWNED ++ entities s' .PARALLEL_GHOST := by
  have hl : s.map.length = m.nAll := by rw [hs.map_len, if_pos hm]
  have h1 : countType m [e] .PARALLEL_OWNED = 1 := by simp [countType, ht]
  have h2 : countType m [e] .PARALLEL_GHOST = 0 := by simp [countType, ht]
  have hall : s.all = s.owned := by rw [hs.all_eq, hg]; simp
  have hnd : (e :: s.all).Nodup := List.nodup_cons.2 ⟨hna, hs.nodup⟩
  have hpos : 0 < s.owned.length := List.length_pos_iff.2 ho
  obtain ⟨map', i1, i2, i3⟩ := indexLoop_ok (e :: s.all) hnd [s.owned.length] s.map
    (by intro i hi; simp at hi; subst hi; rw [hall]; simp)
    (by intro a ha; rw [hl]; rcases List.mem_cons.1 ha with rfl | h; exacts [hb, hs.bound a h])
  refine ⟨{ s with owned := s.owned ++ [e], all := e :: s.all, map := map' }, ?_, by simp [entities], ?_, ?_⟩
  · simp only [addEntities, addLists, h1, h2, hg, hm]
    simp [i1, indexLoop]
  · apply indexInSet_eq
    dsimp only
    rw [i3, if_neg]
    · rw [indexInSet_get (by omega) (hi e hb)]
      simp [posOrNeg, entities, hna]
    · simp; omega
  · simp only [entities, hg, hall, List.append_nil]
    intro h
    cases hso : s.owned with
    | nil => exact ho hso
    | cons a r =>
      rw [hso] at h
      simp at h
      rw [hall, hso] at hna
      simp [h.1] at hna

example : ∃ s, construct exMesh "s" 0 .CELL [0, 1] [] true = .ok s ∧ s.owned ≠ [] ∧ s.ghost = [] ∧
    2 ∉ s.all := ⟨_, rfl, by decide, by decide, by decide⟩

theorem tells_indexLoop {m : MeshView} {all : List Nat} {is : List Nat} {map map' : List Int}
    (h : ∀ e, map'[e]? = if e ∈ all ∧ all.idxOf e ∈ is then some (all.idxOf e : Int) else map[e]?)
    (ht : ∀ e, e < m.nAll → ∃ i, map[e]? = some i ∧ (i = -1 ↔ e ∉ all ∨ (e ∈ all ∧ all.idxOf e ∈ is ∧ i = -1))) :
    ∀ e, e < m.nAll → ∃ i, map'[e]? = some i ∧ (i = -1 ↔ e ∉ all) := by
  intro e he
  obtain ⟨i, h1, h2⟩ := ht e he
  rw [h]
  by_cases hc : e ∈ all ∧ all.idxOf e ∈ is
  · exact ⟨_, by rw [if_pos hc], by simp only [hc.1, not_true, iff_false]; omega⟩
  · refine ⟨i, by rw [if_neg hc]; exact h1, ?_⟩
    rw [h2]
    constructor
    · rintro (h | ⟨ha, hb, -⟩)
      · exact h
      · exact absurd ⟨ha, hb⟩ hc
    · exact Or.inl

/-- **C23 for `add_entities`, the part that holds.** Adding a list of absent owned and ghost entities, not all of them
ghosts: no undefined behaviour, OWNED and GHOST are extended in order, ALL holds the same entities each once. If
the set then has ghosts, ALL is OWNED followed by GHOST, and `index_in_set` tells members from
non-members. Missing: lists of ghosts only, and order and index when there are no ghosts (both refuted above),
and positions of old ghosts. -/
theorem add_entities_partial (m : MeshView) (s : Obj) (es : List Nat) (hs : Proper m s) (hn : es.Nodup)
    (h : ∀ e ∈ es, e ∉ s.all ∧ e < m.nAll ∧ (m.typeOf e = .PARALLEL_OWNED ∨ m.typeOf e = .PARALLEL_GHOST))
    (hown : es ≠ [] → ∃ e ∈ es, m.typeOf e = .PARALLEL_OWNED) :
    ∃ s', addEntities m s es = .ok s' ∧ Loose m s' ∧
      entities s' .PARALLEL_OWNED =
        entities s .PARALLEL_OWNED ++ es.filter (fun e => m.typeOf e = .PARALLEL_OWNED) ∧
      entities s' .PARALLEL_GHOST =
        entities s .PARALLEL_GHOST ++ es.filter (fun e => m.typeOf e = .PARALLEL_GHOST) ∧
      (entities s' .PARALLEL_GHOST ≠ [] → Proper m s' ∧
        (s.haveMap = true → IndexTells m s → IndexTells m s')) := by
  have hcase : (∀ e ∈ es, m.typeOf e = .PARALLEL_OWNED) ∨
      (es.length ≠ countType m es .PARALLEL_OWNED ∧ es.length ≠ countType m es .PARALLEL_GHOST ∧
        ∃ e ∈ es, m.typeOf e = .PARALLEL_GHOST) := by
    by_cases ha : ∀ e ∈ es, m.typeOf e = .PARALLEL_OWNED
    · exact Or.inl ha
    · right
      simp only [Classical.not_forall] at ha
      obtain ⟨e, he, hne⟩ := ha
      have hg := (h e he).2.2.resolve_left hne
      refine ⟨fun hh => ?_, fun hh => ?_, e, he, hg⟩
      · have := List.countP_eq_length.1 hh.symm e he
        exact hne (by simpa using this)
      · obtain ⟨e', he', ho⟩ := hown (List.ne_nil_of_mem he)
        have := List.countP_eq_length.1 hh.symm e' he'
        rw [ho] at this; simp at this
  rcases hcase with hO | ⟨hc1, hc2, e0, he0, hg0⟩
  · -- all owned
    have hfo : es.filter (fun e => decide (m.typeOf e = .PARALLEL_OWNED)) = es := by
      rw [List.filter_eq_self]; intro e he; simp [hO e he]
    have hfg : es.filter (fun e => decide (m.typeOf e = .PARALLEL_GHOST)) = [] := by
      rw [List.filter_eq_nil_iff]; intro e he; simp [hO e he]
    have h1 : countType m es .PARALLEL_OWNED = es.length := by
      rw [countType, List.countP_eq_length]; intro e he; simp [hO e he]
    have h2 : countType m es .PARALLEL_GHOST = 0 := by
      rw [countType, List.countP_eq_zero]; intro e he; simp [hO e he]
    have hdisj : ∀ e ∈ es, e ∉ s.owned ∧ e ∉ s.ghost := by
      intro e he
      have := (h e he).1
      rw [hs.all_eq, List.mem_append] at this
      exact ⟨fun hh => this (Or.inl hh), fun hh => this (Or.inr hh)⟩
    have hnd : (s.owned ++ es ++ s.ghost).Nodup := by
      have hp : (s.owned ++ es ++ s.ghost).Perm (es ++ s.all) := by
        rw [hs.all_eq, ← List.append_assoc]
        exact List.perm_append_comm.append_right _
      rw [hp.nodup_iff, List.nodup_append]
      exact ⟨hn, hs.nodup, fun a ha b hb hab => (h a ha).1 (hab ▸ hb)⟩
    have hbd : ∀ e ∈ s.owned ++ es ++ s.ghost, e < m.nAll := by
      intro e he
      rcases List.mem_append.1 he with he | he
      · rcases List.mem_append.1 he with he | he
        · exact hs.typed.1 e he |>.1
        · exact (h e he).2.1
      · exact hs.typed.2 e he |>.1
    have hot : ∀ e ∈ s.owned ++ es, m.typeOf e = .PARALLEL_OWNED := by
      intro e he
      rcases List.mem_append.1 he with he | he
      exacts [hs.owned_type e he, hO e he]
    -- the new ALL
    let all' := if s.ghost.length ≠ 0 then s.owned ++ es ++ s.ghost else es ++ s.all
    have hperm : all'.Perm (s.owned ++ es ++ s.ghost) := by
      by_cases hg : s.ghost.length ≠ 0
      · simp only [all', if_pos hg]; exact List.Perm.refl _
      · simp only [all', if_neg hg]
        rw [hs.all_eq, ← List.append_assoc]
        exact List.perm_append_comm.append_right _
    have hnd' : all'.Nodup := hperm.nodup_iff.2 hnd
    have hadd : ∀ map', (s.haveMap = true → indexLoop all'
          ((List.range es.length).map (s.owned.length + ·)) s.map = .ok map') → (s.haveMap = false → map' = s.map) →
        addEntities m s es = .ok { s with owned := s.owned ++ es, all := all', map := map' } := by
      intro map' hm1 hm2
      unfold addEntities
      simp only [addLists, h1, h2, if_true, List.range_zero, List.map_nil, indexLoop]
      by_cases hg : s.ghost.length ≠ 0
      · simp only [all', if_pos hg] at hm1 hm2 ⊢
        cases hmm : s.haveMap with
        | false => simp only [Bool.false_eq_true, if_false]; rw [hm2 hmm, ← hmm]
        | true => simp only [if_true, hm1 hmm]
      · simp only [all', if_neg hg] at hm1 hm2 ⊢
        cases hmm : s.haveMap with
        | false => simp only [Bool.false_eq_true, if_false]; rw [hm2 hmm, ← hmm]
        | true => simp only [if_true, hm1 hmm]
    have hloose : ∀ map' : List Int, map'.length = s.map.length →
        Loose m { s with owned := s.owned ++ es, all := all', map := map' } := fun map' hl =>
      ⟨hperm, hnd', hot, hs.ghost_type, fun e he => hbd e (hperm.mem_iff.1 he), by
        dsimp only; rw [hl]; exact hs.map_len⟩
    have hproper : ∀ map' : List Int, map'.length = s.map.length → s.ghost ≠ [] →
        Proper m { s with owned := s.owned ++ es, all := all', map := map' } := fun map' hl hg =>
      ⟨by
        have : s.ghost.length ≠ 0 := by simpa using hg
        simp only [all', if_pos this], hnd', hot, hs.ghost_type, fun e he => hbd e (hperm.mem_iff.1 he), by
        dsimp only; rw [hl]; exact hs.map_len⟩
    cases hmm : s.haveMap with
    | false =>
      refine ⟨_, hadd s.map (fun hh => by rw [hmm] at hh; cases hh) (fun _ => rfl), hloose _ rfl, ?_, ?_, ?_⟩
      · simp [entities, hfo]
      · simp [entities, hfg]
      · intro hg; exact ⟨hproper _ rfl hg, fun hh => by simp at hh⟩
    | true =>
      have hl : s.map.length = m.nAll := by rw [hs.map_len, if_pos hmm]
      have hlen : all'.length = s.owned.length + es.length + s.ghost.length := by
        rw [hperm.length_eq]; simp; omega
      obtain ⟨map', i1, i2, i3⟩ := indexLoop_ok all' hnd' ((List.range es.length).map (s.owned.length + ·)) s.map
        (by
          intro i hi
          obtain ⟨j, hj, rfl⟩ := List.mem_map.1 hi
          have := List.mem_range.1 hj
          omega)
        (fun e he => by rw [hl]; exact hbd e (hperm.mem_iff.1 he))
      refine ⟨_, hadd map' (fun _ => i1) (fun hh => by rw [hmm] at hh; cases hh), hloose _ i2, ?_, ?_, ?_⟩
      · simp [entities, hfo]
      · simp [entities, hfg]
      · intro hg
        refine ⟨hproper _ i2 hg, fun _ hi => ?_⟩
        have hgl : s.ghost.length ≠ 0 := by simp only [entities] at hg; simpa using hg
        have hall' : all' = s.owned ++ es ++ s.ghost := by simp only [all', if_pos hgl]
        have := tells_indexLoop (m := m) i3 (by
          intro e he
          obtain ⟨i, hi1, hi2⟩ := hi e he
          refine ⟨i, indexInSet_get (by omega) hi1, ?_⟩
          rw [hi2, entities_all]
          have hmem : e ∈ all' ↔ e ∈ s.all ∨ e ∈ es := by
            rw [hall', hs.all_eq]; simp only [List.mem_append]; tauto
          constructor
          · intro hna
            by_cases hes : e ∈ es
            · right
              refine ⟨hmem.2 (Or.inr hes), ?_, hna⟩
              rw [hall', List.append_assoc, List.idxOf_append_of_notMem (hdisj e hes).1,
                List.idxOf_append_of_mem hes]
              exact List.mem_map.2 ⟨_, List.mem_range.2 (List.idxOf_lt_length_iff.2 hes), rfl⟩
            · left; rw [hmem]; tauto
          · rintro (hna | ⟨-, -, h'⟩)
            · exact fun h' => hna (hmem.2 (Or.inl h'))
            · exact h')
        intro e he
        obtain ⟨i, h1, h2⟩ := this e he
        exact ⟨i, indexInSet_eq h1, h2⟩
  · -- mixed
    obtain ⟨s1, r1, r2, r3, r4, r5, r6, r7⟩ := add_entity_lists_partial m es s hs hn h
    simp only [entities] at r3 r4 r5
    have hg1 : s1.ghost.length ≠ 0 := by
      rw [r4, List.length_append]
      have : 0 < (es.filter fun e => decide (m.typeOf e = .PARALLEL_GHOST)).length :=
        List.length_pos_of_mem (List.mem_filter.2 ⟨he0, by simp [hg0]⟩)
      omega
    have hs1 : ({ s1 with all := s1.owned ++ s1.ghost } : Obj) = s1 := by
      cases s1; simp at r5; simp [r5]
    have hlo : s1.owned.length = s.owned.length + countType m es .PARALLEL_OWNED := by
      rw [r3, List.length_append, countType, List.countP_eq_length_filter]
    have hlg : s1.ghost.length = s.ghost.length + countType m es .PARALLEL_GHOST := by
      rw [r4, List.length_append, countType, List.countP_eq_length_filter]
    have hla : s1.all.length = s1.owned.length + s1.ghost.length := by rw [r2.all_eq]; simp
    cases hmm : s1.haveMap with
    | false =>
      refine ⟨s1, ?_, r2.loose, r3, r4, fun _ => ⟨r2, fun hh => ?_⟩⟩
      · unfold addEntities
        simp only [addLists, if_neg hc1, if_neg hc2, r1, if_pos hg1, hmm, Bool.false_eq_true, if_false]
        rw [← hmm, hs1]
      · rw [← r6, hmm] at hh; cases hh
    | true =>
      have hl : s1.map.length = m.nAll := by rw [r2.map_len, if_pos hmm]
      obtain ⟨map1, i1, i2, i3⟩ := indexLoop_ok s1.all r2.nodup
        ((List.range (countType m es .PARALLEL_OWNED)).map (s.owned.length + ·)) s1.map
        (by
          intro i hi
          obtain ⟨j, hj, rfl⟩ := List.mem_map.1 hi
          have := List.mem_range.1 hj
          omega)
        (fun e he => by rw [hl]; exact r2.bound e he)
      obtain ⟨map2, j1, j2, j3⟩ := indexLoop_ok s1.all r2.nodup
        ((List.range (countType m es .PARALLEL_GHOST)).map
          (s.owned.length + countType m es .PARALLEL_OWNED + s.ghost.length + ·)) map1
        (by
          intro i hi
          obtain ⟨j, hj, rfl⟩ := List.mem_map.1 hi
          have := List.mem_range.1 hj
          omega)
        (fun e he => by rw [i2, hl]; exact r2.bound e he)
      have hml : ({ s1 with map := map2 } : Obj).map.length = s1.map.length := by dsimp only; omega
      refine ⟨{ s1 with map := map2 }, ?_, ?_, r3, r4, fun _ => ⟨?_, fun hsm hi => ?_⟩⟩
      · unfold addEntities
        simp only [addLists, if_neg hc1, if_neg hc2, r1, if_pos hg1, hmm, if_true]
        rw [← r5, i1]
        simp only [j1]
      · exact ⟨r2.loose.all_perm, r2.nodup, r2.owned_type, r2.ghost_type, r2.bound, by rw [hml]; exact r2.map_len⟩
      · exact ⟨r2.all_eq, r2.nodup, r2.owned_type, r2.ghost_type, r2.bound, by rw [hml]; exact r2.map_len⟩
      · have ht := r7 (fun _ => hi) hsm
        have t1 := tells_indexLoop (m := m) i3 (by
          intro e he
          obtain ⟨i, hi1, hi2⟩ := ht e he
          refine ⟨i, indexInSet_get (by omega) hi1, ?_⟩
          rw [hi2, entities_all]
          constructor
          · exact Or.inl
          · rintro (h' | ⟨-, -, h'⟩)
            exacts [h', h'])
        have t2 := tells_indexLoop (m := m) j3 (by
          intro e he
          obtain ⟨i, hi1, hi2⟩ := t1 e he
          refine ⟨i, hi1, ?_⟩
          rw [hi2]
          constructor
          · exact Or.inl
          · rintro (h' | ⟨-, -, h'⟩)
            exacts [h', h'])
        intro e he
        obtain ⟨i, h1, h2⟩ := t2 e he
        exact ⟨i, indexInSet_eq h1, h2⟩

example : ∃ s', addEntities exMesh exSet [4, 2] = .ok s' ∧ s'.all = [0, 1, 2, 3, 4] ∧ s'.owned = [0, 1, 2] :=
  ⟨_, rfl, by decide, by decide⟩

/-- **C24 is false of `rem_entity` as to order and index:** removing owned entity 0 from the set with OWNED 0, 1 and
GHOST 3 leaves ALL = 3, 1 (ghost first), and `index_in_set` still gives the removed set's positions, past the
end of the list. -/
theorem rem_entity_order_and_index_wrong :
    ∃ s', remEntity exMesh exSet 0 = .ok s' ∧
      entities s' .PARALLEL_OWNED = [1] ∧ entities s' .PARALLEL_GHOST = [3] ∧ entities s' .ALL = [3, 1] ∧
      indexInSet s' 3 = .ok 2 ∧ numEntities s' .ALL = 2 :=
  ⟨_, rfl, by decide, by decide, by decide, by decide, by decide⟩

/-- **C24 for `rem_entities`, the part that holds.** Removing any list of entities without repetition: no undefined
behaviour; OWNED, GHOST and ALL lose exactly the named entities; for the entities that remain
`index_in_set` is the position in ALL. Missing: the index of the removed ones and lists with repetition
(refuted below), and the order of ALL. -/
theorem rem_entities_partial (m : MeshView) (s : Obj) (es : List Nat) (hs : Loose m s) (hn : es.Nodup) :
    ∃ s', remEntities m s es = .ok s' ∧ Loose m s' ∧
      (∀ e, e ∈ entities s' .PARALLEL_OWNED ↔ e ∈ entities s .PARALLEL_OWNED ∧ e ∉ es) ∧
      (∀ e, e ∈ entities s' .PARALLEL_GHOST ↔ e ∈ entities s .PARALLEL_GHOST ∧ e ∉ es) ∧
      (∀ e, e ∈ entities s' .ALL ↔ e ∈ entities s .ALL ∧ e ∉ es) ∧
      (s.haveMap = true → ∀ e ∈ entities s' .ALL, indexInSet s' e = .ok (posOrNeg (entities s' .ALL) e)) ∧
      (s.haveMap = true → ∀ e ∈ entities s .ALL, e ∈ es → indexInSet s' e = indexInSet s e) := by
  obtain ⟨hno, hng⟩ := hs.nodups
  have main : ∀ (p : Nat → Bool) (l : List Nat), l.Nodup → (∀ e ∈ l, p e = true) →
      ∃ l', removeLoop p es l 0 = .ok l' ∧ l'.Perm (l.filter fun x => x ∉ es) := by
    intro p l hl hp
    obtain ⟨l', h1, h2⟩ := removeLoop_ok p l hl es l 0 [] (by simp)
      (by rw [Nat.sub_zero, List.take_length]; simp) (by intro x hx; left; simpa using hx) (by simp) (by simp) hn
    refine ⟨l', h1, h2.trans (List.Perm.of_eq (List.filter_congr fun x hx => ?_))⟩
    simp [hp x hx]
  obtain ⟨ow, o1, o2⟩ := main (fun e => decide (m.typeOf e = .PARALLEL_OWNED)) s.owned hno
    (fun e he => by simp [hs.owned_type e he])
  obtain ⟨gh, g1, g2⟩ := main (fun _ => true) s.ghost hng (fun _ _ => rfl)
  obtain ⟨al, a1, a2⟩ := main (fun _ => true) s.all hs.nodup (fun _ _ => rfl)
  have hmemo : ∀ e, e ∈ ow ↔ e ∈ s.owned ∧ e ∉ es := fun e => by rw [o2.mem_iff]; simp
  have hmemg : ∀ e, e ∈ gh ↔ e ∈ s.ghost ∧ e ∉ es := fun e => by rw [g2.mem_iff]; simp
  have hmema : ∀ e, e ∈ al ↔ e ∈ s.all ∧ e ∉ es := fun e => by rw [a2.mem_iff]; simp
  have hnda : al.Nodup := a2.nodup_iff.2 (hs.nodup.filter _)
  have hperm : al.Perm (ow ++ gh) :=
    a2.trans ((hs.all_perm.filter _).trans (by
      rw [List.filter_append]; exact (o2.append g2).symm))
  have hL : ∀ map' : List Int, map'.length = s.map.length →
      Loose m { s with owned := ow, ghost := gh, all := al, map := map' } := fun map' hl =>
    ⟨hperm, hnda, fun e he => hs.owned_type e ((hmemo e).1 he).1, fun e he => hs.ghost_type e ((hmemg e).1 he).1,
      fun e he => hs.bound e ((hmema e).1 he).1, by dsimp only; rw [hl]; exact hs.map_len⟩
  cases hmm : s.haveMap with
  | false =>
    refine ⟨{ s with owned := ow, ghost := gh, all := al }, ?_, hL s.map rfl, hmemo, hmemg, hmema,
      fun hh => by simp at hh, fun hh => by simp at hh⟩
    unfold remEntities
    simp only [o1, g1, a1, hmm, Bool.false_eq_true, if_false]
  | true =>
    have hl : s.map.length = m.nAll := by rw [hs.map_len, if_pos hmm]
    obtain ⟨map', i1, i2, i3⟩ := indexLoop_ok al hnda (List.range al.length) s.map (by simp)
      (fun e he => by rw [hl]; exact hs.bound e ((hmema e).1 he).1)
    refine ⟨{ s with owned := ow, ghost := gh, all := al, map := map' }, ?_, hL _ i2, hmemo, hmemg, hmema,
      fun _ e he => ?_, fun _ e he hes => ?_⟩
    · unfold remEntities
      simp only [o1, g1, a1, hmm, if_true, i1]
    · apply indexInSet_eq
      dsimp only
      rw [i3, if_pos ⟨he, List.mem_range.2 (List.idxOf_lt_length_iff.2 he)⟩, posOrNeg_of_mem he, entities_all]
    · have hb : e < s.map.length := by rw [hl]; exact hs.bound e he
      have hget : map'[e]? = s.map[e]? := by
        rw [i3, if_neg]
        rintro ⟨h1, -⟩
        exact ((hmema e).1 h1).2 hes
      rw [indexInSet_eq (s := s) (List.getElem?_eq_getElem hb)]
      exact indexInSet_eq (by dsimp only; rw [hget]; exact List.getElem?_eq_getElem hb)

example : Loose exMesh exSet ∧ [3, 0].Nodup := ⟨exSet_proper.loose, by decide⟩

/-- **C24 is false of `rem_entities` as to the index of removed entities:** whatever is removed still has its old,
non-negative `index_in_set`. -/
theorem rem_entities_stale_index (m : MeshView) (s : Obj) (es : List Nat) (e : Nat) (hs : Proper m s)
    (hm : s.haveMap = true) (hi : IndexExact m s) (hn : es.Nodup) (he : e ∈ es) (hea : e ∈ s.all) :
    ∃ s' i, remEntities m s es = .ok s' ∧ e ∉ entities s' .ALL ∧ indexInSet s' e = .ok i ∧ 0 ≤ i := by
  obtain ⟨s', h1, -, -, -, h5, -, h7⟩ := rem_entities_partial m s es hs.loose hn
  refine ⟨s', posOrNeg s.all e, h1, fun hh => ((h5 e).1 hh).2 he, ?_, ?_⟩
  · rw [h7 hm e hea he, hi e (hs.bound e hea), entities_all]
  · rw [posOrNeg_of_mem hea]; omega

example : (0 : Nat) ∈ [0] ∧ 0 ∈ exSet.all ∧ exSet.haveMap = true := by decide

/-- **C24 is false of `rem_entities` for lists with repetition:** asking twice for entity 2 also removes entity 1. -/
theorem rem_entities_repeated_removes_other :
    ∃ s s', construct exMesh "s" 0 .CELL [0, 1, 2] [] true = .ok s ∧ remEntities exMesh s [2, 2] = .ok s' ∧
      entities s' .ALL = [0] ∧ entities s' .PARALLEL_OWNED = [0] :=
  ⟨_, _, rfl, rfl, by decide, by decide⟩

end Jali.MSet
