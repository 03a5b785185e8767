import Verif.Props.MstkInherit
/-
C126: the query for labeled sets.
-/
namespace Jali.Mstk

variable {α : Type} [Zero α]

/-! ### The query -/

omit [Zero α] in
/-- **C126** a region of another kind than the query is refused -/
theorem other_kind_throws (s : Source α) (sets : List (MstkSet s.j.m)) (r : Rgn) {str label : String} (h : r.labeled = some (str, label)) :
    (str ≠ "CELL" → str ≠ "Entity_kind::CELL" → s.labeledEntities sets r .CELL = .throws) ∧
    (str ≠ "FACE" → str ≠ "Entity_kind::FACE" → s.labeledEntities sets r .FACE = .throws) ∧
    (str ≠ "NODE" → str ≠ "Entity_kind::NODE" → s.labeledEntities sets r .NODE = .throws) := by
  unfold Source.labeledEntities
  rw [h]
  exact ⟨fun h1 h2 => if_pos ⟨h1, h2⟩, fun h1 h2 => if_pos ⟨h1, h2⟩, fun h1 h2 => if_pos ⟨h1, h2⟩⟩

omit [Zero α] in
/-- **C126** a label that is both an element block and an element set is refused -/
theorem both_sets_throw (s : Source α) (sets : List (MstkSet s.j.m)) (r : Rgn) {label : String} (h : r.Asked .CELL label) :
    (∃ t ∈ sets, t.name = "matset_" ++ label) → (∃ t ∈ sets, t.name = "elemset_" ++ label) →
    s.labeledEntities sets r .CELL = .throws := by
  rintro ⟨t, h1, h2⟩ ⟨t', h3, h4⟩
  obtain ⟨str, hl⟩ := h.labeled
  obtain ⟨a, _, _, b⟩ := internalName_eq hl
  have key : ∀ n, (∃ t ∈ sets, t.name = n) → ∃ u, byName sets n = some u := by
    rintro n ⟨t, h1, h2⟩
    cases hb : byName sets n with
    | some u => exact ⟨u, rfl⟩
    | none => exact absurd h2 (setByName_none.mp hb t h1)
  obtain ⟨u, hu⟩ := key _ ⟨t, h1, h2⟩
  obtain ⟨u', hu'⟩ := key _ ⟨t', h3, h4⟩
  unfold Source.labeledEntities
  rw [hl]
  dsimp only
  split
  · rfl
  · rw [a, b, hu, hu']

/-- the prefix of the names of sets that are made from a file -/
def filePrefix : EntityKind → String
  | .CELL => "matset_"
  | .FACE => "sideset_"
  | _ => "nodeset_"

omit [Zero α] in
theorem internalName_prefix {r : Rgn} {k : EntityKind} {label : String} (h : r.Asked k label) :
    internalName r k = filePrefix k ++ label := by
  obtain ⟨str, hl⟩ := h.labeled
  obtain ⟨a, b, c, _⟩ := internalName_eq hl
  rcases h.kind with rfl | rfl | rfl
  · exact a
  · exact b
  · exact c

omit [Zero α] in
/-- **C126** the answers are the entities of the set with the label, those of other partitions apart; if there is no such set, there
are no answers -/
theorem set_answers (s : Source α) (sets : List (MstkSet s.j.m)) (hu : (sets.map MstkSet.name).Nodup) (r : Rgn) {k : EntityKind}
    {label : String} (h : r.Asked k label) (he : k = .CELL → NoSet sets ("elemset_" ++ label)) :
    ∃ own gh, s.labeledEntities sets r k = .made (own, gh) ∧
      (∀ i, i ∈ own ↔ ∃ t ∈ sets, t.name = filePrefix k ++ label ∧ ∃ e ∈ t.ents, e.ptype ≠ .ghost ∧ s.entId e - 1 = i) ∧
      (∀ i, i ∈ gh ↔ ∃ t ∈ sets, t.name = filePrefix k ++ label ∧ ∃ e ∈ t.ents, e.ptype = .ghost ∧ s.entId e - 1 = i) := by
  refine ⟨_, _, labeledEntities_eq h he, ?_⟩
  rw [internalName_prefix h]
  cases hb : byName sets (filePrefix k ++ label) with
  | none =>
    have hn := setByName_none.mp hb
    constructor
    · intro i
      constructor
      · intro h; cases h
      · rintro ⟨t, h1, h2, _⟩; exact absurd h2 (hn t h1)
    · intro i
      constructor
      · intro h; cases h
      · rintro ⟨t, h1, h2, _⟩; exact absurd h2 (hn t h1)
  | some t =>
    obtain ⟨h1, h2⟩ := setByName_name hb
    have uniq : ∀ t' ∈ sets, t'.name = filePrefix k ++ label → t' = t := by
      intro t' h3 h4
      exact List.inj_on_of_nodup_map hu h3 h1 (h4.trans h2.symm)
    constructor
    · intro i
      show i ∈ (s.split t).1 ↔ _
      unfold Source.split
      simp only [List.mem_map, List.mem_filter, decide_eq_true_eq]
      constructor
      · rintro ⟨e, ⟨h3, h4⟩, h5⟩; exact ⟨t, h1, h2, e, h3, h4, h5⟩
      · rintro ⟨t', h3, h4, e, h5, h6, h7⟩
        rw [uniq t' h3 h4] at h5
        exact ⟨e, ⟨h5, h6⟩, h7⟩
    · intro i
      show i ∈ (s.split t).2 ↔ _
      unfold Source.split
      simp only [List.mem_map, List.mem_filter, decide_eq_true_eq]
      constructor
      · rintro ⟨e, ⟨h3, h4⟩, h5⟩; exact ⟨t, h1, h2, e, h3, h4, h5⟩
      · rintro ⟨t', h3, h4, e, h5, h6, h7⟩
        rw [uniq t' h3 h4] at h5
        exact ⟨e, ⟨h5, h6⟩, h7⟩

omit [Zero α] in
theorem answer_cases {s : Source α} {sets : List (MstkSet s.j.m)} (hf : FileSets s.dim3 sets) {r : Rgn} {k : EntityKind} {label : String}
    (h : r.Asked k label) {p : List Nat × List Nat} (ha : s.labeledEntities sets r k = .made p) :
    p = ([], []) ∨ ∃ t d, p = s.split t ∧ kindToMtype s.dim3 k = some d ∧ t.Of d := by
  obtain ⟨str, hl⟩ := h.labeled
  have key : ∀ o : Option (MstkSet s.j.m), (∀ t, o = some t → ∃ d, kindToMtype s.dim3 k = some d ∧ t.Of d) →
      s.splitOr o = p → p = ([], []) ∨ ∃ t d, p = s.split t ∧ kindToMtype s.dim3 k = some d ∧ t.Of d := by
    intro o ho h1
    cases o with
    | none => exact Or.inl h1.symm
    | some t =>
      obtain ⟨d, h2, h3⟩ := ho t rfl
      exact Or.inr ⟨t, d, h1.symm, h2, h3⟩
  have typed := file_typed hf h
  unfold Source.labeledEntities at ha
  rw [hl] at ha
  rcases h.kind with rfl | rfl | rfl
  · dsimp only at ha
    split at ha
    · cases ha
    · split at ha
      · cases ha
      · rename_i t h1 h2
        exact key (some t) (fun t' ht' => typed t' (by rw [← ht']; exact h1)) (Outcome.made.inj ha)
      · rename_i o h1
        refine key (byName sets (otherInternalName r .CELL)) (fun t ht => ?_) (Outcome.made.inj ha)
        obtain ⟨a, b⟩ := setByName_name ht
        rw [(internalName_eq hl).2.2.2] at b
        exact ⟨_, rfl, hf.element t a label b⟩
  · dsimp only at ha
    split at ha
    · cases ha
    · exact key _ typed (Outcome.made.inj ha)
  · dsimp only at ha
    split at ha
    · cases ha
    · exact key _ typed (Outcome.made.inj ha)

omit [Zero α] in
/-- **C126** the answers are ids of entities of the kind that was asked for; the first list has owned ids, the second ghost ids -/
theorem set_ids (s : Source α) (sets : List (MstkSet s.j.m)) (hf : FileSets s.dim3 sets) (hfaces : s.j.faces = true)
    (hbg : s.j.bg = false) (r : Rgn) {k : EntityKind} {label : String} (h : r.Asked k label) {own gh : List Nat}
    (ha : s.labeledEntities sets r k = .made (own, gh)) :
    ∃ L, s.idsOf k = some L ∧ (∀ i ∈ own, i ∈ L.owned) ∧ (∀ i ∈ gh, i ∈ L.ghost) := by
  have hex : ∃ L, s.idsOf k = some L := by
    rcases h.kind with rfl | rfl | rfl <;> exact ⟨_, rfl⟩
  obtain ⟨L, hL⟩ := hex
  refine ⟨L, hL, ?_⟩
  rcases answer_cases hf h ha with h1 | ⟨t, d, h1, h2, _, h3⟩
  · obtain ⟨rfl, rfl⟩ := Prod.mk.inj h1
    exact ⟨fun i hi => (by cases hi), fun i hi => (by cases hi)⟩
  · obtain ⟨rfl, rfl⟩ := Prod.mk.inj h1
    have main : ∀ e ∈ t.ents, (e.ptype ≠ .ghost → s.entId e - 1 ∈ L.owned) ∧ (e.ptype = .ghost → s.entId e - 1 ∈ L.ghost) := by
      intro e he
      have hd := h3 e he
      rcases h.kind with rfl | rfl | rfl
      · have hL := Option.some.inj hL
        have h2 := Option.some.inj h2
        cases h3d : s.dim3 with
        | true =>
          rw [h3d, if_pos rfl] at hL h2
          subst h2
          cases e with
          | r e =>
            rw [← hL]
            constructor
            · intro hp
              exact List.mem_map.mpr ⟨e, by simp [ownedCells, hbg]; exact hp, rfl⟩
            · intro hp
              exact List.mem_map.mpr ⟨e, by simp [ghostList]; exact hp, rfl⟩
          | v e => cases hd
          | e e => cases hd
          | f e => cases hd
        | false =>
          rw [h3d, if_neg (by simp)] at hL h2
          subst h2
          cases e with
          | f e =>
            rw [← hL]
            have hid : s.entId (.f e) = (s.j.m.cmap s.j.bg).id e := by
              show s.faceId e = _
              simp [Source.faceId, h3d]
            rw [hid]
            constructor
            · intro hp
              exact List.mem_map.mpr ⟨e, by simp [ownedCells, hbg]; exact hp, rfl⟩
            · intro hp
              exact List.mem_map.mpr ⟨e, by simp [ghostList]; exact hp, rfl⟩
          | v e => cases hd
          | e e => cases hd
          | r e => cases hd
      · have hL := Option.some.inj hL
        have h2 := Option.some.inj h2
        cases h3d : s.dim3 with
        | true =>
          rw [h3d, if_pos rfl] at hL h2
          subst h2
          cases e with
          | f e =>
            rw [← hL]
            have hid : s.entId (.f e) = s.j.m.fmap.id e := by
              show s.faceId e = _
              simp [Source.faceId, h3d, hfaces]
            rw [hid]
            constructor
            · intro hp
              exact List.mem_map.mpr ⟨e, by simp [ownedList]; exact hp, rfl⟩
            · intro hp
              exact List.mem_map.mpr ⟨e, by simp [ghostList]; exact hp, rfl⟩
          | v e => cases hd
          | e e => cases hd
          | r e => cases hd
        | false =>
          rw [h3d, if_neg (by simp)] at hL h2
          subst h2
          cases e with
          | e e =>
            rw [← hL]
            have hid : s.entId (.e e) = s.j.m.emap.id e := by
              show s.edgeId e = _
              simp [Source.edgeId, h3d, hfaces]
            rw [hid]
            constructor
            · intro hp
              exact List.mem_map.mpr ⟨e, by simp [ownedList]; exact hp, rfl⟩
            · intro hp
              exact List.mem_map.mpr ⟨e, by simp [ghostList]; exact hp, rfl⟩
          | v e => cases hd
          | f e => cases hd
          | r e => cases hd
      · have hL := Option.some.inj hL
        have h2 := Option.some.inj h2
        subst h2
        cases e with
        | v e =>
          rw [← hL]
          constructor
          · intro hp
            exact List.mem_map.mpr ⟨e, by simp [ownedList]; exact hp, rfl⟩
          · intro hp
            exact List.mem_map.mpr ⟨e, by simp [ghostList]; exact hp, rfl⟩
        | e e => cases hd
        | f e => cases hd
        | r e => cases hd
    constructor
    · intro i hi
      obtain ⟨e, he, rfl⟩ := List.mem_map.mp hi
      obtain ⟨h4, h5⟩ := List.mem_filter.mp he
      exact (main e h4).1 (by simpa using h5)
    · intro i hi
      obtain ⟨e, he, rfl⟩ := List.mem_map.mp hi
      obtain ⟨h4, h5⟩ := List.mem_filter.mp he
      exact (main e h4).2 (by simpa using h5)

/-! ### An example: two tetrahedra, the second one on another partition -/

theorem twoTetsSets_file : FileSets true twoTetsSets := by
  refine ⟨?_, ?_, ?_, ?_⟩
  all_goals
    intro t ht l hn
    simp only [List.mem_cons, List.not_mem_nil, or_false] at ht
    rcases ht with rfl | rfl | rfl <;>
      first
        | exact ⟨rfl, by decide⟩
        | (have h := congrArg String.toList hn; simp at h)

example : (twoTetsSets.map MstkSet.name).Nodup ∧ twoTetsGm[0].Asked .CELL "7" ∧ NoSet twoTetsSets ("elemset_" ++ "7") := by
  refine ⟨by decide, Or.inl (Or.inl ⟨rfl, rfl⟩), ?_⟩
  unfold NoSet
  decide

/-- the same mesh with a second cell of another partition -/
abbrev ghostTets : Source Int := { twoTetsSrc with
  j := { twoTetsSrc.j with m := { twoTets with region := ![⟨.ghost, 2, [(0, true), (1, true), (2, true), (3, true)], false⟩,
    ⟨.interior, 1, [(3, false), (4, true), (5, true), (6, true)], false⟩] } } }

set_option synthInstance.maxHeartbeats 400000 in
example : (ghostTets.labeledEntities [⟨"matset_7", .region, [.r (0 : Fin 2), .r (1 : Fin 2)]⟩] twoTetsGm[0] .CELL).get? = some ([0], [1]) := by
  decide +kernel

end Jali.Mstk
