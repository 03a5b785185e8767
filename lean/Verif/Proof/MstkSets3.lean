import Verif.Proof.MstkSets2
import Verif.Props.MstkExtract2
/- Lemmas about the sets of an extracted mesh. -/
namespace Jali.Mstk

variable {α : Type} [Zero α]

/-- how the sets of an extracted mesh came about -/
structure FromSets (src : Source α) (sets : List (MstkSet src.j.m)) (gm : List Rgn) (diff : Bool) (listed : List (Ent src.j.m))
    (w : WithSets src) : Prop where
  ex : ∃ s, CopyOk s w.x.built ∧ w.sets = inheritSets s w.x.built diff listed sets gm

theorem extractS_cells {src : Source α} {sets : List (MstkSet src.j.m)} {gm : List Rgn} (hd : src.dim3 = true) {rf re : Bool}
    {ids : List Nat} (hn : ids.Nodup) {w : WithSets src} (h : extractS src sets gm .CELL false false rf re ids = .made w) :
    extract src .CELL false false rf re ids = .made w.x ∧ ∃ listed, FromSets src sets gm false listed w := by
  unfold extractS kindToMtype at h
  unfold extract kindToMtype
  simp only [hd, if_true, Bool.false_eq_true, false_and, if_false] at h ⊢
  cases hl : ids.mapM fun i => fromId src.regionId (i + 1) with
  | none => rw [hl] at h; cases h
  | some l =>
    rw [hl, Option.bind_some] at h
    unfold extractRegionsS at h
    unfold extractRegions
    obtain ⟨b, hb, hc⟩ := isCopy3 src.xyz l
    rw [hb] at h
    replace h : Outcome.made _ = Outcome.made w := h
    replace h := (Outcome.made.inj h).symm
    subst h
    refine ⟨?_, l.map .r, _, copyOk3 ?_ hb, rfl⟩
    · rw [Option.bind_some, hb]; rfl
    · have := mapM_fromId (src.j.m.rnum src.j.bg) hl
      rw [this] at hn
      exact hn.of_map

theorem extractS_faces {src : Source α} {sets : List (MstkSet src.j.m)} {gm : List Rgn} {kind : EntityKind}
    (hk : kindToMtype src.dim3 kind = some .face) {fm : IdMap src.j.m.nf} {L : List (Fin src.j.m.nf)} (hL : Numbered fm L)
    (hfm : ∀ f, src.faceId f = fm.id f) {flatten rf re : Bool} {ids : List Nat} (hn : ids.Nodup) {w : WithSets src}
    (h : extractS src sets gm kind flatten false rf re ids = .made w) :
    extract src kind flatten false rf re ids = .made w.x ∧ ∃ l : List (Fin src.j.m.nf), ids = l.map (fun f => src.faceId f - 1) ∧
      FromSets src sets gm src.dim3 (l.map .f) w := by
  unfold extractS at h
  rw [extract_faces_eq hk]
  rw [hk] at h
  simp only [Bool.false_eq_true, if_false, reduceCtorEq, or_self, and_false] at h
  have hid : src.faceId = fm.id := funext hfm
  rw [hid] at h ⊢
  cases hl : ids.mapM fun i => fromId fm.id (i + 1) with
  | none => rw [hl] at h; cases h
  | some l =>
    rw [hl, Option.bind_some] at h
    unfold extractFacesS at h
    unfold extractFaces
    obtain ⟨b, hb, hc⟩ := isCopy2 src.xyz flatten l
    rw [hb] at h
    replace h : Outcome.made _ = Outcome.made w := h
    replace h := (Outcome.made.inj h).symm
    subst h
    have e := mapM_fromId hL hl
    refine ⟨?_, l, e, _, copyOk2 ?_ hb, rfl⟩
    · rw [Option.bind_some, hb]; rfl
    · rw [e] at hn
      exact hn.of_map

/-- the set of the new mesh under a name, if it is inherited without change of dimension -/
theorem FromSets.same {src : Source α} {sets : List (MstkSet src.j.m)} {gm : List Rgn} {diff : Bool} {listed : List (Ent src.j.m)}
    {w : WithSets src} (h : FromSets src sets gm diff listed w) {n : String} (hn : ∃ r ∈ gm, inheritName r = some n)
    (hd : diff = false ∨ ∀ t, byName sets n = some t → t.Of .vertex ∧ ∀ e ∈ listed, e.dim ≠ .vertex) :
    (∀ y, (∃ t', byName w.sets n = some t' ∧ y ∈ t'.ents) ↔ ∃ t, byName sets n = some t ∧ ∃ e ∈ t.ents, w.x.built.par y = some e) ∧
    (∀ t', byName w.sets n = some t' → ∃ t, byName sets n = some t ∧ t'.dim = t.dim) := by
  obtain ⟨s, hc, hw⟩ := h.ex
  rw [hw, byName_inherit n gm, if_pos hn]
  unfold inheritSet
  cases ht : byName sets n with
  | none =>
    rw [Option.bind_none]
    exact ⟨fun y => by simp, fun t' h => by cases h⟩
  | some t =>
    rw [Option.bind_some]
    have h1 : ¬(diff = true ∧ (listed.any fun e => decide (e ∈ t.ents)) = true) := by
      rintro ⟨h1, h2⟩
      rcases hd with hd | hd
      · rw [hd] at h1; cases h1
      · obtain ⟨⟨_, h3⟩, h4⟩ := hd t ht
        obtain ⟨e, h5, h6⟩ := List.any_eq_true.mp h2
        exact h4 e h5 (h3 e (by simpa using h6))
    have h2 : t.dim = .vertex ∨ diff = false := by
      rcases hd with hd | hd
      · exact Or.inr hd
      · exact Or.inl (hd t ht).1.1
    rw [if_neg h1, if_pos h2]
    constructor
    · intro y
      constructor
      · rintro ⟨t', h3, h4⟩
        rw [← Option.some.inj h3] at h4
        obtain ⟨e, h5, h6⟩ := List.mem_filterMap.mp h4
        exact ⟨t, rfl, e, h5, (hc e y).mp h6⟩
      · rintro ⟨t', h3, e, h4, h5⟩
        rw [← Option.some.inj h3] at h4
        exact ⟨_, rfl, List.mem_filterMap.mpr ⟨e, h4, (hc e y).mpr h5⟩⟩
    · intro t' h3
      exact ⟨t, rfl, by rw [← Option.some.inj h3]⟩

omit [Zero α] in
theorem mem_chknAdd {m : MMesh} : ∀ (es l : List (Ent m)) (y : Ent m), y ∈ chknAdd l es ↔ y ∈ l ∨ y ∈ es := by
  intro es
  induction es with
  | nil => intro l y; simp [chknAdd]
  | cons a es ih =>
    intro l y
    show y ∈ chknAdd (if a ∈ l then l else l ++ [a]) es ↔ _
    rw [ih]
    split
    · rename_i ha
      simp only [List.mem_cons]
      constructor
      · rintro (h | h)
        · exact Or.inl h
        · exact Or.inr (Or.inr h)
      · rintro (h | rfl | h)
        · exact Or.inl h
        · exact Or.inl ha
        · exact Or.inr h
    · simp only [List.mem_cons, List.mem_append, List.mem_singleton, or_assoc, List.not_mem_nil, or_false]

/-- the set of the new mesh under a name, if it goes down by a dimension -/
theorem FromSets.lower {src : Source α} {sets : List (MstkSet src.j.m)} {gm : List Rgn} {listed : List (Ent src.j.m)}
    {w : WithSets src} (h : FromSets src sets gm true listed w) {n : String} (hn : ∃ r ∈ gm, inheritName r = some n)
    (hd : ∀ t, byName sets n = some t → t.dim ≠ .vertex) :
    (∀ y, (∃ t', byName w.sets n = some t' ∧ y ∈ t'.ents) ↔ ∃ t, byName sets n = some t ∧ (∀ e ∈ listed, e ∉ t.ents) ∧
      ∃ e ∈ t.ents, ∃ z ∈ e.boundary, w.x.built.par y = some z) ∧
    (∀ t', byName w.sets n = some t' → ∃ t, byName sets n = some t ∧ t'.dim = t.dim.lower) := by
  obtain ⟨s, hc, hw⟩ := h.ex
  rw [hw, byName_inherit n gm, if_pos hn]
  unfold inheritSet
  cases ht : byName sets n with
  | none =>
    rw [Option.bind_none]
    exact ⟨fun y => by simp, fun t' h => by cases h⟩
  | some t =>
    rw [Option.bind_some]
    have h2 : ¬(t.dim = .vertex ∨ true = false) := by
      rintro (h | h)
      · exact hd t ht h
      · cases h
    by_cases hb : ∀ e ∈ listed, e ∉ t.ents
    · have h1 : ¬(true = true ∧ (listed.any fun e => decide (e ∈ t.ents)) = true) := by
        rintro ⟨_, h2⟩
        obtain ⟨e, h5, h6⟩ := List.any_eq_true.mp h2
        exact hb e h5 (by simpa using h6)
      rw [if_neg h1, if_neg h2]
      constructor
      · intro y
        constructor
        · rintro ⟨t', h3, h4⟩
          rw [← Option.some.inj h3] at h4
          rcases (mem_chknAdd _ _ y).mp h4 with h4 | h4
          · cases h4
          · obtain ⟨z, h5, h6⟩ := List.mem_filterMap.mp h4
            obtain ⟨e, h7, h8⟩ := List.mem_flatMap.mp h5
            exact ⟨t, rfl, hb, e, h7, z, h8, (hc z y).mp h6⟩
        · rintro ⟨t', h3, _, e, h4, z, h5, h6⟩
          rw [← Option.some.inj h3] at h4
          exact ⟨_, rfl, (mem_chknAdd _ _ y).mpr (Or.inr
            (List.mem_filterMap.mpr ⟨z, List.mem_flatMap.mpr ⟨e, h4, h5⟩, (hc z y).mpr h6⟩))⟩
      · intro t' h3
        exact ⟨t, rfl, by rw [← Option.some.inj h3]⟩
    · have h1 : true = true ∧ (listed.any fun e => decide (e ∈ t.ents)) = true := by
        refine ⟨rfl, ?_⟩
        push Not at hb
        obtain ⟨e, h3, h4⟩ := hb
        exact List.any_eq_true.mpr ⟨e, h3, by simpa using h4⟩
      rw [if_pos h1]
      constructor
      · intro y
        constructor
        · rintro ⟨t', h3, _⟩; cases h3
        · rintro ⟨t', h3, h4, _⟩
          rw [← Option.some.inj h3] at h4
          exact absurd h4 hb
      · intro t' h3; cases h3

/-- no set of the new mesh has a name that is not inherited -/
theorem FromSets.none {src : Source α} {sets : List (MstkSet src.j.m)} {gm : List Rgn} {diff : Bool} {listed : List (Ent src.j.m)}
    {w : WithSets src} (h : FromSets src sets gm diff listed w) {n : String} (hn : ∀ r ∈ gm, inheritName r ≠ some n) :
    NoSet w.sets n := by
  obtain ⟨s, _, hw⟩ := h.ex
  rw [← setByName_none, hw, byName_inherit n gm, if_neg (by push Not; exact hn)]

/-- no set of the new mesh has a name that no set of the source has -/
theorem FromSets.absent {src : Source α} {sets : List (MstkSet src.j.m)} {gm : List Rgn} {diff : Bool} {listed : List (Ent src.j.m)}
    {w : WithSets src} (h : FromSets src sets gm diff listed w) {n : String} (hn : NoSet sets n) : NoSet w.sets n := by
  obtain ⟨s, _, hw⟩ := h.ex
  rw [← setByName_none, hw, byName_inherit n gm]
  split
  · unfold inheritSet
    rw [setByName_none.mpr hn]; rfl
  · rfl

/-! ### Ids -/

omit [Zero α] in
theorem Source.vertexId_inj (s : Source α) {a b : Fin s.j.m.nv} (h : s.entId (.v a) - 1 = s.entId (.v b) - 1) : a = b := by
  have h1 := s.j.m.vnum.at_id a
  have h2 := s.j.m.vnum.at_id b
  have h : s.j.m.vmap.id a - 1 = s.j.m.vmap.id b - 1 := h
  rw [h, h2] at h1
  exact (Option.some.inj h1).symm

omit [Zero α] in
theorem Source.regionId_inj (s : Source α) {a b : Fin s.j.m.nr} (h : s.entId (.r a) - 1 = s.entId (.r b) - 1) : a = b := by
  have h1 := (s.j.m.rnum s.j.bg).at_id a
  have h2 := (s.j.m.rnum s.j.bg).at_id b
  have h : (s.j.m.rmap s.j.bg).id a - 1 = (s.j.m.rmap s.j.bg).id b - 1 := h
  rw [h, h2] at h1
  exact (Option.some.inj h1).symm

omit [Zero α] in
theorem Source.faceId_inj {s : Source α} {fm : IdMap s.j.m.nf} {L : List (Fin s.j.m.nf)} (hL : Numbered fm L)
    (hid : ∀ f, s.faceId f = fm.id f) {a b : Fin s.j.m.nf} (h : s.entId (.f a) - 1 = s.entId (.f b) - 1) : a = b := by
  have h1 := hL.at_id a
  have h2 := hL.at_id b
  have h : s.faceId a - 1 = s.faceId b - 1 := h
  rw [hid, hid] at h
  rw [h, h2] at h1
  exact (Option.some.inj h1).symm

omit [Zero α] in
theorem Source.edgeId_inj {s : Source α} (hid : ∀ f, s.edgeId f = s.j.m.emap.id f) {a b : Fin s.j.m.ne}
    (h : s.entId (.e a) - 1 = s.entId (.e b) - 1) : a = b := by
  have h1 := s.j.m.enum.at_id a
  have h2 := s.j.m.enum.at_id b
  have h : s.edgeId a - 1 = s.edgeId b - 1 := h
  rw [hid, hid] at h
  rw [h, h2] at h1
  exact (Option.some.inj h1).symm

end Jali.Mstk
