import Verif.Proof.MstkSets3
/- Parents of entities and sets of an extracted mesh. -/
namespace Jali.Mstk

variable {α : Type} [Zero α]

omit [Zero α] in
theorem parent_generic {n' n : Nat} {im : IdMap n'} {L : List (Fin n')} (hL : Numbered im L) {par : Fin n' → Option (Fin n)}
    (has : ∀ h, ∃ p, par h = some p) {ids : Fin n → Nat} (i p : Nat) :
    (im.at i).map (fun h => parentId ids (par h)) = some p ↔ ∃ h q, im.id h - 1 = i ∧ par h = some q ∧ ids q - 1 = p := by
  constructor
  · intro h
    obtain ⟨v, h1, h2⟩ := Option.map_eq_some_iff.mp h
    obtain ⟨q, hq⟩ := has v
    rw [hq] at h2
    exact ⟨v, q, hL.at_iff.mp h1, hq, h2⟩
  · rintro ⟨v, q, h1, h2, h3⟩
    rw [hL.at_iff.mpr h1, Option.map_some, h2]
    exact congrArg some h3

/-- `entity_get_parent` for a kind of entities, of dimension `d` in the source -/
def ParentIs {src : Source α} (x : Extracted src) (k : EntityKind) (d : MType) : Prop :=
  ∀ i p, x.parent k i = some p ↔
    ∃ y e, x.built.par y = some e ∧ e.dim = d ∧ x.asSource.entId y - 1 = i ∧ src.entId e - 1 = p

omit [Zero α] in
theorem ParentIs.v {src : Source α} {x : Extracted src} {k : EntityKind}
    (h : ∀ i p, x.parent k i = some p ↔ ∃ h q, x.asSource.vertexId h - 1 = i ∧ x.built.vpar h = some q ∧ src.vertexId q - 1 = p) :
    ParentIs x k .vertex := by
  intro i p
  rw [h]
  constructor
  · rintro ⟨y, q, h1, h2, h3⟩
    exact ⟨.v y, .v q, by unfold Built.par; dsimp only; rw [h2]; rfl, rfl, h1, h3⟩
  · rintro ⟨y, e, h1, h2, h3, h4⟩
    cases e with
    | v q =>
      cases y with
      | v y =>
        obtain ⟨q', h5, h6⟩ := Option.map_eq_some_iff.mp h1
        cases h6
        exact ⟨y, q, h3, h5, h4⟩
      | e y => obtain ⟨q', _, h6⟩ := Option.map_eq_some_iff.mp h1; cases h6
      | f y => obtain ⟨q', _, h6⟩ := Option.map_eq_some_iff.mp h1; cases h6
      | r y => obtain ⟨q', _, h6⟩ := Option.map_eq_some_iff.mp h1; cases h6
    | e q => cases h2
    | f q => cases h2
    | r q => cases h2

omit [Zero α] in
theorem ParentIs.e {src : Source α} {x : Extracted src} {k : EntityKind}
    (h : ∀ i p, x.parent k i = some p ↔ ∃ h q, x.asSource.edgeId h - 1 = i ∧ x.built.epar h = some q ∧ src.edgeId q - 1 = p) :
    ParentIs x k .edge := by
  intro i p
  rw [h]
  constructor
  · rintro ⟨y, q, h1, h2, h3⟩
    exact ⟨.e y, .e q, by unfold Built.par; dsimp only; rw [h2]; rfl, rfl, h1, h3⟩
  · rintro ⟨y, e, h1, h2, h3, h4⟩
    cases e with
    | e q =>
      cases y with
      | e y =>
        obtain ⟨q', h5, h6⟩ := Option.map_eq_some_iff.mp h1
        cases h6
        exact ⟨y, q, h3, h5, h4⟩
      | v y => obtain ⟨q', _, h6⟩ := Option.map_eq_some_iff.mp h1; cases h6
      | f y => obtain ⟨q', _, h6⟩ := Option.map_eq_some_iff.mp h1; cases h6
      | r y => obtain ⟨q', _, h6⟩ := Option.map_eq_some_iff.mp h1; cases h6
    | v q => cases h2
    | f q => cases h2
    | r q => cases h2

omit [Zero α] in
theorem ParentIs.f {src : Source α} {x : Extracted src} {k : EntityKind}
    (h : ∀ i p, x.parent k i = some p ↔ ∃ h q, x.asSource.faceId h - 1 = i ∧ x.built.fpar h = some q ∧ src.faceId q - 1 = p) :
    ParentIs x k .face := by
  intro i p
  rw [h]
  constructor
  · rintro ⟨y, q, h1, h2, h3⟩
    exact ⟨.f y, .f q, by unfold Built.par; dsimp only; rw [h2]; rfl, rfl, h1, h3⟩
  · rintro ⟨y, e, h1, h2, h3, h4⟩
    cases e with
    | f q =>
      cases y with
      | f y =>
        obtain ⟨q', h5, h6⟩ := Option.map_eq_some_iff.mp h1
        cases h6
        exact ⟨y, q, h3, h5, h4⟩
      | v y => obtain ⟨q', _, h6⟩ := Option.map_eq_some_iff.mp h1; cases h6
      | e y => obtain ⟨q', _, h6⟩ := Option.map_eq_some_iff.mp h1; cases h6
      | r y => obtain ⟨q', _, h6⟩ := Option.map_eq_some_iff.mp h1; cases h6
    | v q => cases h2
    | e q => cases h2
    | r q => cases h2

omit [Zero α] in
theorem ParentIs.r {src : Source α} {x : Extracted src} {k : EntityKind}
    (h : ∀ i p, x.parent k i = some p ↔ ∃ h q, x.asSource.regionId h - 1 = i ∧ x.built.rpar h = some q ∧ src.regionId q - 1 = p) :
    ParentIs x k .region := by
  intro i p
  rw [h]
  constructor
  · rintro ⟨y, q, h1, h2, h3⟩
    exact ⟨.r y, .r q, by unfold Built.par; dsimp only; rw [h2]; rfl, rfl, h1, h3⟩
  · rintro ⟨y, e, h1, h2, h3, h4⟩
    cases e with
    | r q =>
      cases y with
      | r y =>
        obtain ⟨q', h5, h6⟩ := Option.map_eq_some_iff.mp h1
        cases h6
        exact ⟨y, q, h3, h5, h4⟩
      | v y => obtain ⟨q', _, h6⟩ := Option.map_eq_some_iff.mp h1; cases h6
      | e y => obtain ⟨q', _, h6⟩ := Option.map_eq_some_iff.mp h1; cases h6
      | f y => obtain ⟨q', _, h6⟩ := Option.map_eq_some_iff.mp h1; cases h6
    | v q => cases h2
    | e q => cases h2
    | f q => cases h2


section
variable {src : Source α} {ids : List Nat} {x : Extracted src} {l : List (Fin src.j.m.nr)} (h : FromCells src ids x l)
include h

theorem FromCells.parentCell : ParentIs x .CELL .region := by
  apply ParentIs.r
  intro i p
  rw [parent_cell3 h.dim]
  refine parent_generic h.rplain (fun r => ?_) i p
  have hr := r.isLt
  rw [h.copy.rpar, List.getElem?_eq_getElem (by rw [← h.copy.nr]; exact hr)]
  exact ⟨_, rfl⟩

theorem FromCells.parentFace (hf : x.faces = true) : ParentIs x .FACE .face := by
  apply ParentIs.f
  intro i p
  rw [parent_face3 h.dim hf]
  have e : x.asSource.faceId = x.j.m.fmap.id := by
    funext v
    show (if x.dim3 then (if x.faces then _ else _) else _) = _
    rw [if_pos h.dim, if_pos hf]
  rw [e]
  exact parent_generic h.fplain h.copy.fhas i p

theorem FromCells.parentNode : ParentIs x .NODE .vertex := by
  apply ParentIs.v
  intro i p
  rw [parent_node]
  exact parent_generic h.vplain (fun v => let ⟨p, hp, _⟩ := h.copy.vhas v; ⟨p, hp⟩) i p

end

section
variable {src : Source α} {fm : IdMap src.j.m.nf} {flatten : Bool} {ids : List Nat} {x : Extracted src}
  {l : List (Fin src.j.m.nf)} (h : FromFaces src fm flatten ids x l)
include h

theorem FromFaces.parentCell : ParentIs x .CELL .face := by
  apply ParentIs.f
  intro i p
  rw [parent_cell2 h.dim]
  have e : x.asSource.faceId = (x.j.m.cmap x.j.bg).id := by
    funext v
    show (if x.dim3 then _ else _) = _
    rw [if_neg (by simp [h.dim])]
  rw [e]
  exact parent_generic h.cplain h.fget i p

theorem FromFaces.parentFace (hf : x.faces = true) : ParentIs x .FACE .edge := by
  apply ParentIs.e
  intro i p
  rw [parent_face2 h.dim hf]
  have e : x.asSource.edgeId = x.j.m.emap.id := by
    funext v
    show (if (x.edges || (!x.dim3 && x.faces)) = true then _ else _) = _
    rw [if_pos (by simp [h.dim, hf])]
  rw [e]
  exact parent_generic h.eplain (fun v => let ⟨p, hp, _⟩ := h.copy.ehas v; ⟨p, hp⟩) i p

theorem FromFaces.parentNode : ParentIs x .NODE .vertex := by
  apply ParentIs.v
  intro i p
  rw [parent_node]
  exact parent_generic h.vplain (fun v => let ⟨p, hp, _⟩ := h.copy.vhas v; ⟨p, hp⟩) i p

end

/-- a set that is inherited without change of dimension -/
theorem same_inSet {src : Source α} {sets : List (MstkSet src.j.m)} {gm : List Rgn} {diff : Bool} {listed : List (Ent src.j.m)}
    {w : WithSets src} (h : FromSets src sets gm diff listed w) {r : Rgn} (hr : r ∈ gm) {k : EntityKind} {label : String}
    (hl : r.Long k label) (he : k = .CELL → NoSet sets ("elemset_" ++ label)) {d : MType}
    (hd : diff = false ∨ ∀ t, byName sets (internalName r k) = some t → t.Of .vertex ∧ ∀ e ∈ listed, e.dim ≠ .vertex)
    (ht : ∀ t, byName sets (internalName r k) = some t → t.Of d)
    (hinj : ∀ e e' : Ent src.j.m, e.dim = d → e'.dim = d → src.entId e - 1 = src.entId e' - 1 → e = e')
    (hp : ParentIs w.x k d) (i : Nat) :
    w.x.asSource.InSet w.sets r k i ↔ ∃ p, w.x.parent k i = some p ∧ src.InSet sets r k p := by
  have key := (h.same (n := internalName r k) ⟨r, hr, inheritName_long hl⟩ hd).1
  rw [inSet_iff (Or.inl hl) (fun hk => h.absent (he hk))]
  constructor
  · rintro ⟨t', h1, y, h2, h3⟩
    obtain ⟨t, h4, e, h5, h6⟩ := (key y).mp ⟨t', h1, h2⟩
    refine ⟨src.entId e - 1, (hp i _).mpr ⟨y, e, h6, (ht t h4).2 e h5, h3, rfl⟩, ?_⟩
    exact (inSet_iff (Or.inl hl) he _).mpr ⟨t, h4, e, h5, rfl⟩
  · rintro ⟨p, h1, h2⟩
    obtain ⟨t, h3, e, h4, h5⟩ := (inSet_iff (Or.inl hl) he _).mp h2
    obtain ⟨y, e', h6, h7, h8, h9⟩ := (hp i p).mp h1
    have := hinj e' e h7 ((ht t h3).2 e h4) (h9.trans h5.symm)
    subst this
    obtain ⟨t', h10, h11⟩ := (key y).mpr ⟨t, h3, e', h4, h6⟩
    exact ⟨t', h10, y, h11, h8⟩

/-- a set that goes down by a dimension -/
theorem lower_inSet {src : Source α} {sets : List (MstkSet src.j.m)} {gm : List Rgn} {listed : List (Ent src.j.m)}
    {w : WithSets src} (h : FromSets src sets gm true listed w) {r : Rgn} (hr : r ∈ gm) {k : EntityKind} {label : String}
    (hl : r.Long k label) (he : k = .CELL → NoSet sets ("elemset_" ++ label)) {d d' : MType} (hdv : d ≠ .vertex)
    (ht : ∀ t, byName sets (internalName r k) = some t → t.Of d)
    (hb : ∀ e : Ent src.j.m, e.dim = d → ∀ z ∈ e.boundary, z.dim = d')
    (hp : ParentIs w.x k d') {B : Nat → Nat → Prop}
    (hB : ∀ (e z : Ent src.j.m), e.dim = d → z.dim = d' → (B (src.entId e - 1) (src.entId z - 1) ↔ z ∈ e.boundary))
    (i : Nat) :
    w.x.asSource.InSet w.sets r k i ↔ (∀ t, byName sets (internalName r k) = some t → ∀ e ∈ listed, e ∉ t.ents) ∧
      ∃ p, w.x.parent k i = some p ∧ ∃ c, src.InSet sets r k c ∧ B c p := by
  have key := (h.lower (n := internalName r k) ⟨r, hr, inheritName_long hl⟩ (fun t h1 h2 => hdv ((ht t h1).1.symm.trans h2))).1
  rw [inSet_iff (Or.inl hl) (fun hk => h.absent (he hk))]
  constructor
  · rintro ⟨t', h1, y, h2, h3⟩
    obtain ⟨t, h4, h0, e, h5, z, h6, h7⟩ := (key y).mp ⟨t', h1, h2⟩
    have hed := (ht t h4).2 e h5
    have hzd := hb e hed z h6
    refine ⟨?_, src.entId z - 1, (hp i _).mpr ⟨y, z, h7, hzd, h3, rfl⟩, src.entId e - 1, ?_, (hB e z hed hzd).mpr h6⟩
    · intro t2 h8
      rw [h4] at h8
      rw [← Option.some.inj h8]
      exact h0
    · exact (inSet_iff (Or.inl hl) he _).mpr ⟨t, h4, e, h5, rfl⟩
  · rintro ⟨h0, p, h1, c, h2, hBc⟩
    obtain ⟨t, h3, e, h4, h5⟩ := (inSet_iff (Or.inl hl) he _).mp h2
    obtain ⟨y, z, h6, h7, h8, h9⟩ := (hp i p).mp h1
    rw [← h5, ← h9] at hBc
    have hz := (hB e z ((ht t h3).2 e h4) h7).mp hBc
    obtain ⟨t', h10, h11⟩ := (key y).mpr ⟨t, h3, h0 t h3, e, h4, z, hz, h6⟩
    exact ⟨t', h10, y, h11, h8⟩

end Jali.Mstk
