import Verif.Props.MstkSets
/-
C127: extraction of a mesh from names of sets.
-/
namespace Jali.Mstk

variable {α : Type} [Zero α]

omit [Zero α] in
theorem chknAdd_append {m : MMesh} (l a b : List (Ent m)) : chknAdd (chknAdd l a) b = chknAdd l (a ++ b) := by
  unfold chknAdd
  rw [List.foldl_append]

omit [Zero α] in
/-- the ids of a list without repetitions -/
theorem chknAdd_map {m : MMesh} {f : Ent m → Nat} (es : List (Ent m)) :
    (∀ a ∈ es, ∀ b ∈ es, f a = f b → a = b) → (chknAdd [] es).map f = (es.map f).eraseDups := by
  induction es using List.reverseRecOn with
  | nil => intro _; rfl
  | append_singleton es a ih =>
    intro hi
    have hi' : ∀ x ∈ es, ∀ b ∈ es, f x = f b → x = b := fun x hx b hb =>
      hi x (List.mem_append_left _ hx) b (List.mem_append_left _ hb)
    rw [← chknAdd_append, List.map_append, List.eraseDups_append, ← ih hi']
    show List.map f (if a ∈ chknAdd [] es then _ else _) = _
    have hm : a ∈ chknAdd [] es ↔ f a ∈ es.map f := by
      rw [mem_chknAdd]
      constructor
      · rintro (h | h)
        · cases h
        · exact List.mem_map.mpr ⟨a, h, rfl⟩
      · intro h
        obtain ⟨b, h1, h2⟩ := List.mem_map.mp h
        have := hi b (List.mem_append_left _ h1) a (List.mem_append_right _ (List.mem_singleton.mpr rfl)) h2
        subst this
        exact Or.inr h1
    by_cases h : a ∈ chknAdd [] es
    · rw [if_pos h]
      have : List.removeAll (List.map f [a]) (es.map f) = [] := by
        simp [List.removeAll]
        simpa using hm.mp h
      rw [this]; simp
    · rw [if_neg h]
      have : List.removeAll (List.map f [a]) (es.map f) = [f a] := by
        simp [List.removeAll]
        intro x hx hfx
        exact h (hm.mpr (List.mem_map.mpr ⟨x, hx, hfx⟩))
      rw [this, List.map_append]
      rfl

/-- the owned entities of the set of a name -/
def ownedEnts (src : Source α) (sets : List (MstkSet src.j.m)) (gm : List Rgn) (k : EntityKind) (n : String) : List (Ent src.j.m) :=
  match findRgn gm n with
  | none => []
  | some r => match byName sets (internalName r k) with
    | none => []
    | some t => t.ents.filter fun e => e.ptype ≠ .ghost

omit [Zero α] in
theorem namedEnts_eq {src : Source α} {sets : List (MstkSet src.j.m)} {gm : List Rgn} {k : EntityKind} :
    ∀ (names : List String) (l : List (Ent src.j.m)), (∀ n ∈ names, ∃ r, findRgn gm n = some r) →
      namedEnts src sets gm k names l = some (chknAdd l (names.flatMap (ownedEnts src sets gm k))) := by
  intro names
  induction names with
  | nil => intro l _; rfl
  | cons n names ih =>
    intro l h
    obtain ⟨r, hr⟩ := h n List.mem_cons_self
    unfold namedEnts
    rw [hr, Option.bind_some, ih _ fun n' hn' => h n' (List.mem_cons_of_mem _ hn'), List.flatMap_cons, ← chknAdd_append]
    congr 2
    unfold ownedEnts
    rw [hr]
    dsimp only
    cases byName sets (internalName r k) with
    | none => rfl
    | some t => rfl

omit [Zero α] in
/-- the ids of these entities are those the query gives -/
theorem ownedEnts_ids {src : Source α} {sets : List (MstkSet src.j.m)} {gm : List Rgn} {k : EntityKind} {n : String} {r : Rgn} {label : String}
    (hr : findRgn gm n = some r) (h : r.Asked k label) (he : k = .CELL → NoSet sets ("elemset_" ++ label)) :
    (ownedEnts src sets gm k n).map (fun e => src.entId e - 1) = src.ownedOf sets gm k n := by
  unfold ownedEnts Source.ownedOf
  rw [hr]
  dsimp only
  rw [labeledEntities_eq h he]
  cases byName sets (internalName r k) with
  | none => rfl
  | some t => rfl

/-- the region of a name is a labeled set of the kind, and the label is not that of an element set -/
def Named {m : MMesh} (sets : List (MstkSet m)) (gm : List Rgn) (k : EntityKind) (n : String) : Prop :=
  ∃ r label, findRgn gm n = some r ∧ r.Asked k label ∧ (k = .CELL → NoSet sets ("elemset_" ++ label))

omit [Zero α] in
theorem ownedEnts_dim {src : Source α} {sets : List (MstkSet src.j.m)} (hf : FileSets src.dim3 sets) {gm : List Rgn} {k : EntityKind}
    {n : String} (h : Named sets gm k n) {d : MType} (hd : kindToMtype src.dim3 k = some d) :
    ∀ e ∈ ownedEnts src sets gm k n, e.dim = d := by
  obtain ⟨r, label, hr, ha, he⟩ := h
  intro e hm
  unfold ownedEnts at hm
  rw [hr] at hm
  dsimp only at hm
  cases hb : byName sets (internalName r k) with
  | none => rw [hb] at hm; cases hm
  | some t =>
    rw [hb] at hm
    obtain ⟨d', h1, _, h2⟩ := file_typed hf ha t hb
    rw [h2 e (List.mem_filter.mp hm).1]
    exact Option.some.inj (h1.symm.trans hd)

/-- the general case: the names are those of labeled sets, ids are unique -/
theorem named_aux {src : Source α} {sets : List (MstkSet src.j.m)} (hf : FileSets src.dim3 sets) {gm : List Rgn}
    {kind : EntityKind} {names : List String} (hn : ∀ n ∈ names, Named sets gm kind n) (flatten extrude faces edges : Bool) {d : MType}
    (hd : kindToMtype src.dim3 kind = some d)
    (hinj : ∀ e e' : Ent src.j.m, e.dim = d → e'.dim = d → src.entId e - 1 = src.entId e' - 1 → e = e')
    (hfid : d = .face → ∀ f, fromId src.faceId (src.faceId f - 1 + 1) = some f)
    (hrid : ∀ f, fromId src.regionId (src.regionId f - 1 + 1) = some f) :
    extractNamed src sets gm names kind flatten extrude faces edges =
      extract src kind flatten extrude faces edges (names.flatMap (src.ownedOf sets gm kind)).eraseDups := by
  have hdim : ∀ e ∈ names.flatMap (ownedEnts src sets gm kind), e.dim = d := by
    intro e he
    obtain ⟨n, h1, h2⟩ := List.mem_flatMap.mp he
    exact ownedEnts_dim hf (hn n h1) hd e h2
  have hids : (names.flatMap (src.ownedOf sets gm kind)).eraseDups =
      (chknAdd [] (names.flatMap (ownedEnts src sets gm kind))).map fun e => src.entId e - 1 := by
    rw [chknAdd_map _ fun a ha b hb => hinj a b (hdim a ha) (hdim b hb), List.map_flatMap]
    congr 1
    clear hdim
    induction names with
    | nil => rfl
    | cons n names ih =>
      rw [List.flatMap_cons, List.flatMap_cons, ih fun n' hn' => hn n' (List.mem_cons_of_mem _ hn')]
      obtain ⟨r, label, hr, ha, he⟩ := hn n List.mem_cons_self
      rw [ownedEnts_ids hr ha he]
  rw [hids]
  unfold extractNamed extract
  rw [namedEnts_eq names [] fun n hm => let ⟨r, _, hr, _⟩ := hn n hm; ⟨r, hr⟩, hd]
  dsimp only
  have hdim' : ∀ e ∈ chknAdd [] (names.flatMap (ownedEnts src sets gm kind)), e.dim = d := by
    intro e he
    rcases (mem_chknAdd _ _ e).mp he with h | h
    · cases h
    · exact hdim e h
  generalize chknAdd [] (names.flatMap (ownedEnts src sets gm kind)) = es at *
  split
  · rfl
  · split
    · rfl
    · cases d with
      | vertex => rfl
      | edge => rfl
      | face =>
        dsimp only
        congr 2
        clear hids hdim
        induction es with
        | nil => rfl
        | cons e es ih =>
          rw [List.map_cons, List.mapM_cons, List.mapM_cons, ih fun x hx => hdim' x (List.mem_cons_of_mem _ hx)]
          have hed := hdim' e List.mem_cons_self
          cases e with
          | f e =>
            show _ = (fromId src.faceId (src.faceId e - 1 + 1)).bind _
            rw [hfid rfl]; rfl
          | v e => cases hed
          | e e => cases hed
          | r e => cases hed
      | region =>
        dsimp only
        congr 2
        clear hids hdim
        induction es with
        | nil => rfl
        | cons e es ih =>
          rw [List.map_cons, List.mapM_cons, List.mapM_cons, ih fun x hx => hdim' x (List.mem_cons_of_mem _ hx)]
          have hed := hdim' e List.mem_cons_self
          cases e with
          | r e =>
            show _ = (fromId src.regionId (src.regionId e - 1 + 1)).bind _
            rw [hrid]; rfl
          | v e => cases hed
          | e e => cases hed
          | f e => cases hed

/-- **C127** a mesh from names of labeled sets of a 3D mesh is the mesh from the owned entities of these sets, each of them once -/
theorem named_extraction3 (src : Source α) (hs : src.Ready3) (sets : List (MstkSet src.j.m)) (hf : FileSets true sets) (gm : List Rgn)
    (kind : EntityKind) (names : List String) (hn : ∀ n ∈ names, Named sets gm kind n)
    (hkind : kind = .CELL ∨ kind = .FACE ∨ kind = .NODE) (flatten extrude faces edges : Bool) :
    extractNamed src sets gm names kind flatten extrude faces edges =
      extract src kind flatten extrude faces edges (names.flatMap (src.ownedOf sets gm kind)).eraseDups := by
  have hex : ∃ d, kindToMtype src.dim3 kind = some d ∧ d ≠ .edge := by
    rw [hs.dim]
    rcases hkind with rfl | rfl | rfl
    · exact ⟨.region, rfl, by simp⟩
    · exact ⟨.face, rfl, by simp⟩
    · exact ⟨.vertex, rfl, by simp⟩
  obtain ⟨d, hd, hde⟩ := hex
  refine named_aux (by rw [hs.dim]; exact hf) hn _ _ _ _ hd (ids3_inj hs hde) (fun _ f => ?_) (fun f => ?_)
  · have : src.faceId = src.j.m.fmap.id := funext fun f => by simp [Source.faceId, hs.dim, hs.ready.faces]
    rw [this, fromId_eq src.j.m.fnum]
    exact src.j.m.fnum.at_id f
  · show fromId (src.j.m.rmap src.j.bg).id _ = _
    rw [fromId_eq (src.j.m.rnum src.j.bg)]
    exact (src.j.m.rnum src.j.bg).at_id f

/-- **C127** the same for a 2D mesh -/
theorem named_extraction2 (src : Source α) (hs : src.Ready2) (sets : List (MstkSet src.j.m)) (hf : FileSets false sets) (gm : List Rgn)
    (kind : EntityKind) (names : List String) (hn : ∀ n ∈ names, Named sets gm kind n)
    (hkind : kind = .CELL ∨ kind = .FACE ∨ kind = .NODE) (flatten extrude faces edges : Bool) :
    extractNamed src sets gm names kind flatten extrude faces edges =
      extract src kind flatten extrude faces edges (names.flatMap (src.ownedOf sets gm kind)).eraseDups := by
  have hex : ∃ d, kindToMtype src.dim3 kind = some d := by
    rw [hs.dim]
    rcases hkind with rfl | rfl | rfl <;> exact ⟨_, rfl⟩
  obtain ⟨d, hd⟩ := hex
  refine named_aux (by rw [hs.dim]; exact hf) hn _ _ _ _ hd (ids2_inj hs) (fun _ f => ?_) (fun f => ?_)
  · have : src.faceId = (src.j.m.cmap src.j.bg).id := funext fun f => by simp [Source.faceId, hs.dim]
    rw [this, fromId_eq (src.j.m.cnum src.j.bg)]
    exact (src.j.m.cnum src.j.bg).at_id f
  · show fromId (src.j.m.rmap src.j.bg).id _ = _
    rw [fromId_eq (src.j.m.rnum src.j.bg)]
    exact (src.j.m.rnum src.j.bg).at_id f

/-! ### What is not done -/

theorem named_empty {src : Source α} {sets : List (MstkSet src.j.m)} {gm : List Rgn} {kind : EntityKind} {names : List String}
    (h : ∀ n ∈ names, ∃ r, findRgn gm n = some r ∧ NoSet sets (internalName r kind)) (flatten extrude faces edges : Bool) :
    extractNamed src sets gm names kind flatten extrude faces edges = extract src kind flatten extrude faces edges [] := by
  have he : names.flatMap (ownedEnts src sets gm kind) = [] := by
    rw [List.flatMap_eq_nil_iff]
    intro n hn
    obtain ⟨r, hr, hs⟩ := h n hn
    unfold ownedEnts
    rw [hr]
    dsimp only
    rw [setByName_none.mpr hs]
  unfold extractNamed extract
  rw [namedEnts_eq names [] fun n hm => let ⟨r, hr, _⟩ := h n hm; ⟨r, hr⟩, he]
  dsimp only
  cases kindToMtype src.dim3 kind with
  | none => rfl
  | some t =>
    dsimp only
    split
    · rfl
    · split
      · rfl
      · cases t <;> rfl

/-- **C127** a region that is not a labeled set gives a mesh without entities, whatever the entities in the region are: Jali keeps
such sets itself, and the constructor looks for them in MSTK -/
theorem geometric_sets_ignored (src : Source α) (sets : List (MstkSet src.j.m)) (gm : List Rgn) (kind : EntityKind) {name : String} {r : Rgn}
    (hr : findRgn gm name = some r) (hg : r.labeled = none) (hs : NoSet sets r.name) (flatten extrude faces edges : Bool) :
    extractNamed src sets gm [name] kind flatten extrude faces edges = extract src kind flatten extrude faces edges [] := by
  apply named_empty
  intro n hn
  rw [List.mem_singleton.mp hn]
  refine ⟨r, hr, ?_⟩
  unfold internalName
  rw [hg]
  exact hs

/-- **C127** so does the name of an element set, which the query finds -/
theorem element_sets_ignored (src : Source α) (sets : List (MstkSet src.j.m)) (gm : List Rgn) {name : String} {r : Rgn} {label : String}
    (hr : findRgn gm name = some r) (ha : r.Asked .CELL label) (hs : NoSet sets ("matset_" ++ label)) (flatten extrude faces edges : Bool) :
    extractNamed src sets gm [name] .CELL flatten extrude faces edges = extract src .CELL flatten extrude faces edges [] := by
  apply named_empty
  intro n hn
  rw [List.mem_singleton.mp hn]
  refine ⟨r, hr, ?_⟩
  rw [internalName_prefix ha]
  exact hs

/-- **C127** a name that the geometric model does not know is a null pointer that is used -/
theorem unknown_name (src : Source α) (sets : List (MstkSet src.j.m)) (gm : List Rgn) (kind : EntityKind) {name : String} {names : List String}
    (hn : name ∈ names) (hr : ∀ r ∈ gm, r.name ≠ name) (flatten extrude faces edges : Bool) :
    extractNamed src sets gm names kind flatten extrude faces edges = .undefined := by
  have key : ∀ (names : List String) (l : List (Ent src.j.m)), name ∈ names → namedEnts src sets gm kind names l = none := by
    intro names
    induction names with
    | nil => intro l h; cases h
    | cons n names ih =>
      intro l h
      unfold namedEnts
      rcases List.mem_cons.mp h with rfl | h
      · have : findRgn gm name = none := by
          unfold findRgn
          rw [List.find?_eq_none]
          simpa using hr
        rw [this]; rfl
      · cases findRgn gm n with
        | none => rfl
        | some r => rw [Option.bind_some]; exact ih _ h
  unfold extractNamed
  rw [key names [] hn]

/-! ### An example -/

example : ∀ n ∈ ["block", "block"], Named twoTetsSets twoTetsGm .CELL n := by
  intro n hn
  simp only [List.mem_cons, List.not_mem_nil, or_false, or_self] at hn
  subst hn
  refine ⟨twoTetsGm[0], "7", by decide, Or.inl (Or.inl ⟨rfl, rfl⟩), fun _ => ?_⟩
  unfold NoSet
  decide

/-- the same set twice: one cell -/
example : (["block", "block"].flatMap (twoTetsSrc.ownedOf twoTetsSets twoTetsGm .CELL)).eraseDups = [1] := by decide +kernel

set_option synthInstance.maxHeartbeats 400000 in
example : (extractNamed twoTetsSrc twoTetsSets twoTetsGm ["block", "block"] .CELL false false true true).get?.map (fun x =>
    (List.range 2).map (x.parent .CELL)) = some [some 1, none] := by
  decide +kernel

/-- the query finds the element set, the constructor does not -/
example : (twoTetsSrc.labeledEntities [⟨"elemset_7", .region, [.r (1 : Fin 2)]⟩] twoTetsGm[0] .CELL).get? = some ([1], []) ∧
    (extractNamed twoTetsSrc [⟨"elemset_7", .region, [.r (1 : Fin 2)]⟩] twoTetsGm ["block"] .CELL false false true true).get?.map (fun x =>
      (x.j.m.cellIds3 x.j.bg).all.length) = some 0 := by
  decide +kernel

/-- the short spelling: the query finds cell 1, the new mesh has it as its only cell, but not in the set -/
example : (twoTetsSrc.labeledEntities twoTetsSets ⟨"block", some ("CELL", "7")⟩ .CELL).get? = some ([1], []) ∧
    answersOf (extractS twoTetsSrc twoTetsSets [⟨"block", some ("CELL", "7")⟩] .CELL false false true true [1])
      ⟨"block", some ("CELL", "7")⟩ .CELL = some ([], []) := by
  decide +kernel

end Jali.Mstk
