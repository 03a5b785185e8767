import Verif.Proof.MstkSets4
/-
C128: the labeled sets of an extracted mesh are those of its source.
-/
namespace Jali.Mstk

variable {α : Type} [Zero α]

omit [Zero α] in
theorem file_typed {m : MMesh} {dim3 : Bool} {sets : List (MstkSet m)} (hf : FileSets dim3 sets) {r : Rgn} {k : EntityKind} {label : String}
    (hl : r.Asked k label) : ∀ t, byName sets (internalName r k) = some t → ∃ d, kindToMtype dim3 k = some d ∧ t.Of d := by
  intro t ht
  obtain ⟨str, hs⟩ := hl.labeled
  obtain ⟨h1, h2, h3, _⟩ := internalName_eq hs
  obtain ⟨a, b⟩ := setByName_name ht
  rcases hl.kind with rfl | rfl | rfl
  · exact ⟨_, rfl, hf.block t a label (b.trans h1)⟩
  · exact ⟨_, rfl, hf.side t a label (b.trans h2)⟩
  · exact ⟨_, rfl, hf.node t a label (b.trans h3)⟩

omit [Zero α] in
theorem ent_dim_inj {s : Source α} {d : MType} (hv : ∀ a b : Fin s.j.m.nv, s.entId (.v a) - 1 = s.entId (.v b) - 1 → a = b)
    (he : d = .edge → ∀ a b : Fin s.j.m.ne, s.entId (.e a) - 1 = s.entId (.e b) - 1 → a = b)
    (hf : d = .face → ∀ a b : Fin s.j.m.nf, s.entId (.f a) - 1 = s.entId (.f b) - 1 → a = b)
    (hr : ∀ a b : Fin s.j.m.nr, s.entId (.r a) - 1 = s.entId (.r b) - 1 → a = b) :
    ∀ e e' : Ent s.j.m, e.dim = d → e'.dim = d → s.entId e - 1 = s.entId e' - 1 → e = e' := by
  intro e e' h1 h2 h3
  cases e with
  | v a =>
    cases e' with
    | v b => rw [hv a b h3]
    | e b => rw [← h1] at h2; cases h2
    | f b => rw [← h1] at h2; cases h2
    | r b => rw [← h1] at h2; cases h2
  | e a =>
    cases e' with
    | e b => rw [he h1.symm a b h3]
    | v b => rw [← h1] at h2; cases h2
    | f b => rw [← h1] at h2; cases h2
    | r b => rw [← h1] at h2; cases h2
  | f a =>
    cases e' with
    | f b => rw [hf h1.symm a b h3]
    | v b => rw [← h1] at h2; cases h2
    | e b => rw [← h1] at h2; cases h2
    | r b => rw [← h1] at h2; cases h2
  | r a =>
    cases e' with
    | r b => rw [hr a b h3]
    | v b => rw [← h1] at h2; cases h2
    | e b => rw [← h1] at h2; cases h2
    | f b => rw [← h1] at h2; cases h2

omit [Zero α] in
theorem ids3_inj {s : Source α} (hs : s.Ready3) {d : MType} (hd : d ≠ .edge) :
    ∀ e e' : Ent s.j.m, e.dim = d → e'.dim = d → s.entId e - 1 = s.entId e' - 1 → e = e' :=
  ent_dim_inj (fun _ _ => s.vertexId_inj) (fun h => absurd h hd)
    (fun _ _ _ => Source.faceId_inj s.j.m.fnum fun f => by simp [Source.faceId, hs.dim, hs.ready.faces]) (fun _ _ => s.regionId_inj)

omit [Zero α] in
theorem ids2_inj {s : Source α} (hs : s.Ready2) {d : MType} :
    ∀ e e' : Ent s.j.m, e.dim = d → e'.dim = d → s.entId e - 1 = s.entId e' - 1 → e = e' :=
  ent_dim_inj (fun _ _ => s.vertexId_inj) (fun _ _ _ => Source.edgeId_inj (edgeId_of_faces hs))
    (fun _ _ _ => Source.faceId_inj (s.j.m.cnum s.j.bg) fun f => by simp [Source.faceId, hs.dim]) (fun _ _ => s.regionId_inj)

/-- **C128** a labeled set of a 3D mesh extracted from different cells has the entities whose parents are in the set -/
theorem cells_sets (src : Source α) (hs : src.Ready3) (sets : List (MstkSet src.j.m)) (hf : FileSets true sets) (gm : List Rgn)
    {edges : Bool} {ids : List Nat} (hn : ids.Nodup) {w : WithSets src}
    (h : extractS src sets gm .CELL false false true edges ids = .made w) {r : Rgn} (hr : r ∈ gm) {k : EntityKind} {label : String}
    (hl : r.Long k label) (he : k = .CELL → NoSet sets ("elemset_" ++ label)) (i : Nat) :
    w.x.asSource.InSet w.sets r k i ↔ ∃ p, w.x.parent k i = some p ∧ src.InSet sets r k p := by
  obtain ⟨hx, listed, hw⟩ := extractS_cells hs.dim hn h
  obtain ⟨hxf, _, l, hc⟩ := extract_cells_from hs.dim hx
  have ht : ∀ d, kindToMtype true k = some d → ∀ t, byName sets (internalName r k) = some t → t.Of d := by
    intro d hd t h1
    obtain ⟨d', h2, h3⟩ := file_typed hf (Or.inl hl) t h1
    rw [Option.some.inj (hd.symm.trans h2)]
    exact h3
  have hk := Rgn.Asked.kind (Or.inl hl)
  rcases hk with rfl | rfl | rfl
  · exact same_inSet hw hr hl he (Or.inl rfl) (ht .region rfl) (ids3_inj hs (by simp)) hc.parentCell i
  · exact same_inSet hw hr hl he (Or.inl rfl) (ht .face rfl) (ids3_inj hs (by simp)) (hc.parentFace hxf) i
  · exact same_inSet hw hr hl he (Or.inl rfl) (ht .vertex rfl) (ids3_inj hs (by simp)) hc.parentNode i

/-- **C128** the same for a 2D mesh extracted from different cells of a 2D mesh -/
theorem cells2_sets (src : Source α) (hs : src.Ready2) (sets : List (MstkSet src.j.m)) (hf : FileSets false sets) (gm : List Rgn)
    {flatten edges : Bool} {ids : List Nat} (hn : ids.Nodup) {w : WithSets src}
    (h : extractS src sets gm .CELL flatten false true edges ids = .made w) {r : Rgn} (hr : r ∈ gm) {k : EntityKind} {label : String}
    (hl : r.Long k label) (he : k = .CELL → NoSet sets ("elemset_" ++ label)) (i : Nat) :
    w.x.asSource.InSet w.sets r k i ↔ ∃ p, w.x.parent k i = some p ∧ src.InSet sets r k p := by
  obtain ⟨hx, listed, _, hw⟩ := extractS_faces (fm := src.j.m.cmap src.j.bg) (by rw [hs.dim]; rfl) (src.j.m.cnum src.j.bg)
    (fun f => by simp [Source.faceId, hs.dim]) hn h
  rw [hs.dim] at hw
  obtain ⟨hxf, _, l, hc⟩ := cells2_from hs.dim hx
  have ht : ∀ d, kindToMtype false k = some d → ∀ t, byName sets (internalName r k) = some t → t.Of d := by
    intro d hd t h1
    obtain ⟨d', h2, h3⟩ := file_typed hf (Or.inl hl) t h1
    rw [Option.some.inj (hd.symm.trans h2)]
    exact h3
  have hk := Rgn.Asked.kind (Or.inl hl)
  rcases hk with rfl | rfl | rfl
  · exact same_inSet hw hr hl he (Or.inl rfl) (ht .face rfl) (ids2_inj hs) hc.parentCell i
  · exact same_inSet hw hr hl he (Or.inl rfl) (ht .edge rfl) (ids2_inj hs) (hc.parentFace hxf) i
  · exact same_inSet hw hr hl he (Or.inl rfl) (ht .vertex rfl) (ids2_inj hs) hc.parentNode i

/-! ### A surface -/

theorem surface_fromSets {src : Source α} (hs : src.Ready3) {sets : List (MstkSet src.j.m)} {gm : List Rgn}
    {flatten rf edges : Bool} {ids : List Nat} (hn : ids.Nodup) {w : WithSets src}
    (h : extractS src sets gm .FACE flatten false rf edges ids = .made w) :
    extract src .FACE flatten false rf edges ids = .made w.x ∧ ∃ l : List (Fin src.j.m.nf), ids = l.map (fun f => src.faceId f - 1) ∧
      FromSets src sets gm true (l.map .f) w := by
  have := extractS_faces (fm := src.j.m.fmap) (by rw [hs.dim]; rfl) src.j.m.fnum
    (fun f => by simp [Source.faceId, hs.dim, hs.ready.faces]) hn h
  rw [hs.dim] at this
  exact this

/-- **C128** a labeled set of nodes of a surface has the nodes whose parents are in the set -/
theorem surface_node_sets (src : Source α) (hs : src.Ready3) (sets : List (MstkSet src.j.m)) (hf : FileSets true sets) (gm : List Rgn)
    {flatten faces edges : Bool} {ids : List Nat} (hn : ids.Nodup) {w : WithSets src}
    (h : extractS src sets gm .FACE flatten false faces edges ids = .made w) {r : Rgn} (hr : r ∈ gm) {label : String}
    (hl : r.Long .NODE label) (i : Nat) :
    w.x.asSource.InSet w.sets r .NODE i ↔ ∃ p, w.x.parent .NODE i = some p ∧ src.InSet sets r .NODE p := by
  obtain ⟨hx, listed, _, hw⟩ := surface_fromSets hs hn h
  obtain ⟨_, _, l, hc⟩ := surface_from hs hx
  have ht : ∀ t, byName sets (internalName r .NODE) = some t → t.Of .vertex := by
    intro t h1
    obtain ⟨d', h2, h3⟩ := file_typed hf (Or.inl hl) t h1
    rw [← Option.some.inj h2] at h3
    exact h3
  refine same_inSet hw hr hl (fun h => by cases h) (Or.inr fun t h1 => ⟨ht t h1, ?_⟩) ht (ids3_inj hs (by simp)) hc.parentNode i
  intro e he
  obtain ⟨f, _, rfl⟩ := List.mem_map.mp he
  intro h; cases h

/-- **C128** a labeled set of cells of a surface has the cells whose parents are faces of cells in the set -/
theorem surface_cell_sets (src : Source α) (hs : src.Ready3) (sets : List (MstkSet src.j.m)) (hf : FileSets true sets) (gm : List Rgn)
    {flatten faces edges : Bool} {ids : List Nat} (hn : ids.Nodup) {w : WithSets src}
    (h : extractS src sets gm .FACE flatten false faces edges ids = .made w) {r : Rgn} (hr : r ∈ gm) {label : String}
    (hl : r.Long .CELL label) (he : NoSet sets ("elemset_" ++ label)) (i : Nat) :
    w.x.asSource.InSet w.sets r .CELL i ↔
      ∃ p, w.x.parent .CELL i = some p ∧ ∃ c, src.InSet sets r .CELL c ∧ HasFst (src.j.cellFaces3 c) p := by
  obtain ⟨hx, listed, _, hw⟩ := surface_fromSets hs hn h
  obtain ⟨_, _, l, hc⟩ := surface_from hs hx
  have ht : ∀ t, byName sets (internalName r .CELL) = some t → t.Of .region := by
    intro t h1
    obtain ⟨d', h2, h3⟩ := file_typed hf (Or.inl hl) t h1
    rw [← Option.some.inj h2] at h3
    exact h3
  have := lower_inSet hw hr hl (fun _ => he) (d := .region) (d' := .face) (by simp) ht (by
      intro e h1 z hz
      cases e with
      | r q =>
        obtain ⟨f, _, rfl⟩ := List.mem_map.mp hz
        rfl
      | v q => cases h1
      | e q => cases h1
      | f q => cases h1) hc.parentCell (B := fun c p => HasFst (src.j.cellFaces3 c) p) (by
      intro e z h1 h2
      cases e with
      | v q => cases h1
      | e q => cases h1
      | f q => cases h1
      | r q =>
        cases z with
        | v f => cases h2
        | e f => cases h2
        | r f => cases h2
        | f f =>
          have hid : src.entId (.f f) = src.j.m.fmap.id f := by
            show src.faceId f = _
            simp [Source.faceId, hs.dim, hs.ready.faces]
          rw [hid]
          refine (hasFst_cellFaces3 hs.ready _ _).trans ?_
          constructor
          · rintro ⟨r', q', b1, b2, b3⟩
            have b1 : (src.j.m.rmap src.j.bg).at ((src.j.m.rmap src.j.bg).id q - 1) = some r' := b1
            rw [(src.j.m.rnum src.j.bg).at_id q] at b1
            rw [src.j.m.fnum.at_id f] at b2
            rw [Option.some.inj b1, Option.some.inj b2]
            exact List.mem_map.mpr ⟨q', b3, rfl⟩
          · intro h3
            obtain ⟨f', h4, h5⟩ := List.mem_map.mp h3
            cases h5
            exact ⟨q, f, (src.j.m.rnum src.j.bg).at_id q, src.j.m.fnum.at_id f, h4⟩) i
  rw [this]
  constructor
  · exact fun h => h.2
  · intro h
    refine ⟨?_, h⟩
    intro t h1 e he hm
    obtain ⟨f, _, rfl⟩ := List.mem_map.mp he
    have := (ht t h1).2 _ hm
    cases this

/-- **C128** a labeled set of faces, if no listed face is in it: the faces of the surface whose parents are edges of faces in the set -/
theorem surface_face_sets (src : Source α) (hs : src.Ready3) (hse : src.ReadyE) (sets : List (MstkSet src.j.m)) (hf : FileSets true sets)
    (gm : List Rgn) {flatten edges : Bool} {ids : List Nat} (hn : ids.Nodup) {w : WithSets src}
    (h : extractS src sets gm .FACE flatten false true edges ids = .made w) {r : Rgn} (hr : r ∈ gm) {label : String}
    (hl : r.Long .FACE label) (i : Nat) :
    w.x.asSource.InSet w.sets r .FACE i ↔ (∀ f ∈ ids, ¬ src.InSet sets r .FACE f) ∧
      ∃ p, w.x.parent .FACE i = some p ∧ ∃ f, src.InSet sets r .FACE f ∧ HasFst (src.j.faceEdges3 f) p := by
  obtain ⟨hx, listed, hids, hw⟩ := surface_fromSets hs hn h
  obtain ⟨hxf, _, l, hc⟩ := surface_from hs hx
  have ht : ∀ t, byName sets (internalName r .FACE) = some t → t.Of .face := by
    intro t h1
    obtain ⟨d', h2, h3⟩ := file_typed hf (Or.inl hl) t h1
    rw [← Option.some.inj h2] at h3
    exact h3
  have hfid : ∀ f, src.entId (.f f) = src.j.m.fmap.id f := fun f => by
    show src.faceId f = _
    simp [Source.faceId, hs.dim, hs.ready.faces]
  have hsend : ∀ f, src.entId (.e f) = src.j.m.emap.id f := edgeId_of_edges hse
  have := lower_inSet hw hr hl (fun h => by cases h) (d := .face) (d' := .edge) (by simp) ht (by
      intro e h1 z hz
      cases e with
      | f q =>
        obtain ⟨f, _, rfl⟩ := List.mem_map.mp hz
        rfl
      | v q => cases h1
      | e q => cases h1
      | r q => cases h1) (hc.parentFace hxf) (B := fun c p => HasFst (src.j.faceEdges3 c) p) (by
      intro e z h1 h2
      cases e with
      | v q => cases h1
      | e q => cases h1
      | r q => cases h1
      | f q =>
        cases z with
        | v f => cases h2
        | f f => cases h2
        | r f => cases h2
        | e f =>
          rw [hfid, hsend]
          unfold HasFst
          rw [faceEdges3_at hs.ready hse.ready (src.j.m.fnum.at_id q)]
          constructor
          · rintro ⟨l', b1, d, b2⟩
            rw [← Option.some.inj b1] at b2
            obtain ⟨p, b3, b4⟩ := List.mem_map.mp b2
            have b5 := (Prod.mk.inj b4).1
            have b6 := src.j.m.enum.at_id f
            rw [← b5, src.j.m.enum.at_id p.1] at b6
            rw [← Option.some.inj b6]
            exact List.mem_map.mpr ⟨p.1, List.mem_map.mpr ⟨p, b3, rfl⟩, rfl⟩
          · intro h3
            obtain ⟨f', h4, h5⟩ := List.mem_map.mp h3
            cases h5
            obtain ⟨p, h6, h7⟩ := List.mem_map.mp h4
            subst h7
            exact ⟨_, rfl, _, List.mem_map.mpr ⟨p, h6, rfl⟩⟩) i
  rw [this]
  refine and_congr_left fun _ => ?_
  constructor
  · intro h1 f hfi hfs
    rw [hids] at hfi
    obtain ⟨q, h2, rfl⟩ := List.mem_map.mp hfi
    obtain ⟨t, h3, e, h4, h5⟩ := (inSet_iff (Or.inl hl) (fun h => by cases h) _).mp hfs
    have := ids3_inj hs (d := .face) (by simp) e (.f q) ((ht t h3).2 e h4) rfl h5
    subst this
    exact h1 t h3 _ (List.mem_map.mpr ⟨q, h2, rfl⟩) h4
  · intro h1 t h3 e he hm
    obtain ⟨q, h2, rfl⟩ := List.mem_map.mp he
    refine h1 (src.faceId q - 1) (by rw [hids]; exact List.mem_map.mpr ⟨q, h2, rfl⟩) ?_
    exact (inSet_iff (Or.inl hl) (fun h => by cases h) _).mpr ⟨t, h3, _, hm, rfl⟩

/-! ### What is lost -/

theorem extractS_inherit {src : Source α} {sets : List (MstkSet src.j.m)} {gm : List Rgn} {kind : EntityKind}
    {flatten extrude rf re : Bool} {ids : List Nat} {w : WithSets src}
    (h : extractS src sets gm kind flatten extrude rf re ids = .made w) :
    ∃ s diff listed, w.sets = inheritSets s w.x.built diff listed sets gm := by
  unfold extractS at h
  cases hk : kindToMtype src.dim3 kind with
  | none => rw [hk] at h; cases h
  | some t =>
    rw [hk] at h
    dsimp only at h
    split at h
    · cases h
    · split at h
      · cases h
      · cases t with
        | vertex => cases h
        | edge => cases h
        | face =>
          dsimp only at h
          cases hl : ids.mapM fun i => fromId src.faceId (i + 1) with
          | none => rw [hl] at h; cases h
          | some l =>
            rw [hl, Option.bind_some] at h
            unfold extractFacesS at h
            obtain ⟨b, hb, _⟩ := isCopy2 src.xyz flatten l
            rw [hb] at h
            replace h : Outcome.made _ = Outcome.made w := h
            replace h := (Outcome.made.inj h).symm
            subst h
            exact ⟨_, _, _, rfl⟩
        | region =>
          dsimp only at h
          cases hl : ids.mapM fun i => fromId src.regionId (i + 1) with
          | none => rw [hl] at h; cases h
          | some l =>
            rw [hl, Option.bind_some] at h
            unfold extractRegionsS at h
            obtain ⟨b, hb, _⟩ := isCopy3 src.xyz l
            rw [hb] at h
            replace h : Outcome.made _ = Outcome.made w := h
            replace h := (Outcome.made.inj h).symm
            subst h
            exact ⟨_, _, _, rfl⟩

/-- the names of inherited sets -/
theorem inherited_names {src : Source α} {sets : List (MstkSet src.j.m)} {gm : List Rgn} {kind : EntityKind}
    {flatten extrude rf re : Bool} {ids : List Nat} {w : WithSets src}
    (h : extractS src sets gm kind flatten extrude rf re ids = .made w) {n : String} (hn : ∀ r ∈ gm, inheritName r ≠ some n) :
    NoSet w.sets n := by
  obtain ⟨s, diff, listed, hw⟩ := extractS_inherit h
  rw [← setByName_none, hw, byName_inherit n gm, if_neg (by push Not; exact hn)]

/-- **C128** element sets are never inherited -/
theorem element_sets_lost (src : Source α) (sets : List (MstkSet src.j.m)) (gm : List Rgn) {kind : EntityKind}
    {flatten extrude faces edges : Bool} {ids : List Nat} {w : WithSets src}
    (h : extractS src sets gm kind flatten extrude faces edges ids = .made w) (label : String) :
    NoSet w.sets ("elemset_" ++ label) := by
  apply inherited_names h
  intro r _ hr
  rcases inheritName_cases hr with h1 | ⟨k, l, h1, h2⟩
  · have := congrArg String.toList h1
    simp at this
  · obtain ⟨str, h3⟩ := Rgn.Asked.labeled (Or.inl h1)
    obtain ⟨a, b, c, _⟩ := internalName_eq h3
    rcases Rgn.Asked.kind (Or.inl h1) with rfl | rfl | rfl
    · rw [a] at h2
      have := congrArg String.toList h2
      simp at this
    · rw [b] at h2
      have := congrArg String.toList h2
      simp at this
    · rw [c] at h2
      have := congrArg String.toList h2
      simp at this

/-- **C128** a labeled set in the short spelling of its kind, which the query accepts, is empty in the new mesh, unless the model has
the same set in the long spelling -/
theorem short_spelling_lost (src : Source α) (sets : List (MstkSet src.j.m)) (gm : List Rgn) {kind : EntityKind}
    {flatten extrude faces edges : Bool} {ids : List Nat} {w : WithSets src}
    (h : extractS src sets gm kind flatten extrude faces edges ids = .made w) {r : Rgn} {k : EntityKind} {label : String}
    (hr : r.Short k label) (hgm : ∀ r' ∈ gm, ¬ r'.Long k label) : w.x.asSource.labeledEntities w.sets r k = .made ([], []) := by
  rw [labeledEntities_eq (Or.inr hr) (fun _ => element_sets_lost src sets gm h label)]
  have : byName w.sets (internalName r k) = none := by
    rw [setByName_none]
    apply inherited_names h
    intro r' hr' hn
    obtain ⟨str, hs⟩ := Rgn.Asked.labeled (Or.inr hr)
    obtain ⟨a, b, c, _⟩ := internalName_eq hs
    rcases inheritName_cases hn with h1 | ⟨k', l', h1, h2⟩
    · rcases Rgn.Asked.kind (Or.inr hr) with rfl | rfl | rfl
      · rw [a] at h1
        have := congrArg String.toList h1
        simp at this
      · rw [b] at h1
        have := congrArg String.toList h1
        simp at this
      · rw [c] at h1
        have := congrArg String.toList h1
        simp at this
    · obtain ⟨str', hs'⟩ := Rgn.Asked.labeled (Or.inl h1)
      obtain ⟨a', b', c', _⟩ := internalName_eq hs'
      apply hgm r' hr'
      rcases Rgn.Asked.kind (Or.inr hr) with rfl | rfl | rfl <;> rcases Rgn.Asked.kind (Or.inl h1) with rfl | rfl | rfl <;>
        simp only [a, b, c, a', b', c'] at h2 <;> have h3 := congrArg String.toList h2 <;> simp at h3 <;>
        exact (String.toList_inj.mp h3) ▸ h1
  rw [this]; rfl

/-! ### An example: the second of two tetrahedra, and the face between them -/

/-- the second cell is block 7, faces 0 and 3 are side set 8, nodes 0 and 4 are node set 9 -/
abbrev twoTetsSets : List (MstkSet twoTets) :=
  [⟨"matset_7", .region, [.r (1 : Fin 2)]⟩, ⟨"sideset_8", .face, [.f (0 : Fin 7), .f (3 : Fin 7)]⟩,
    ⟨"nodeset_9", .vertex, [.v (0 : Fin 5), .v (4 : Fin 5)]⟩]

abbrev twoTetsGm : List Rgn :=
  [⟨"block", some ("Entity_kind::CELL", "7")⟩, ⟨"walls", some ("Entity_kind::FACE", "8")⟩, ⟨"points", some ("Entity_kind::NODE", "9")⟩]

/-- the answers of the query in the new mesh -/
def answersOf (o : Outcome (WithSets twoTetsSrc)) (r : Rgn) (k : EntityKind) : Option (List Nat × List Nat) :=
  o.get?.bind fun w => (w.x.asSource.labeledEntities w.sets r k).get?

set_option synthInstance.maxHeartbeats 400000 in
example : answersOf (extractS twoTetsSrc twoTetsSets twoTetsGm .CELL false false true true [1]) twoTetsGm[0] .CELL = some ([0], []) ∧
    answersOf (extractS twoTetsSrc twoTetsSets twoTetsGm .CELL false false true true [1]) twoTetsGm[1] .FACE = some ([0], []) ∧
    answersOf (extractS twoTetsSrc twoTetsSets twoTetsGm .CELL false false true true [1]) twoTetsGm[2] .NODE = some ([3], []) := by
  decide +kernel

set_option synthInstance.maxHeartbeats 400000 in
example : answersOf (extractS twoTetsSrc twoTetsSets twoTetsGm .FACE false false true true [1, 3]) twoTetsGm[0] .CELL = some ([1], []) ∧
    answersOf (extractS twoTetsSrc twoTetsSets twoTetsGm .FACE false false true true [1, 3]) twoTetsGm[1] .FACE = some ([], []) ∧
    answersOf (extractS twoTetsSrc twoTetsSets twoTetsGm .FACE false false true true [1, 2]) twoTetsGm[1] .FACE =
      some ([4, 0, 3, 1], []) ∧
    answersOf (extractS twoTetsSrc twoTetsSets twoTetsGm .FACE false false true true [1, 3]) twoTetsGm[2] .NODE = some ([0], []) := by
  decide +kernel

end Jali.Mstk
