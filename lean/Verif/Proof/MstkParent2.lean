import Verif.Proof.MstkParent3
/- An extracted surface: answers in terms of the source. -/
namespace Jali.Mstk

variable {α : Type} [Zero α]

/-- how an extracted surface came about; `fm` is the numbering of the faces of the source -/
structure FromFaces (src : Source α) (fm : IdMap src.j.m.nf) (flatten : Bool) (ids : List Nat) (x : Extracted src)
    (l : List (Fin src.j.m.nf)) : Prop where
  fnum : ∃ L, Numbered fm L
  fid : ∀ f, src.faceId f = fm.id f
  ids : ids = l.map fun r => fm.id r - 1
  dim : x.dim3 = false
  space : x.spaceDim = if flatten then src.spaceDim - 1 else src.spaceDim
  copy : IsCopy2 src.xyz flatten l x.built

theorem extract_faces_eq {src : Source α} {kind : EntityKind} (hk : kindToMtype src.dim3 kind = some .face) (flatten rf re : Bool)
    (ids : List Nat) : extract src kind flatten false rf re ids =
      .ofOption ((ids.mapM fun i => fromId src.faceId (i + 1)).bind (extractFaces src flatten rf re)) := by
  unfold extract
  rw [hk]
  simp

theorem extract_faces_from {src : Source α} {kind : EntityKind} (hk : kindToMtype src.dim3 kind = some .face)
    {fm : IdMap src.j.m.nf} {L : List (Fin src.j.m.nf)} (hL : Numbered fm L) (hfm : ∀ f, src.faceId f = fm.id f) {flatten rf re : Bool}
    {ids : List Nat} {x : Extracted src} (h : extract src kind flatten false rf re ids = .made x) :
    x.faces = rf ∧ x.edges = re ∧ ∃ l, FromFaces src fm flatten ids x l := by
  rw [extract_faces_eq hk, show src.faceId = fm.id from funext hfm] at h
  cases hl : ids.mapM fun i => fromId fm.id (i + 1) with
  | none => rw [hl] at h; cases h
  | some l =>
    rw [hl, Option.bind_some] at h
    unfold extractFaces at h
    obtain ⟨b, hb, hc⟩ := isCopy2 src.xyz flatten l
    rw [hb] at h
    have h : Outcome.made _ = Outcome.made x := h
    have h := (Outcome.made.inj h).symm
    subst h
    exact ⟨rfl, rfl, l, ⟨L, hL⟩, hfm, mapM_fromId hL hl, rfl, rfl, hc⟩

theorem extract_faces_iff {src : Source α} {kind : EntityKind} (hk : kindToMtype src.dim3 kind = some .face)
    {fm : IdMap src.j.m.nf} {L : List (Fin src.j.m.nf)} (hL : Numbered fm L) (hfm : ∀ f, src.faceId f = fm.id f) (flatten rf re : Bool)
    (ids : List Nat) : (∃ x, extract src kind flatten false rf re ids = .made x) ↔ ∀ i ∈ ids, i < src.j.m.nf := by
  rw [extract_faces_eq hk, show src.faceId = fm.id from funext hfm, ← mapM_fromId_some hL]
  constructor
  · rintro ⟨x, h⟩
    cases hl : ids.mapM fun i => fromId fm.id (i + 1) with
    | none => rw [hl] at h; cases h
    | some l => exact ⟨l, rfl⟩
  · rintro ⟨l, hl⟩
    obtain ⟨b, hb, _⟩ := isCopy2 src.xyz flatten l
    refine ⟨⟨b, false, if flatten then src.spaceDim - 1 else src.spaceDim, rf, re⟩, ?_⟩
    rw [hl, Option.bind_some]
    unfold extractFaces
    rw [hb]; rfl

section
variable {src : Source α} {fm : IdMap src.j.m.nf} {flatten : Bool} {ids : List Nat} {x : Extracted src}
  {l : List (Fin src.j.m.nf)} (h : FromFaces src fm flatten ids x l)
include h

theorem FromFaces.vplain : Numbered x.j.m.vmap (List.finRange x.j.m.nv) :=
  plain_two fun i => by rw [show x.j.m.vtx i = ⟨.interior, 0⟩ from h.copy.vint i]
theorem FromFaces.eplain : Numbered x.j.m.emap (List.finRange x.j.m.ne) := plain_two h.copy.eint
theorem FromFaces.cplain : Numbered (x.j.m.cmap x.j.bg) (List.finRange x.j.m.nf) := plain_three fun i => (h.copy.fint i).1

theorem FromFaces.fatid (p : Fin src.j.m.nf) : fm.at (fm.id p - 1) = some p := by
  obtain ⟨L, hL⟩ := h.fnum
  exact hL.at_id p

theorem FromFaces.catl {c : Nat} {r : Fin x.j.m.nf} (hr : (x.j.m.cmap x.j.bg).at c = some r) : ∃ p, x.built.fpar r = some p ∧
    l[c]? = some p ∧ ids[c]? = some (fm.id p - 1) := by
  rw [plain_at h.cplain] at hr
  have e := toHandle_eq hr
  have hc : c < l.length := by rw [← e, ← h.copy.nf]; exact r.isLt
  have h1 : l[c]? = some l[c] := List.getElem?_eq_getElem hc
  refine ⟨l[c], ?_, h1, ?_⟩
  · rw [h.copy.fpar, e, h1]
  · rw [h.ids, List.getElem?_map, h1]; rfl

theorem FromFaces.catn {c : Nat} (hr : (x.j.m.cmap x.j.bg).at c = none) : ids[c]? = none := by
  rw [plain_at h.cplain] at hr
  have hc : ¬ c < x.j.m.nf := by
    intro hc; rw [toHandle_lt hc] at hr; cases hr
  rw [List.getElem?_eq_none_iff, h.ids, List.length_map, ← h.copy.nf]
  exact Nat.le_of_not_lt hc

theorem FromFaces.cell (c : Nat) : x.parent .CELL c = ids[c]? := by
  rw [parent_cell2 h.dim]
  cases hr : (x.j.m.cmap x.j.bg).at c with
  | none => rw [h.catn hr]; rfl
  | some r =>
    obtain ⟨p, h1, _, h3⟩ := h.catl hr
    rw [h3, Option.map_some, h1]
    show some (src.faceId p - 1) = _
    rw [h.fid]

/-- the cell for an entry of the list -/
theorem FromFaces.getc {c pc : Nat} {R : Fin src.j.m.nf} (h1 : ids[c]? = some pc) (h2 : fm.at pc = some R) :
    ∃ r, (x.j.m.cmap x.j.bg).at c = some r ∧ x.built.fpar r = some R := by
  cases hr : (x.j.m.cmap x.j.bg).at c with
  | none => rw [h.catn hr] at h1; cases h1
  | some r =>
    obtain ⟨q, a1, _, a3⟩ := h.catl hr
    have e := Option.some.inj (a3.symm.trans h1)
    have := h.fatid q
    rw [e, h2] at this
    exact ⟨r, rfl, by rw [a1, ← Option.some.inj this]⟩

theorem FromFaces.node {v : Fin x.j.m.nv} {p : Fin src.j.m.nv} (hp : x.built.vpar v = some p) :
    x.parent .NODE (x.j.m.vmap.id v - 1) = some (src.j.m.vmap.id p - 1) := by
  rw [parent_node, h.vplain.at_id v, Option.map_some, hp]; rfl

theorem FromFaces.edge (hf : x.faces = true) (hse : ∀ e, src.edgeId e = src.j.m.emap.id e) {v : Fin x.j.m.ne} {p : Fin src.j.m.ne}
    (hp : x.built.epar v = some p) : x.parent .FACE (x.j.m.emap.id v - 1) = some (src.j.m.emap.id p - 1) := by
  rw [parent_face2 h.dim hf, h.eplain.at_id v, Option.map_some, hp]
  show some (src.edgeId p - 1) = _
  rw [hse]

theorem FromFaces.node_iff {n p : Nat} : x.parent .NODE n = some p ↔
    ∃ v q, x.j.m.vmap.at n = some v ∧ x.built.vpar v = some q ∧ src.j.m.vmap.at p = some q := by
  constructor
  · intro hn
    cases hv : x.j.m.vmap.at n with
    | none => rw [parent_node, hv] at hn; cases hn
    | some v =>
      obtain ⟨q, hq, _⟩ := h.copy.vhas v
      have := h.node hq
      rw [h.vplain.at_iff.mp hv, hn] at this
      exact ⟨v, q, rfl, hq, src.j.m.vnum.at_iff.mpr (Option.some.inj this).symm⟩
  · rintro ⟨v, q, h1, h2, h3⟩
    have := h.node h2
    rw [h.vplain.at_iff.mp h1, src.j.m.vnum.at_iff.mp h3] at this
    exact this

theorem FromFaces.edge_iff (hf : x.faces = true) (hse : ∀ e, src.edgeId e = src.j.m.emap.id e) {n p : Nat} :
    x.parent .FACE n = some p ↔
    ∃ v q, x.j.m.emap.at n = some v ∧ x.built.epar v = some q ∧ src.j.m.emap.at p = some q := by
  constructor
  · intro hn
    cases hv : x.j.m.emap.at n with
    | none => rw [parent_face2 h.dim hf, hv] at hn; cases hn
    | some v =>
      obtain ⟨q, hq, _⟩ := h.copy.ehas v
      have := h.edge hf hse hq
      rw [h.eplain.at_iff.mp hv, hn] at this
      exact ⟨v, q, rfl, hq, src.j.m.enum.at_iff.mpr (Option.some.inj this).symm⟩
  · rintro ⟨v, q, h1, h2, h3⟩
    have := h.edge hf hse h2
    rw [h.eplain.at_iff.mp h1, src.j.m.enum.at_iff.mp h3] at this
    exact this

theorem FromFaces.ready (hf : x.faces = true) : x.j.Ready2 := by
  refine ⟨hf, ?_⟩
  show (if x.faces then List.replicate (if x.dim3 then x.built.mesh.nf else x.built.mesh.ne) false else []).length = _
  rw [if_pos hf, if_neg (by simp [h.dim]), List.length_replicate]

theorem FromFaces.flip (hf : x.faces = true) : ∀ b ∈ x.j.faceflip, b = false := by
  intro b hb
  have hb : b ∈ (if x.faces then List.replicate (if x.dim3 then x.built.mesh.nf else x.built.mesh.ne) false else []) := hb
  rw [if_pos hf] at hb
  exact List.eq_of_mem_replicate hb

/-- edges with directions of a cell, translated -/
theorem FromFaces.faces_translated (hf : x.faces = true) (hse : ∀ e, src.edgeId e = src.j.m.emap.id e) {c : Nat} {r : Fin x.j.m.nf}
    (hr : (x.j.m.cmap x.j.bg).at c = some r) {p : Fin src.j.m.nf} (hp : x.built.fpar r = some p) :
    translatedDirs (x.parent .FACE) (x.j.cellFaces2 c) =
      some ((src.j.m.face p).edges.map fun q => (src.j.m.emap.id q.1 - 1, dirInt q.2)) := by
  rw [cellFaces2_eq (h.ready hf) hr]
  unfold translatedDirs
  rw [Option.bind_some]
  simp only [flipDir_noflip (h.flip hf)]
  exact mapM_parents_dirs (idc := fun v => x.j.m.emap.id v - 1) (ids := fun v => src.j.m.emap.id v - 1)
      (fun v q hq => h.edge hf hse hq) dirInt _ _ (h.copy.edges r p hp)

theorem FromFaces.nodes_translated {c : Nat} {r : Fin x.j.m.nf} (hr : (x.j.m.cmap x.j.bg).at c = some r) {p : Fin src.j.m.nf}
    (hp : x.built.fpar r = some p) : translated (x.parent .NODE) (x.j.cellNodes2 c) =
      some ((src.j.m.mfVertices (src.j.m.face p) true).map fun v => src.j.m.vmap.id v - 1) := by
  unfold JMesh.cellNodes2 translated
  rw [hr, Option.map_some, Option.bind_some]
  exact mapM_parents (idc := fun v => x.j.m.vmap.id v - 1) (ids := fun v => src.j.m.vmap.id v - 1) (fun v q hq => h.node hq) _ _
    (h.copy.verts hp)

theorem FromFaces.face_nodes {f : Nat} (hf : x.faces = true) {v : Fin x.j.m.ne} (hv : x.j.m.emap.at f = some v) :
    x.j.faceNodes2 f = some [x.j.m.vmap.id (x.j.m.edge v).v0 - 1, x.j.m.vmap.id (x.j.m.edge v).v1 - 1] := by
  have hlt : f < x.j.faceflip.length := by rw [(h.ready hf).flips]; exact x.j.m.enum.lt_of_at hv
  have hf' : x.j.faces = true := hf
  unfold JMesh.faceNodes2
  rw [if_pos hf', hv, Option.bind_some, List.getElem?_eq_getElem hlt, h.flip hf _ (List.getElem_mem hlt)]
  rfl

theorem FromFaces.vcopy {q : Fin src.j.m.nv} : (∃ v, x.built.vpar v = some q) ↔
    ∃ r ∈ l, ∃ e ∈ (src.j.m.face r).mfEdges true, q = (src.j.m.edge e).v0 ∨ q = (src.j.m.edge e).v1 := by
  constructor
  · rintro ⟨v, hv⟩
    obtain ⟨e, he⟩ := h.copy.vused v
    obtain ⟨f, hf⟩ := h.copy.eused e
    have hlt : f.val < l.length := by rw [← h.copy.nf]; exact f.isLt
    have hp : x.built.fpar f = some l[f.val] := by rw [h.copy.fpar, List.getElem?_eq_getElem hlt]
    obtain ⟨E, e1, e2, e3⟩ := h.copy.ehas e
    refine ⟨l[f.val], List.getElem_mem hlt, E, ?_, ?_⟩
    · obtain ⟨w, hw, rfl⟩ := List.mem_map.mp hf
      have := List.mem_map_of_mem (f := fun q : Fin x.built.mesh.ne × Bool => (x.built.epar q.1, q.2)) hw
      rw [h.copy.edges f _ hp, List.mem_map] at this
      obtain ⟨u, hu, eu⟩ := this
      have e4 := (Prod.mk.inj eu).1
      rw [e1] at e4
      exact List.mem_map.mpr ⟨u, hu, Option.some.inj e4⟩
    · rcases he with rfl | rfl
      · left; exact Option.some.inj (hv.symm.trans e2)
      · right; exact Option.some.inj (hv.symm.trans e3)
  · rintro ⟨r, hr, E, hE, hq⟩
    obtain ⟨k, hk, rfl⟩ := List.mem_iff_getElem.mp hr
    have hkl : k < x.built.mesh.nf := by rw [h.copy.nf]; exact hk
    have hp : x.built.fpar ⟨k, hkl⟩ = some l[k] := by rw [h.copy.fpar, List.getElem?_eq_getElem hk]
    obtain ⟨u, hu, rfl⟩ := List.mem_map.mp hE
    have := List.mem_map_of_mem (f := fun q : Fin src.j.m.ne × Bool => (some q.1, q.2)) hu
    rw [← h.copy.edges _ _ hp, List.mem_map] at this
    obtain ⟨w, _, ew⟩ := this
    obtain ⟨E', e1, e2, e3⟩ := h.copy.ehas w.1
    have : E' = u.1 := Option.some.inj (e1.symm.trans (Prod.mk.inj ew).1)
    subst this
    rcases hq with rfl | rfl
    · exact ⟨_, e2⟩
    · exact ⟨_, e3⟩

theorem FromFaces.ecopy {q : Fin src.j.m.ne} : (∃ v, x.built.epar v = some q) ↔ ∃ r ∈ l, q ∈ (src.j.m.face r).mfEdges true := by
  constructor
  · rintro ⟨e, hv⟩
    obtain ⟨f, hf⟩ := h.copy.eused e
    have hlt : f.val < l.length := by rw [← h.copy.nf]; exact f.isLt
    have hp : x.built.fpar f = some l[f.val] := by rw [h.copy.fpar, List.getElem?_eq_getElem hlt]
    refine ⟨l[f.val], List.getElem_mem hlt, ?_⟩
    obtain ⟨w, hw, rfl⟩ := List.mem_map.mp hf
    have := List.mem_map_of_mem (f := fun q : Fin x.built.mesh.ne × Bool => (x.built.epar q.1, q.2)) hw
    rw [h.copy.edges f _ hp, List.mem_map] at this
    obtain ⟨u, hu, eu⟩ := this
    have e4 := (Prod.mk.inj eu).1
    rw [hv] at e4
    exact List.mem_map.mpr ⟨u, hu, Option.some.inj e4⟩
  · rintro ⟨r, hr, hE⟩
    obtain ⟨k, hk, rfl⟩ := List.mem_iff_getElem.mp hr
    have hkl : k < x.built.mesh.nf := by rw [h.copy.nf]; exact hk
    have hp : x.built.fpar ⟨k, hkl⟩ = some l[k] := by rw [h.copy.fpar, List.getElem?_eq_getElem hk]
    obtain ⟨u, hu, rfl⟩ := List.mem_map.mp hE
    have := List.mem_map_of_mem (f := fun q : Fin src.j.m.ne × Bool => (some q.1, q.2)) hu
    rw [← h.copy.edges _ _ hp, List.mem_map] at this
    obtain ⟨w, _, ew⟩ := this
    exact ⟨w.1, (Prod.mk.inj ew).1⟩

/-- start and end of a used edge -/
theorem FromFaces.start_finish (q : Fin x.j.m.ne × Bool) : ∃ e, x.built.epar q.1 = some e ∧
    x.built.vpar (x.j.m.start q) = some (src.j.m.start (e, q.2)) ∧ x.built.vpar (x.j.m.finish q) = some (src.j.m.finish (e, q.2)) := by
  obtain ⟨e, e1, e2, e3⟩ := h.copy.ehas q.1
  refine ⟨e, e1, ?_⟩
  unfold MMesh.start MMesh.finish
  cases q.2
  · exact ⟨e3, e2⟩
  · exact ⟨e2, e3⟩

theorem FromFaces.finishes {i : Fin x.j.m.nf} {p : Fin src.j.m.nf} (hp : x.built.fpar i = some p) :
    ((x.j.m.face i).edges.map x.j.m.finish).map x.built.vpar = ((src.j.m.face p).edges.map src.j.m.finish).map some := by
  have h1 := h.copy.edges i p hp
  rw [List.map_map, List.map_map]
  have h2 : (x.j.m.face i).edges.map (x.built.vpar ∘ x.j.m.finish) =
      ((x.built.mesh.face i).edges.map fun q => (x.built.epar q.1, q.2)).map fun q => q.1.map fun e => src.j.m.finish (e, q.2) := by
    rw [List.map_map]
    apply List.map_congr_left
    intro q _
    obtain ⟨e, e1, _, e3⟩ := h.start_finish q
    simp only [Function.comp, e1, Option.map_some]
    exact e3
  rw [h2, h1, List.map_map]
  rfl

theorem FromFaces.starts {i : Fin x.j.m.nf} {p : Fin src.j.m.nf} (hp : x.built.fpar i = some p) :
    ((x.j.m.face i).edges.map x.j.m.start).map x.built.vpar = ((src.j.m.face p).edges.map src.j.m.start).map some := h.copy.verts hp

theorem FromFaces.fget (f : Fin x.j.m.nf) : ∃ p, x.built.fpar f = some p := by
  have hlt : f.val < l.length := by rw [← h.copy.nf]; exact f.isLt
  exact ⟨l[f.val], by rw [h.copy.fpar, List.getElem?_eq_getElem hlt]⟩

theorem FromFaces.polygons (hp : src.j.m.Polygons) : x.j.m.Polygons := by
  have vi : Function.Injective x.built.vpar := by
    intro i i' e
    obtain ⟨q, hq, _⟩ := h.copy.vhas i
    exact h.copy.vinj i i' q hq (e ▸ hq)
  constructor
  · intro e he
    obtain ⟨E, _, e2, e3⟩ := h.copy.ehas e
    have he : (x.built.mesh.edge e).v0 = (x.built.mesh.edge e).v1 := he
    rw [he, e3] at e2
    exact hp.ends E (Option.some.inj e2).symm
  · intro f
    obtain ⟨p, hf⟩ := h.fget f
    apply List.map_injective_iff.mpr vi
    rw [h.finishes hf, List.map_rotate, h.starts hf, hp.closed p, List.map_rotate]
  · intro f
    obtain ⟨p, hf⟩ := h.fget f
    have := (hp.simple p).map (Option.some_injective _)
    rw [← h.starts hf] at this
    exact List.Nodup.of_map _ this
  · intro f
    obtain ⟨p, hf⟩ := h.fget f
    have h1 := h.copy.edges f p hf
    have h2 : ((x.j.m.face f).edges.map Prod.fst).map x.built.epar = ((src.j.m.face p).edges.map Prod.fst).map some := by
      have := congrArg (List.map Prod.fst) h1
      simpa [List.map_map, Function.comp_def] using this
    have h3 := (hp.noedge p).map (Option.some_injective _)
    rw [← h2] at h3
    exact List.Nodup.of_map _ h3

theorem FromFaces.oriented_of (hn : ids.Nodup) (ho : ∀ e d f f', f ∈ l → f' ∈ l → (e, d) ∈ (src.j.m.face f).edges →
    (e, d) ∈ (src.j.m.face f').edges → f = f') : x.j.m.OrientedCells := by
  intro e d f f' h1 h2
  have hlt : ∀ r : Fin x.j.m.nf, r.val < l.length := fun r => by rw [← h.copy.nf]; exact r.isLt
  have hpar : ∀ r : Fin x.j.m.nf, x.built.fpar r = some (l[r.val]'(hlt r)) := fun r => by
    rw [h.copy.fpar, List.getElem?_eq_getElem (hlt r)]
  obtain ⟨p, hp, _⟩ := h.copy.ehas e
  have key : ∀ r : Fin x.j.m.nf, (e, d) ∈ (x.j.m.face r).edges → (p, d) ∈ (src.j.m.face (l[r.val]'(hlt r))).edges := by
    intro r hm
    have := List.mem_map_of_mem (f := fun q : Fin x.j.m.ne × Bool => (x.built.epar q.1, q.2)) hm
    have h4 := h.copy.edges r _ (hpar r)
    rw [h4, List.mem_map] at this
    obtain ⟨q, hq, e⟩ := this
    obtain ⟨e1, e2⟩ := Prod.mk.inj e
    rw [hp] at e1
    have : q = (p, d) := Prod.ext (Option.some.inj e1) e2
    rwa [← this]
  have e := ho p d _ _ (List.getElem_mem (hlt f)) (List.getElem_mem (hlt f')) (key f h1) (key f' h2)
  have hl : l.Nodup := by
    rw [h.ids] at hn
    exact List.Nodup.of_map _ hn
  exact Fin.ext ((List.Nodup.getElem_inj_iff hl).mp e)

end

end Jali.Mstk
