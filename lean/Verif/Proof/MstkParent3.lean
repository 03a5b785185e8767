import Verif.Proof.MstkParent
/- An extracted 3D mesh: answers in terms of the source. -/
namespace Jali.Mstk

variable {α : Type} [Zero α]

/-- how an extracted 3D mesh came about -/
structure FromCells (src : Source α) (ids : List Nat) (x : Extracted src) (l : List (Fin src.j.m.nr)) : Prop where
  ids : ids = l.map fun r => (src.j.m.rmap src.j.bg).id r - 1
  dim : x.dim3 = true
  space : x.spaceDim = src.spaceDim
  copy : IsCopy3 src.xyz l x.built

theorem extract_cells_from {src : Source α} (hd : src.dim3 = true) {rf re : Bool} {ids : List Nat} {x : Extracted src}
    (h : extract src .CELL false false rf re ids = .made x) :
    x.faces = rf ∧ x.edges = re ∧ ∃ l, FromCells src ids x l := by
  unfold extract kindToMtype at h
  simp only [hd, if_true, Bool.false_eq_true, false_and, if_false] at h
  cases hl : ids.mapM fun i => fromId src.regionId (i + 1) with
  | none => rw [hl] at h; cases h
  | some l =>
    rw [hl, Option.bind_some] at h
    unfold extractRegions at h
    obtain ⟨b, hb, hc⟩ := isCopy3 src.xyz l
    rw [hb] at h
    have h : Outcome.made _ = Outcome.made x := h
    have h := (Outcome.made.inj h).symm
    subst h
    exact ⟨rfl, rfl, l, mapM_fromId (src.j.m.rnum src.j.bg) hl, rfl, rfl, hc⟩

theorem extract_cells_iff {src : Source α} (hd : src.dim3 = true) (rf re : Bool) (ids : List Nat) :
    (∃ x, extract src .CELL false false rf re ids = .made x) ↔ ∀ i ∈ ids, i < src.j.m.nr := by
  rw [← mapM_fromId_some (src.j.m.rnum src.j.bg)]
  constructor
  · rintro ⟨x, h⟩
    unfold extract kindToMtype at h
    simp only [hd, if_true, Bool.false_eq_true, false_and, if_false] at h
    cases hl : ids.mapM fun i => fromId src.regionId (i + 1) with
    | none => rw [hl] at h; cases h
    | some l => exact ⟨l, hl⟩
  · rintro ⟨l, hl⟩
    obtain ⟨b, hb, _⟩ := isCopy3 src.xyz l
    refine ⟨⟨b, true, src.spaceDim, rf, re⟩, ?_⟩
    unfold extract kindToMtype
    simp only [hd, if_true, Bool.false_eq_true, false_and, if_false]
    have hl : (ids.mapM fun i => fromId src.regionId (i + 1)) = some l := hl
    rw [hl, Option.bind_some]
    unfold extractRegions
    rw [hb]; rfl

omit [Zero α] in
theorem parent_cell3 {src : Source α} {x : Extracted src} (hd : x.dim3 = true) (i : Nat) : x.parent .CELL i =
    ((x.j.m.rmap x.j.bg).at i).map fun h => parentId src.regionId (x.built.rpar h) := by
  show (if x.dim3 then _ else _) = _
  rw [if_pos hd]
omit [Zero α] in
theorem parent_cell2 {src : Source α} {x : Extracted src} (hd : x.dim3 = false) (i : Nat) : x.parent .CELL i =
    ((x.j.m.cmap x.j.bg).at i).map fun h => parentId src.faceId (x.built.fpar h) := by
  show (if x.dim3 then _ else _) = _
  rw [if_neg (by simp [hd])]
omit [Zero α] in
theorem parent_face3 {src : Source α} {x : Extracted src} (hd : x.dim3 = true) (hf : x.faces = true) (i : Nat) :
    x.parent .FACE i = (x.j.m.fmap.at i).map fun h => parentId src.faceId (x.built.fpar h) := by
  show (if x.faces then (if x.dim3 then _ else _) else _) = _
  rw [if_pos hf, if_pos hd]
omit [Zero α] in
theorem parent_face2 {src : Source α} {x : Extracted src} (hd : x.dim3 = false) (hf : x.faces = true) (i : Nat) :
    x.parent .FACE i = (x.j.m.emap.at i).map fun h => parentId src.edgeId (x.built.epar h) := by
  show (if x.faces then (if x.dim3 then _ else _) else _) = _
  rw [if_pos hf, if_neg (by simp [hd])]
omit [Zero α] in
theorem parent_edge {src : Source α} {x : Extracted src} (he : x.edges = true) (i : Nat) :
    x.parent .EDGE i = (x.j.m.emap.at i).map fun h => parentId src.edgeId (x.built.epar h) := by
  show (if x.edges then _ else _) = _
  rw [if_pos he]
omit [Zero α] in
theorem parent_node {src : Source α} (x : Extracted src) (i : Nat) :
    x.parent .NODE i = (x.j.m.vmap.at i).map fun h => parentId src.vertexId (x.built.vpar h) := rfl

section
variable {src : Source α} {ids : List Nat} {x : Extracted src} {l : List (Fin src.j.m.nr)} (h : FromCells src ids x l)
include h

theorem FromCells.vplain : Numbered x.j.m.vmap (List.finRange x.j.m.nv) :=
  plain_two fun i => by rw [show x.j.m.vtx i = ⟨.interior, 0⟩ from h.copy.vint i]
theorem FromCells.eplain : Numbered x.j.m.emap (List.finRange x.j.m.ne) := plain_two h.copy.eint
theorem FromCells.fplain : Numbered x.j.m.fmap (List.finRange x.j.m.nf) := plain_two fun i => (h.copy.fint i).1
theorem FromCells.rplain : Numbered (x.j.m.rmap x.j.bg) (List.finRange x.j.m.nr) := plain_three fun i => (h.copy.rint i).1

theorem FromCells.ratl {c : Nat} {r : Fin x.j.m.nr} (hr : (x.j.m.rmap x.j.bg).at c = some r) : ∃ p, x.built.rpar r = some p ∧
    l[c]? = some p ∧ ids[c]? = some ((src.j.m.rmap src.j.bg).id p - 1) := by
  rw [plain_at h.rplain] at hr
  have e := toHandle_eq hr
  have hc : c < l.length := by rw [← e, ← h.copy.nr]; exact r.isLt
  have h1 : l[c]? = some l[c] := List.getElem?_eq_getElem hc
  refine ⟨l[c], ?_, h1, ?_⟩
  · rw [h.copy.rpar, e, h1]
  · rw [h.ids, List.getElem?_map, h1]; rfl

theorem FromCells.ratn {c : Nat} (hr : (x.j.m.rmap x.j.bg).at c = none) : ids[c]? = none := by
  rw [plain_at h.rplain] at hr
  have hc : ¬ c < x.j.m.nr := by
    intro hc; rw [toHandle_lt hc] at hr; cases hr
  rw [List.getElem?_eq_none_iff, h.ids, List.length_map, ← h.copy.nr]
  exact Nat.le_of_not_lt hc

theorem FromCells.cell (c : Nat) : x.parent .CELL c = ids[c]? := by
  rw [parent_cell3 h.dim]
  cases hr : (x.j.m.rmap x.j.bg).at c with
  | none => rw [h.ratn hr]; rfl
  | some r =>
    obtain ⟨p, h1, _, h3⟩ := h.ratl hr
    rw [h3, Option.map_some, h1]; rfl

theorem FromCells.node {v : Fin x.j.m.nv} {p : Fin src.j.m.nv} (hp : x.built.vpar v = some p) :
    x.parent .NODE (x.j.m.vmap.id v - 1) = some (src.j.m.vmap.id p - 1) := by
  rw [parent_node, h.vplain.at_id v, Option.map_some, hp]; rfl

theorem FromCells.face (hf : x.faces = true) (hs : src.dim3 = true) (hsf : src.j.faces = true) {v : Fin x.j.m.nf} {p : Fin src.j.m.nf} (hp : x.built.fpar v = some p) :
    x.parent .FACE (x.j.m.fmap.id v - 1) = some (src.j.m.fmap.id p - 1) := by
  rw [parent_face3 h.dim hf, h.fplain.at_id v, Option.map_some, hp]
  unfold parentId Source.faceId
  simp only [hs, hsf, if_true]

/-- a node of the new mesh -/
theorem FromCells.node_iff {n p : Nat} : x.parent .NODE n = some p ↔
    ∃ v q, x.j.m.vmap.at n = some v ∧ x.built.vpar v = some q ∧ src.j.m.vmap.at p = some q := by
  constructor
  · intro hn
    cases hv : x.j.m.vmap.at n with
    | none => rw [parent_node, hv] at hn; cases hn
    | some v =>
      obtain ⟨q, hq, _⟩ := h.copy.vhas v
      have := h.node hq
      rw [h.vplain.at_iff.mp hv, hn] at this
      exact ⟨v, q, rfl, hq, src.j.m.vnum.at_iff.mpr (Option.some.inj this).symm⟩
  · rintro ⟨v, q, h1, h2, h3⟩
    have := h.node h2
    rw [h.vplain.at_iff.mp h1, src.j.m.vnum.at_iff.mp h3] at this
    exact this

theorem FromCells.face_iff (hf : x.faces = true) (hs : src.dim3 = true) (hsf : src.j.faces = true) {n p : Nat} :
    x.parent .FACE n = some p ↔
    ∃ v q, x.j.m.fmap.at n = some v ∧ x.built.fpar v = some q ∧ src.j.m.fmap.at p = some q := by
  constructor
  · intro hn
    cases hv : x.j.m.fmap.at n with
    | none => rw [parent_face3 h.dim hf, hv] at hn; cases hn
    | some v =>
      obtain ⟨q, hq⟩ := h.copy.fhas v
      have := h.face hf hs hsf hq
      rw [h.fplain.at_iff.mp hv, hn] at this
      exact ⟨v, q, rfl, hq, src.j.m.fnum.at_iff.mpr (Option.some.inj this).symm⟩
  · rintro ⟨v, q, h1, h2, h3⟩
    have := h.face hf hs hsf h2
    rw [h.fplain.at_iff.mp h1, src.j.m.fnum.at_iff.mp h3] at this
    exact this

theorem FromCells.ready (hf : x.faces = true) : x.j.Ready3 := by
  refine ⟨hf, ?_⟩
  show (if x.faces then List.replicate (if x.dim3 then x.built.mesh.nf else x.built.mesh.ne) false else []).length = _
  rw [if_pos hf, if_pos h.dim, List.length_replicate]

omit h in
theorem flipDir_replicate (n k : Nat) (d : Bool) : flipDir (List.replicate n false) k d = dirInt d := by
  unfold flipDir
  rw [List.getElem?_replicate]
  split <;> simp

omit h in
theorem flipDir_noflip {flip : List Bool} (hn : ∀ b ∈ flip, b = false) (k : Nat) (d : Bool) : flipDir flip k d = dirInt d := by
  unfold flipDir
  cases hk : flip[k]? with
  | none => simp
  | some b => rw [hn b (List.mem_of_getElem? hk)]; simp

theorem FromCells.flip (hf : x.faces = true) : ∀ b ∈ x.j.faceflip, b = false := by
  intro b hb
  have hb : b ∈ (if x.faces then List.replicate (if x.dim3 then x.built.mesh.nf else x.built.mesh.ne) false else []) := hb
  rw [if_pos hf] at hb
  exact List.eq_of_mem_replicate hb

/-- the vertices of a copied region, in the same order -/
theorem FromCells.mrVertices {r : Fin x.j.m.nr} {p : Fin src.j.m.nr} (hp : x.built.rpar r = some p) :
    (x.j.m.mrVertices (x.j.m.region r)).map x.built.vpar = (src.j.m.mrVertices (src.j.m.region p)).map some := by
  unfold MMesh.mrVertices
  have hinj : Function.Injective (some : Fin src.j.m.nv → _) := Option.some_injective _
  have hvi : Function.Injective x.built.vpar := by
    intro i i' e
    obtain ⟨q, hq, _⟩ := h.copy.vhas i
    exact h.copy.vinj i i' q hq (e ▸ hq)
  rw [← List.dedup_map_of_injective hinj, ← List.dedup_map_of_injective hvi, List.map_flatMap, List.map_flatMap]
  congr 1
  have e1 : ((x.j.m.region r).faces.flatMap fun q => (x.j.m.mfVertices (x.j.m.face q.1) true).map x.built.vpar) =
      ((x.j.m.region r).faces.map fun q => (x.built.fpar q.1, q.2)).flatMap fun q => match q.1 with
        | some f => (src.j.m.mfVertices (src.j.m.face f) true).map some
        | none => [] := by
    rw [List.flatMap_map]
    apply List.flatMap_congr
    intro q _
    obtain ⟨f, hf⟩ := h.copy.fhas q.1
    rw [hf]
    exact h.copy.verts q.1 f hf
  have e2 := h.copy.faces r p hp
  rw [e1]
  have e2 : ((x.j.m.region r).faces.map fun q => (x.built.fpar q.1, q.2)) = (src.j.m.region p).faces.map fun q => (some q.1, q.2) := e2
  rw [e2, List.flatMap_map]

/-- a vertex of the source that is a vertex of a listed cell has a copy -/
theorem FromCells.vcopy {q : Fin src.j.m.nv} : (∃ v, x.built.vpar v = some q) ↔ ∃ r ∈ l, q ∈ src.j.m.mrVertices (src.j.m.region r) := by
  constructor
  · rintro ⟨v, hv⟩
    obtain ⟨f, hf⟩ := h.copy.vused v
    obtain ⟨r, hr⟩ := h.copy.fused f
    have hlt : r.val < l.length := by rw [← h.copy.nr]; exact r.isLt
    have hp : x.built.rpar r = some l[r.val] := by rw [h.copy.rpar, List.getElem?_eq_getElem hlt]
    refine ⟨l[r.val], List.getElem_mem hlt, ?_⟩
    have hm : v ∈ x.j.m.mrVertices (x.j.m.region r) := by
      unfold MMesh.mrVertices
      rw [List.mem_dedup, List.mem_flatMap]
      obtain ⟨p, hp, rfl⟩ := List.mem_map.mp hr
      exact ⟨p, hp, hf⟩
    have := List.mem_map_of_mem (f := x.built.vpar) hm
    rw [h.mrVertices hp, hv, List.mem_map] at this
    obtain ⟨w, hw, e⟩ := this
    rw [← Option.some.inj e]; exact hw
  · rintro ⟨r, hr, hq⟩
    obtain ⟨k, hk, rfl⟩ := List.mem_iff_getElem.mp hr
    have hkl : k < x.built.mesh.nr := by rw [h.copy.nr]; exact hk
    have hp : x.built.rpar ⟨k, hkl⟩ = some l[k] := by rw [h.copy.rpar, List.getElem?_eq_getElem hk]
    have := List.mem_map_of_mem (f := some) hq
    rw [← h.mrVertices hp, List.mem_map] at this
    obtain ⟨v, _, hv⟩ := this
    exact ⟨v, hv⟩

theorem FromCells.fcopy {q : Fin src.j.m.nf} : (∃ v, x.built.fpar v = some q) ↔ ∃ r ∈ l, q ∈ (src.j.m.region r).mrFaces := by
  constructor
  · rintro ⟨f, hv⟩
    obtain ⟨r, hr⟩ := h.copy.fused f
    have hlt : r.val < l.length := by rw [← h.copy.nr]; exact r.isLt
    have hp : x.built.rpar r = some l[r.val] := by rw [h.copy.rpar, List.getElem?_eq_getElem hlt]
    refine ⟨l[r.val], List.getElem_mem hlt, ?_⟩
    obtain ⟨p, hpm, rfl⟩ := List.mem_map.mp hr
    have := List.mem_map_of_mem (f := fun q => (x.built.fpar q.1, q.2)) hpm
    rw [h.copy.faces r _ hp, List.mem_map] at this
    obtain ⟨w, hw, e⟩ := this
    have e := (Prod.mk.inj e).1
    rw [hv] at e
    rw [← Option.some.inj e]; exact List.mem_map_of_mem hw
  · rintro ⟨r, hr, hq⟩
    obtain ⟨k, hk, rfl⟩ := List.mem_iff_getElem.mp hr
    have hkl : k < x.built.mesh.nr := by rw [h.copy.nr]; exact hk
    have hp : x.built.rpar ⟨k, hkl⟩ = some l[k] := by rw [h.copy.rpar, List.getElem?_eq_getElem hk]
    obtain ⟨w, hw, rfl⟩ := List.mem_map.mp hq
    have := List.mem_map_of_mem (f := fun q : Fin src.j.m.nf × Bool => (some q.1, q.2)) hw
    rw [← h.copy.faces _ _ hp, List.mem_map] at this
    obtain ⟨v, _, hv⟩ := this
    exact ⟨v.1, (Prod.mk.inj hv).1⟩
end

end Jali.Mstk
