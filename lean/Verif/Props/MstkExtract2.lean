import Verif.Proof.MstkParent2
import Verif.Proof.MstkBase
import Verif.Props.MstkExtractMesh3
/-
C122: a surface extracted from faces of a 3D mesh. C123: a 2D mesh extracted from cells of a 2D mesh.
-/
namespace Jali.Mstk

variable {α : Type} [Zero α]

/-! ### Faces of a 3D mesh -/

/-- **C122** faces that exist are extracted; a list with any other id is an error -/
theorem surface_extracted_iff (src : Source α) (hs : src.Ready3) (flatten faces edges : Bool) (ids : List Nat) :
    (∃ x, extract src .FACE flatten false faces edges ids = .made x) ↔ ∀ i ∈ ids, i < src.j.m.nf :=
  extract_faces_iff (by rw [hs.dim]; rfl) src.j.m.fnum (fun f => by simp [Source.faceId, hs.dim, hs.ready.faces]) flatten faces edges ids

theorem surface_from {src : Source α} (hs : src.Ready3) {flatten rf re : Bool} {ids : List Nat} {x : Extracted src}
    (h : extract src .FACE flatten false rf re ids = .made x) :
    x.faces = rf ∧ x.edges = re ∧ ∃ l, FromFaces src src.j.m.fmap flatten ids x l :=
  extract_faces_from (by rw [hs.dim]; rfl) src.j.m.fnum (fun f => by simp [Source.faceId, hs.dim, hs.ready.faces]) h

omit [Zero α] in
theorem edgeId_of_edges {src : Source α} (he : src.ReadyE) (e : Fin src.j.m.ne) : src.edgeId e = src.j.m.emap.id e := by
  simp [Source.edgeId, he.ready.edges]

theorem cells2_length {src : Source α} {fm : IdMap src.j.m.nf} {flatten : Bool} {ids : List Nat} {x : Extracted src}
    {l : List (Fin src.j.m.nf)} (hl : FromFaces src fm flatten ids x l) : (x.j.m.cellIds2 x.j.bg).all.length = ids.length := by
  have := (numbered_three x.j.bg (fun i => (x.j.m.face i).ptype) fun i => (x.j.m.face i).bndryGhost).length
  have e : (x.j.m.cellIds2 x.j.bg).all.length = x.j.m.nf := by
    rw [← this]
    unfold MMesh.cellIds2 idLists3
    have hb : x.j.bg = false := rfl
    simp only [hb, List.length_append, List.length_map, bndryCells_false, Bool.false_eq_true, if_false]
    rfl
  rw [e, hl.ids, List.length_map, ← hl.copy.nf]

/-- **C122** the cells of the surface are the listed faces, in the order of the list -/
theorem surface_parents (src : Source α) (hs : src.Ready3) {flatten faces edges : Bool} {ids : List Nat} {x : Extracted src}
    (h : extract src .FACE flatten false faces edges ids = .made x) :
    (x.j.m.cellIds2 x.j.bg).all.length = ids.length ∧ ∀ c, x.parent .CELL c = ids[c]? := by
  obtain ⟨_, _, l, hl⟩ := surface_from hs h
  exact ⟨cells2_length hl, hl.cell⟩

/-- **C122** the faces of a cell of the surface, with directions, are the edges of the listed face -/
theorem surface_faces (src : Source α) (hs : src.Ready3) (he : src.ReadyE) {flatten edges : Bool} {ids : List Nat}
    {x : Extracted src} (h : extract src .FACE flatten false true edges ids = .made x) (c : Nat) :
    translatedDirs (x.parent .FACE) (x.j.cellFaces2 c) = (ids[c]?).bind src.j.faceEdges3 := by
  obtain ⟨hf, _, l, hl⟩ := surface_from hs h
  cases hr : (x.j.m.cmap x.j.bg).at c with
  | none =>
    rw [hl.catn hr]
    have : x.j.cellFaces2 c = none := by
      unfold JMesh.cellFaces2
      rw [hr]; simp
    rw [this]; rfl
  | some r =>
    obtain ⟨p, h1, _, h3⟩ := hl.catl hr
    rw [h3, Option.bind_some, hl.faces_translated hf (edgeId_of_edges he) hr h1,
      faceEdges3_at hs.ready he.ready (src.j.m.fnum.at_id p)]
    simp only [flipDir_noflip he.noflip]

omit [Zero α] in
theorem faceNodes3_plain {src : Source α} (hs : src.Ready3) (p : Fin src.j.m.nf) : src.j.faceNodes3 (src.j.m.fmap.id p - 1) =
    some ((src.j.m.mfVertices (src.j.m.face p) true).map fun v => src.j.m.vmap.id v - 1) := by
  have hv := src.j.m.fnum.at_id p
  have hlt : src.j.m.fmap.id p - 1 < src.j.faceflip.length := by rw [hs.ready.flips]; exact src.j.m.fnum.lt_of_at hv
  unfold JMesh.faceNodes3
  rw [if_pos hs.ready.faces, hv, Option.bind_some, List.getElem?_eq_getElem hlt, hs.noflip _ (List.getElem_mem hlt)]
  rfl

/-- **C122** the nodes of a cell of the surface, in order, are those of the listed face -/
theorem surface_nodes (src : Source α) (hs : src.Ready3) {flatten faces edges : Bool} {ids : List Nat} {x : Extracted src}
    (h : extract src .FACE flatten false faces edges ids = .made x) (c : Nat) :
    translated (x.parent .NODE) (x.j.cellNodes2 c) = (ids[c]?).bind src.j.faceNodes3 := by
  obtain ⟨_, _, l, hl⟩ := surface_from hs h
  cases hr : (x.j.m.cmap x.j.bg).at c with
  | none =>
    rw [hl.catn hr]
    have : x.j.cellNodes2 c = none := by
      unfold JMesh.cellNodes2
      rw [hr]; rfl
    rw [this]; rfl
  | some r =>
    obtain ⟨p, h1, _, h3⟩ := hl.catl hr
    rw [h3, Option.bind_some, hl.nodes_translated hr h1, faceNodes3_plain hs]

omit [Zero α] in
/-- the numbering MSTK gives, which stays if faces are not requested -/
theorem mstk_numbering (n : Nat) : Numbered (⟨fun i => i + 1, (List.finRange n).map some⟩ : IdMap n) (List.finRange n) :=
  ⟨List.Perm.refl _, rfl, fun i hi => by simp⟩

/-- **C122** if the mesh has no faces requested, the ids in the list are those MSTK gave the faces: the `i`-th face of the mesh in
the order of its creation; the rest is the same -/
theorem surface_without_faces (src : Source α) (hd : src.dim3 = true) (hf : src.j.faces = false) (flatten faces edges : Bool)
    (ids : List Nat) :
    ((∃ x, extract src .FACE flatten false faces edges ids = .made x) ↔ ∀ i ∈ ids, i < src.j.m.nf) ∧
    ∀ x, extract src .FACE flatten false faces edges ids = .made x →
      (x.j.m.cellIds2 x.j.bg).all.length = ids.length ∧ (∀ c, x.parent .CELL c = ids[c]?) ∧
      ∀ (c i : Nat) (hi : i < src.j.m.nf), ids[c]? = some i → translated (x.parent .NODE) (x.j.cellNodes2 c) =
        some ((src.j.m.mfVertices (src.j.m.face ⟨i, hi⟩) true).map fun v => src.j.m.vmap.id v - 1) := by
  have hid : ∀ f, src.faceId f = (⟨fun i => i + 1, (List.finRange _).map some⟩ : IdMap src.j.m.nf).id f := fun f => by
    simp [Source.faceId, hd, hf]
  have hk : kindToMtype src.dim3 .FACE = some .face := by rw [hd]; rfl
  refine ⟨extract_faces_iff hk (mstk_numbering _) hid flatten faces edges ids, ?_⟩
  intro x h
  obtain ⟨_, _, l, hl⟩ := extract_faces_from hk (mstk_numbering _) hid h
  refine ⟨cells2_length hl, hl.cell, ?_⟩
  intro c i hi hc
  cases hr : (x.j.m.cmap x.j.bg).at c with
  | none => rw [hl.catn hr] at hc; cases hc
  | some r =>
    obtain ⟨p, h1, _, h3⟩ := hl.catl hr
    rw [h3] at hc
    have e : p.val = i := by simpa using hc
    obtain rfl : p = ⟨i, hi⟩ := Fin.ext e
    exact hl.nodes_translated hr h1

/-- **C122** the nodes of a face of the surface are those of its parent, an edge -/
theorem surface_face_nodes (src : Source α) (hs : src.Ready3) (he : src.ReadyE) {flatten edges : Bool} {ids : List Nat}
    {x : Extracted src} (h : extract src .FACE flatten false true edges ids = .made x) (f : Nat) :
    translated (x.parent .NODE) (x.j.faceNodes2 f) = (x.parent .FACE f).bind fun e => asList (src.j.edgeNodes e) := by
  obtain ⟨hf, _, l, hl⟩ := surface_from hs h
  cases hv : x.j.m.emap.at f with
  | none =>
    have : x.j.faceNodes2 f = none := by unfold JMesh.faceNodes2; rw [hv]; simp
    rw [this, parent_face2 hl.dim hf, hv]; rfl
  | some v =>
    obtain ⟨p, h1, h2, h3⟩ := hl.copy.ehas v
    have hpar := hl.edge hf (edgeId_of_edges he) h1
    rw [hl.eplain.at_iff.mp hv] at hpar
    have hlt : src.j.m.emap.id p - 1 < src.j.edgeflip.length := by rw [he.ready.flips]; exact src.j.m.enum.id_lt p
    have e2 : src.j.edgeNodes (src.j.m.emap.id p - 1) =
        some (src.j.m.vmap.id (src.j.m.edge p).v0 - 1, src.j.m.vmap.id (src.j.m.edge p).v1 - 1) := by
      unfold JMesh.edgeNodes
      rw [if_pos he.ready.edges, src.j.m.enum.at_id p, Option.bind_some, List.getElem?_eq_getElem hlt,
        he.noflip _ (List.getElem_mem hlt)]
      rfl
    rw [hpar, Option.bind_some, e2, hl.face_nodes hf hv]
    unfold translated asList
    rw [Option.bind_some, Option.map_some]
    exact mapM_parents (idc := fun v => x.j.m.vmap.id v - 1) (ids := fun v => src.j.m.vmap.id v - 1) (fun v q hq => hl.node hq)
      [(x.j.m.edge v).v0, (x.j.m.edge v).v1] [(src.j.m.edge p).v0, (src.j.m.edge p).v1]
      (by rw [List.map_cons, List.map_cons, List.map_nil, List.map_cons, List.map_cons, List.map_nil]; congr 1; congr 1)

/-- a node of a surface is where its parent is; flattening drops the last coordinate -/
theorem coordinates2 {src : Source α} {fm : IdMap src.j.m.nf} {flatten : Bool} {ids : List Nat} {x : Extracted src}
    {l : List (Fin src.j.m.nf)} (hl : FromFaces src fm flatten ids x l) (hd : src.spaceDim ≤ 3) (n : Nat) :
    x.nodeCoords n = ((x.parent .NODE n).bind src.nodeCoords).map fun p => if flatten then p.dropLast else p := by
  unfold Extracted.nodeCoords
  rw [parent_node]
  cases hv : x.j.m.vmap.at n with
  | none => rfl
  | some v =>
    obtain ⟨p, hp, hx⟩ := hl.copy.vhas v
    rw [Option.map_some, Option.map_some, hp, Option.bind_some, hx, hl.space]
    unfold Source.nodeCoords
    show _ = ((src.j.m.vmap.at (src.j.m.vmap.id p - 1)).map _).map _
    rw [src.j.m.vnum.at_id p, Option.map_some, Option.map_some]
    congr 1
    unfold newXyz Xyz.firstOf
    cases flatten with
    | false => rfl
    | true =>
      simp only [if_true]
      have : src.spaceDim = 0 ∨ src.spaceDim = 1 ∨ src.spaceDim = 2 ∨ src.spaceDim = 3 := by omega
      rcases this with e | e | e | e <;> simp [e]

/-- **C122** a node of the surface is where its parent is; a flattened surface has the first two of its three coordinates -/
theorem surface_coordinates (src : Source α) (hs : src.Ready3) (hd : src.spaceDim = 3) {flatten faces edges : Bool} {ids : List Nat}
    {x : Extracted src} (h : extract src .FACE flatten false faces edges ids = .made x) (n : Nat) :
    x.nodeCoords n = ((x.parent .NODE n).bind src.nodeCoords).map fun p => if flatten then p.dropLast else p := by
  obtain ⟨_, _, l, hl⟩ := surface_from hs h
  exact coordinates2 hl (by omega) n

/-- parents of a surface are different -/
theorem differ2 {src : Source α} {fm : IdMap src.j.m.nf} {flatten : Bool} {ids : List Nat} {x : Extracted src}
    {l : List (Fin src.j.m.nf)} (hl : FromFaces src fm flatten ids x l) (hf : x.faces = true)
    (hse : ∀ e, src.edgeId e = src.j.m.emap.id e) :
    (∀ n n' p, x.parent .NODE n = some p → x.parent .NODE n' = some p → n = n') ∧
    (∀ f f' p, x.parent .FACE f = some p → x.parent .FACE f' = some p → f = f') := by
  constructor
  · intro n n' p h1 h2
    obtain ⟨v, q, a1, a2, a3⟩ := hl.node_iff.mp h1
    obtain ⟨v', q', b1, b2, b3⟩ := hl.node_iff.mp h2
    have : q' = q := Option.some.inj (b3.symm.trans a3)
    subst this
    have := hl.copy.vinj v v' q' a2 b2
    subst this
    rw [← hl.vplain.at_iff.mp a1, ← hl.vplain.at_iff.mp b1]
  · intro n n' p h1 h2
    obtain ⟨v, q, a1, a2, a3⟩ := (hl.edge_iff hf hse).mp h1
    obtain ⟨v', q', b1, b2, b3⟩ := (hl.edge_iff hf hse).mp h2
    have : q' = q := Option.some.inj (b3.symm.trans a3)
    subst this
    have := hl.copy.einj v v' q' a2 b2
    subst this
    rw [← hl.eplain.at_iff.mp a1, ← hl.eplain.at_iff.mp b1]

/-- **C122** every node and every face of the surface has its own parent -/
theorem surface_parents_differ (src : Source α) (hs : src.Ready3) (he : src.ReadyE) {flatten edges : Bool} {ids : List Nat}
    {x : Extracted src} (h : extract src .FACE flatten false true edges ids = .made x) :
    (∀ n n' p, x.parent .NODE n = some p → x.parent .NODE n' = some p → n = n') ∧
    (∀ f f' p, x.parent .FACE f = some p → x.parent .FACE f' = some p → f = f') := by
  obtain ⟨hf, _, l, hl⟩ := surface_from hs h
  exact differ2 hl hf (edgeId_of_edges he)

theorem ends_of_face {m : MMesh} (hp : m.Polygons) (f : Fin m.nf) (v : Fin m.nv) :
    (∃ e ∈ (m.face f).mfEdges true, v = (m.edge e).v0 ∨ v = (m.edge e).v1) ↔ v ∈ m.mfVertices (m.face f) true := by
  have hfin : ∀ v, v ∈ (m.face f).edges.map m.finish ↔ v ∈ (m.face f).edges.map m.start := by
    intro v; rw [hp.closed f]; exact List.mem_rotate
  rw [mfVertices_true]
  constructor
  · rintro ⟨e, he, hv⟩
    obtain ⟨q, hq, rfl⟩ := List.mem_map.mp he
    have : v = m.start q ∨ v = m.finish q := by
      unfold MMesh.start MMesh.finish
      cases q.2
      · exact hv.symm
      · exact hv
    rcases this with e | e
    · exact List.mem_map.mpr ⟨q, hq, e.symm⟩
    · exact (hfin v).mp (List.mem_map.mpr ⟨q, hq, e.symm⟩)
  · intro hv
    obtain ⟨q, hq, rfl⟩ := List.mem_map.mp hv
    refine ⟨q.1, List.mem_map.mpr ⟨q, hq, rfl⟩, ?_⟩
    unfold MMesh.start
    cases q.2
    · exact Or.inr rfl
    · exact Or.inl rfl

/-- **C122** the surface has the nodes and the edges of the listed faces, and no others -/
theorem surface_nothing_else (src : Source α) (hs : src.Ready3) (he : src.ReadyE) (hp : src.j.m.Polygons) {flatten edges : Bool}
    {ids : List Nat} {x : Extracted src} (h : extract src .FACE flatten false true edges ids = .made x) (p : Nat) :
    ((∃ n, x.parent .NODE n = some p) ↔ ∃ f ∈ ids, Has (src.j.faceNodes3 f) p) ∧
    ((∃ f, x.parent .FACE f = some p) ↔ ∃ f ∈ ids, HasFst (src.j.faceEdges3 f) p) := by
  obtain ⟨hf, _, l, hl⟩ := surface_from hs h
  constructor
  · constructor
    · rintro ⟨n, hn⟩
      obtain ⟨v, q, a1, a2, a3⟩ := hl.node_iff.mp hn
      obtain ⟨r, hr, hq⟩ := hl.vcopy.mp ⟨v, a2⟩
      refine ⟨src.j.m.fmap.id r - 1, by rw [hl.ids]; exact List.mem_map.mpr ⟨r, hr, rfl⟩, ?_⟩
      exact (has_faceNodes3 hs.ready hp _ _).mpr ⟨r, q, src.j.m.fnum.at_id r, a3, (ends_of_face hp r q).mp hq⟩
    · rintro ⟨c, hc, hn⟩
      rw [hl.ids, List.mem_map] at hc
      obtain ⟨r, hr, rfl⟩ := hc
      obtain ⟨r', q, b1, b2, b3⟩ := (has_faceNodes3 hs.ready hp _ _).mp hn
      rw [src.j.m.fnum.at_id r] at b1
      have := Option.some.inj b1
      subst this
      obtain ⟨v, hv⟩ := hl.vcopy.mpr ⟨r, hr, (ends_of_face hp r q).mpr b3⟩
      exact ⟨x.j.m.vmap.id v - 1, hl.node_iff.mpr ⟨v, q, hl.vplain.at_id v, hv, b2⟩⟩
  · have hse := edgeId_of_edges (src := src) he
    constructor
    · rintro ⟨n, hn⟩
      obtain ⟨v, q, a1, a2, a3⟩ := (hl.edge_iff hf hse).mp hn
      obtain ⟨r, hr, hq⟩ := hl.ecopy.mp ⟨v, a2⟩
      refine ⟨src.j.m.fmap.id r - 1, by rw [hl.ids]; exact List.mem_map.mpr ⟨r, hr, rfl⟩, ?_⟩
      obtain ⟨u, hu, rfl⟩ := List.mem_map.mp hq
      refine ⟨_, faceEdges3_at hs.ready he.ready (src.j.m.fnum.at_id r), _, List.mem_map.mpr ⟨u, hu, Prod.ext ?_ rfl⟩⟩
      exact src.j.m.enum.at_iff.mp a3
    · rintro ⟨c, hc, hn⟩
      rw [hl.ids, List.mem_map] at hc
      obtain ⟨r, hr, rfl⟩ := hc
      obtain ⟨L, hL, d, hd⟩ := hn
      rw [faceEdges3_at hs.ready he.ready (src.j.m.fnum.at_id r)] at hL
      rw [← Option.some.inj hL, List.mem_map] at hd
      obtain ⟨u, hu, e⟩ := hd
      obtain ⟨v, hv⟩ := hl.ecopy.mpr ⟨r, hr, List.mem_map.mpr ⟨u, hu, rfl⟩⟩
      exact ⟨x.j.m.emap.id v - 1, (hl.edge_iff hf hse).mpr
        ⟨v, u.1, hl.eplain.at_id v, hv, src.j.m.enum.at_iff.mpr (Prod.mk.inj e).1⟩⟩

/-- **C122** the surface consists of polygons again; its cells are oriented alike if the listed faces are -/
theorem surface_make_mesh (src : Source α) (hs : src.Ready3) (hp : src.j.m.Polygons) {flatten : Bool}
    {r : MeshCache.Request} (hc : ∃ r0, r = MeshCache.closure r0) {ids : List Nat}
    {x : Extracted src} (h : extract src .FACE flatten false r.faces r.edges ids = .made x) :
    x.j.m.Polygons ∧ x.j.Made2 r := by
  obtain ⟨hf, he, l, hl⟩ := surface_from hs h
  refine ⟨hl.polygons hp, hc, hf, he, ?_, ?_⟩
  · intro h1
    rw [h1] at hf
    exact (hl.ready hf).flips
  · intro h1
    rw [h1] at he
    show (if x.edges then List.replicate x.built.mesh.ne false else []).length = _
    rw [if_pos he, List.length_replicate]

/-- **C122** the cells of a surface are oriented alike exactly if no edge has the same direction in two entries of the list -/
theorem surface_oriented_iff (src : Source α) (hs : src.Ready3) (he : src.ReadyE) {flatten edges : Bool} {ids : List Nat}
    {x : Extracted src} (h : extract src .FACE flatten false true edges ids = .made x) :
    x.j.m.OrientedCells ↔ ∀ (c c' f f' e : Nat) (d : Int), ids[c]? = some f → ids[c']? = some f' → Has (src.j.faceEdges3 f) (e, d) →
      Has (src.j.faceEdges3 f') (e, d) → c = c' := by
  obtain ⟨hf, _, l, hl⟩ := surface_from hs h
  have hlt : ∀ r : Fin x.j.m.nf, r.val < l.length := fun r => by rw [← hl.copy.nf]; exact r.isLt
  have hpar : ∀ r : Fin x.j.m.nf, x.built.fpar r = some (l[r.val]'(hlt r)) := fun r => by
    rw [hl.copy.fpar, List.getElem?_eq_getElem (hlt r)]
  have hasE : ∀ (p : Fin src.j.m.nf) e d, Has (src.j.faceEdges3 (src.j.m.fmap.id p - 1)) (e, d) ↔
      ∃ q ∈ (src.j.m.face p).edges, src.j.m.emap.id q.1 - 1 = e ∧ dirInt q.2 = d := by
    intro p e d
    unfold Has
    rw [faceEdges3_at hs.ready he.ready (src.j.m.fnum.at_id p)]
    simp only [flipDir_noflip he.noflip]
    constructor
    · rintro ⟨L, hL, hm⟩
      rw [← Option.some.inj hL, List.mem_map] at hm
      obtain ⟨q, hq, e⟩ := hm
      exact ⟨q, hq, (Prod.mk.inj e).1, (Prod.mk.inj e).2⟩
    · rintro ⟨q, hq, e1, e2⟩
      exact ⟨_, rfl, List.mem_map.mpr ⟨q, hq, Prod.ext e1 e2⟩⟩
  have dinj : ∀ a b : Bool, dirInt a = dirInt b → a = b := by intro a b; cases a <;> cases b <;> decide
  constructor
  · intro ho c c' f f' e d h1 h2 h3 h4
    have getp : ∀ c f, ids[c]? = some f → ∃ r : Fin x.j.m.nf, r.val = c ∧ f = src.j.m.fmap.id (l[r.val]'(hlt r)) - 1 := by
      intro c f hc
      rw [hl.ids, List.getElem?_map] at hc
      obtain ⟨p, hp, e⟩ := Option.map_eq_some_iff.mp hc
      have hcl : c < l.length := (List.getElem?_eq_some_iff.mp hp).1
      refine ⟨⟨c, by rw [show x.j.m.nf = l.length from hl.copy.nf]; exact hcl⟩, rfl, ?_⟩
      rw [← e, (List.getElem?_eq_some_iff.mp hp).2]
    obtain ⟨r, rfl, rfl⟩ := getp c f h1
    obtain ⟨r', rfl, rfl⟩ := getp c' f' h2
    obtain ⟨q, hq, e1, e2⟩ := (hasE _ e d).mp h3
    obtain ⟨q', hq', e1', e2'⟩ := (hasE _ e d).mp h4
    have : q = q' := Prod.ext (src.j.m.enum.id_inj (e1.trans e1'.symm)) (dinj _ _ (e2.trans e2'.symm))
    subst this
    have key : ∀ r : Fin x.j.m.nf, q ∈ (src.j.m.face (l[r.val]'(hlt r))).edges →
        ∃ w, x.built.epar w = some q.1 ∧ (w, q.2) ∈ (x.j.m.face r).edges := by
      intro r hm
      have := List.mem_map_of_mem (f := fun q : Fin src.j.m.ne × Bool => (some q.1, q.2)) hm
      rw [← hl.copy.edges r _ (hpar r), List.mem_map] at this
      obtain ⟨w, hw, ew⟩ := this
      obtain ⟨e1, e2⟩ := Prod.mk.inj ew
      exact ⟨w.1, e1, by rw [← e2]; exact hw⟩
    obtain ⟨w, w1, w2⟩ := key r hq
    obtain ⟨w', w1', w2'⟩ := key r' hq'
    have : w = w' := hl.copy.einj w w' q.1 w1 w1'
    subst this
    exact congrArg Fin.val (ho w q.2 r r' w2 w2')
  · intro hall e d r r' h1 h2
    obtain ⟨p, hp, _⟩ := hl.copy.ehas e
    have key : ∀ r : Fin x.j.m.nf, (e, d) ∈ (x.j.m.face r).edges → (p, d) ∈ (src.j.m.face (l[r.val]'(hlt r))).edges := by
      intro r hm
      have := List.mem_map_of_mem (f := fun q : Fin x.j.m.ne × Bool => (x.built.epar q.1, q.2)) hm
      have h4 := hl.copy.edges r _ (hpar r)
      rw [h4, List.mem_map] at this
      obtain ⟨q, hq, e⟩ := this
      obtain ⟨e1, e2⟩ := Prod.mk.inj e
      rw [hp] at e1
      have : q = (p, d) := Prod.ext (Option.some.inj e1) e2
      rwa [← this]
    have gi : ∀ r : Fin x.j.m.nf, ids[r.val]? = some (src.j.m.fmap.id (l[r.val]'(hlt r)) - 1) := by
      intro r
      rw [hl.ids, List.getElem?_map, List.getElem?_eq_getElem (hlt r)]; rfl
    exact Fin.ext (hall r.val r'.val _ _ (src.j.m.emap.id p - 1) (dirInt d) (gi r) (gi r')
      ((hasE _ _ _).mpr ⟨_, key r h1, rfl, rfl⟩) ((hasE _ _ _).mpr ⟨_, key r' h2, rfl, rfl⟩))

/-! ### Cells of a 2D mesh -/

omit [Zero α] in
theorem edgeId_of_faces {src : Source α} (hs : src.Ready2) (e : Fin src.j.m.ne) : src.edgeId e = src.j.m.emap.id e := by
  simp [Source.edgeId, hs.dim, hs.ready.faces]

theorem cells2_from {src : Source α} (hd : src.dim3 = false) {flatten rf re : Bool} {ids : List Nat} {x : Extracted src}
    (h : extract src .CELL flatten false rf re ids = .made x) :
    x.faces = rf ∧ x.edges = re ∧ ∃ l, FromFaces src (src.j.m.cmap src.j.bg) flatten ids x l :=
  extract_faces_from (by rw [hd]; rfl) (src.j.m.cnum src.j.bg) (fun f => by simp [Source.faceId, hd]) h

/-- **C123** cells that exist are extracted; a list with any other id is an error -/
theorem cells2_extracted_iff (src : Source α) (hd : src.dim3 = false) (flatten faces edges : Bool) (ids : List Nat) :
    (∃ x, extract src .CELL flatten false faces edges ids = .made x) ↔ ∀ i ∈ ids, i < src.j.m.nf :=
  extract_faces_iff (by rw [hd]; rfl) (src.j.m.cnum src.j.bg) (fun f => by simp [Source.faceId, hd]) flatten faces edges ids

/-- **C123** the cells of the new mesh are the listed cells, in the order of the list -/
theorem cells2_parents (src : Source α) (hd : src.dim3 = false) {flatten faces edges : Bool} {ids : List Nat} {x : Extracted src}
    (h : extract src .CELL flatten false faces edges ids = .made x) :
    (x.j.m.cellIds2 x.j.bg).all.length = ids.length ∧ ∀ c, x.parent .CELL c = ids[c]? := by
  obtain ⟨_, _, l, hl⟩ := cells2_from hd h
  exact ⟨cells2_length hl, hl.cell⟩

/-- **C123** the faces of a cell, with directions, are those of the listed cell -/
theorem cells2_faces (src : Source α) (hs : src.Ready2) {flatten edges : Bool} {ids : List Nat}
    {x : Extracted src} (h : extract src .CELL flatten false true edges ids = .made x) (c : Nat) :
    translatedDirs (x.parent .FACE) (x.j.cellFaces2 c) = (ids[c]?).bind src.j.cellFaces2 := by
  obtain ⟨hf, _, l, hl⟩ := cells2_from hs.dim h
  cases hr : (x.j.m.cmap x.j.bg).at c with
  | none =>
    rw [hl.catn hr]
    have : x.j.cellFaces2 c = none := by
      unfold JMesh.cellFaces2
      rw [hr]; simp
    rw [this]; rfl
  | some r =>
    obtain ⟨p, h1, _, h3⟩ := hl.catl hr
    rw [h3, Option.bind_some, hl.faces_translated hf (edgeId_of_faces hs) hr h1,
      cellFaces2_eq hs.ready ((src.j.m.cnum src.j.bg).at_id p)]
    simp only [flipDir_noflip hs.noflip]

/-- **C123** the nodes of a cell, in order, are those of the listed cell -/
theorem cells2_nodes (src : Source α) (hd : src.dim3 = false) {flatten faces edges : Bool} {ids : List Nat} {x : Extracted src}
    (h : extract src .CELL flatten false faces edges ids = .made x) (c : Nat) :
    translated (x.parent .NODE) (x.j.cellNodes2 c) = (ids[c]?).bind src.j.cellNodes2 := by
  obtain ⟨_, _, l, hl⟩ := cells2_from hd h
  cases hr : (x.j.m.cmap x.j.bg).at c with
  | none =>
    rw [hl.catn hr]
    have : x.j.cellNodes2 c = none := by
      unfold JMesh.cellNodes2
      rw [hr]; rfl
    rw [this]; rfl
  | some r =>
    obtain ⟨p, h1, _, h3⟩ := hl.catl hr
    rw [h3, Option.bind_some, hl.nodes_translated hr h1]
    unfold JMesh.cellNodes2
    rw [(src.j.m.cnum src.j.bg).at_id p]; rfl

/-- **C123** the nodes of a face, in order, are those of its parent -/
theorem cells2_face_nodes (src : Source α) (hs : src.Ready2) {flatten edges : Bool} {ids : List Nat}
    {x : Extracted src} (h : extract src .CELL flatten false true edges ids = .made x) (f : Nat) :
    translated (x.parent .NODE) (x.j.faceNodes2 f) = (x.parent .FACE f).bind src.j.faceNodes2 := by
  obtain ⟨hf, _, l, hl⟩ := cells2_from hs.dim h
  cases hv : x.j.m.emap.at f with
  | none =>
    have : x.j.faceNodes2 f = none := by unfold JMesh.faceNodes2; rw [hv]; simp
    rw [this, parent_face2 hl.dim hf, hv]; rfl
  | some v =>
    obtain ⟨p, h1, h2, h3⟩ := hl.copy.ehas v
    have hpar := hl.edge hf (edgeId_of_faces hs) h1
    rw [hl.eplain.at_iff.mp hv] at hpar
    have hlt : src.j.m.emap.id p - 1 < src.j.faceflip.length := by rw [hs.ready.flips]; exact src.j.m.enum.id_lt p
    have e2 : src.j.faceNodes2 (src.j.m.emap.id p - 1) =
        some [src.j.m.vmap.id (src.j.m.edge p).v0 - 1, src.j.m.vmap.id (src.j.m.edge p).v1 - 1] := by
      unfold JMesh.faceNodes2
      rw [if_pos hs.ready.faces, src.j.m.enum.at_id p, Option.bind_some, List.getElem?_eq_getElem hlt,
        hs.noflip _ (List.getElem_mem hlt)]
      rfl
    rw [hpar, Option.bind_some, e2, hl.face_nodes hf hv]
    unfold translated
    rw [Option.bind_some]
    exact mapM_parents (idc := fun v => x.j.m.vmap.id v - 1) (ids := fun v => src.j.m.vmap.id v - 1) (fun v q hq => hl.node hq)
      [(x.j.m.edge v).v0, (x.j.m.edge v).v1] [(src.j.m.edge p).v0, (src.j.m.edge p).v1]
      (by rw [List.map_cons, List.map_cons, List.map_nil, List.map_cons, List.map_cons, List.map_nil]; congr 1; congr 1)

/-- **C123** a node is where its parent is; flattening drops the last coordinate, also that of a mesh in the plane -/
theorem cells2_coordinates (src : Source α) (hs : src.dim3 = false) (hd : src.spaceDim ≤ 3) {flatten faces edges : Bool}
    {ids : List Nat} {x : Extracted src} (h : extract src .CELL flatten false faces edges ids = .made x) (n : Nat) :
    x.nodeCoords n = ((x.parent .NODE n).bind src.nodeCoords).map fun p => if flatten then p.dropLast else p := by
  obtain ⟨_, _, l, hl⟩ := cells2_from hs h
  exact coordinates2 hl hd n

/-- **C123** every node and every face has its own parent; the new mesh has the nodes and faces of the listed cells, and no
others -/
theorem cells2_nothing_else (src : Source α) (hs : src.Ready2) (hp : src.j.m.Polygons) {flatten edges : Bool}
    {ids : List Nat} {x : Extracted src} (h : extract src .CELL flatten false true edges ids = .made x) :
    ((∀ n n' p, x.parent .NODE n = some p → x.parent .NODE n' = some p → n = n') ∧
    (∀ f f' p, x.parent .FACE f = some p → x.parent .FACE f' = some p → f = f')) ∧
    ∀ p, ((∃ n, x.parent .NODE n = some p) ↔ ∃ c ∈ ids, Has (src.j.cellNodes2 c) p) ∧
    ((∃ f, x.parent .FACE f = some p) ↔ ∃ c ∈ ids, HasFst (src.j.cellFaces2 c) p) := by
  obtain ⟨hf, _, l, hl⟩ := cells2_from hs.dim h
  have hse := edgeId_of_faces (src := src) hs
  refine ⟨differ2 hl hf hse, fun p => ⟨⟨?_, ?_⟩, ⟨?_, ?_⟩⟩⟩
  · rintro ⟨n, hn⟩
    obtain ⟨v, q, a1, a2, a3⟩ := hl.node_iff.mp hn
    obtain ⟨r, hr, hq⟩ := hl.vcopy.mp ⟨v, a2⟩
    refine ⟨(src.j.m.cmap src.j.bg).id r - 1, by rw [hl.ids]; exact List.mem_map.mpr ⟨r, hr, rfl⟩, ?_⟩
    exact (has_cellNodes2 _ _).mpr ⟨r, q, (src.j.m.cnum src.j.bg).at_id r, a3, (ends_of_face hp r q).mp hq⟩
  · rintro ⟨c, hc, hn⟩
    rw [hl.ids, List.mem_map] at hc
    obtain ⟨r, hr, rfl⟩ := hc
    obtain ⟨r', q, b1, b2, b3⟩ := (has_cellNodes2 _ _).mp hn
    rw [(src.j.m.cnum src.j.bg).at_id r] at b1
    have := Option.some.inj b1
    subst this
    obtain ⟨v, hv⟩ := hl.vcopy.mpr ⟨r, hr, (ends_of_face hp r q).mpr b3⟩
    exact ⟨x.j.m.vmap.id v - 1, hl.node_iff.mpr ⟨v, q, hl.vplain.at_id v, hv, b2⟩⟩
  · rintro ⟨n, hn⟩
    obtain ⟨v, q, a1, a2, a3⟩ := (hl.edge_iff hf hse).mp hn
    obtain ⟨r, hr, hq⟩ := hl.ecopy.mp ⟨v, a2⟩
    refine ⟨(src.j.m.cmap src.j.bg).id r - 1, by rw [hl.ids]; exact List.mem_map.mpr ⟨r, hr, rfl⟩, ?_⟩
    exact (hasFst_cellFaces2 hs.ready _ _).mpr ⟨r, q, (src.j.m.cnum src.j.bg).at_id r, a3, hq⟩
  · rintro ⟨c, hc, hn⟩
    rw [hl.ids, List.mem_map] at hc
    obtain ⟨r, hr, rfl⟩ := hc
    obtain ⟨r', q, b1, b2, b3⟩ := (hasFst_cellFaces2 hs.ready _ _).mp hn
    rw [(src.j.m.cnum src.j.bg).at_id r] at b1
    have := Option.some.inj b1
    subst this
    obtain ⟨v, hv⟩ := hl.ecopy.mpr ⟨r, hr, b3⟩
    exact ⟨x.j.m.emap.id v - 1, (hl.edge_iff hf hse).mpr ⟨v, q, hl.eplain.at_id v, hv, b2⟩⟩

/-- **C123** cells listed once: the new mesh is a mesh of polygons oriented alike, and the object is complete for its requests -/
theorem cells2_make_mesh (src : Source α) (hd : src.dim3 = false) (hp : src.j.m.Polygons) (ho : src.j.m.OrientedCells)
    {flatten : Bool} {r : MeshCache.Request} (hc : ∃ r0, r = MeshCache.closure r0) {ids : List Nat} (hn : ids.Nodup)
    {x : Extracted src} (h : extract src .CELL flatten false r.faces r.edges ids = .made x) :
    x.j.m.Polygons ∧ x.j.m.OrientedCells ∧ x.j.Made2 r := by
  obtain ⟨hf, he, l, hl⟩ := cells2_from hd h
  refine ⟨hl.polygons hp, hl.oriented_of hn (fun e d f f' _ _ h1 h2 => ho e d f f' h1 h2), hc, hf, he, ?_, ?_⟩
  · intro h1
    rw [h1] at hf
    exact (hl.ready hf).flips
  · intro h1
    rw [h1] at he
    show (if x.edges then List.replicate x.built.mesh.ne false else []).length = _
    rw [if_pos he, List.length_replicate]

/-- **C123** a cell has the type of the listed cell -/
theorem cells2_types (src : Source α) (hd : src.dim3 = false) {flatten faces edges : Bool} {ids : List Nat} {x : Extracted src}
    (h : extract src .CELL flatten false faces edges ids = .made x) (c : Nat) :
    x.j.cellType2 c = (ids[c]?).bind src.j.cellType2 := by
  obtain ⟨_, _, l, hl⟩ := cells2_from hd h
  unfold JMesh.cellType2
  cases hr : (x.j.m.cmap x.j.bg).at c with
  | none => rw [hl.catn hr]; rfl
  | some r =>
    obtain ⟨p, h1, _, h3⟩ := hl.catl hr
    rw [h3, Option.bind_some, (src.j.m.cnum src.j.bg).at_id p, Option.map_some, Option.map_some]
    have := congrArg List.length (hl.copy.verts h1)
    simp only [List.length_map] at this
    unfold MMesh.faceCelltype
    rw [this]

/-- `surface_without_faces`: two of the faces of two tetrahedra without faces requested -/
example : (∃ x, extract ({ twoTetsSrc with j := { twoTetsSrc.j with faces := false, faceflip := [] } } : Source Int) .FACE false false true true [4, 2] = .made x) :=
  ((surface_without_faces _ rfl rfl false true true [4, 2]).1).mpr (by decide)

end Jali.Mstk
