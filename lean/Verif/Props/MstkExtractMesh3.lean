import Verif.Proof.MstkChild3
import Verif.Spec.MstkBase
import Verif.Props.MstkExtract3
/-
C120: an extracted 3D mesh is a mesh like any other. C121: parents of edges of an extracted 3D mesh.
-/
namespace Jali.Mstk

variable {α : Type} [Zero α]

/-- **C120** cells listed once, in a mesh of polygons with at least three edges: the new mesh is such a mesh, its cells lie on
the two sides of their faces, and the object is complete for its requests, so that C103–C118 hold of it -/
theorem cells_make_mesh (src : Source α) (hd : src.dim3 = true) (hp : src.j.m.Polygons) (hr : src.j.m.Regions)
    (h3 : ∀ f, 3 ≤ (src.j.m.face f).edges.length) {r : MeshCache.Request} (hc : ∃ r0, r = MeshCache.closure r0) {ids : List Nat}
    (hn : ids.Nodup) {x : Extracted src} (h : extract src .CELL false false r.faces r.edges ids = .made x) :
    x.j.m.Polygons ∧ x.j.m.Regions ∧ x.j.Made3 r := by
  obtain ⟨hf, he, l, hl⟩ := extract_cells_from hd h
  refine ⟨hl.polygons hp h3, hl.regions hr hn, hc, hf, he, ?_, ?_⟩
  · intro h1
    rw [h1] at hf
    exact (hl.ready hf).flips
  · intro h1
    rw [h1] at he
    show (if x.edges then List.replicate x.built.mesh.ne false else []).length = _
    rw [if_pos he, List.length_replicate]

/-- **C120** a cell listed twice gives two cells on the same side of the same faces -/
theorem cells_listed_twice (src : Source α) (hs : src.Ready3) {edges : Bool} {ids : List Nat} {x : Extracted src}
    (h : extract src .CELL false false true edges ids = .made x) {c c' : Nat} (hcc : c ≠ c') {p : Nat} (h1 : ids[c]? = some p)
    (h2 : ids[c']? = some p) {f : Nat} (hface : HasFst (src.j.cellFaces3 p) f) :
    x.j.cellFaces3 c = x.j.cellFaces3 c' ∧ ¬ x.j.m.Regions := by
  obtain ⟨hf, _, l, hl⟩ := extract_cells_from hs.dim h
  obtain ⟨R, fh, hR, hfh, hm⟩ := (hasFst_cellFaces3 hs.ready p f).mp hface
  have key : ∀ c, ids[c]? = some p → ∃ r, (x.j.m.rmap x.j.bg).at c = some r ∧ x.built.rpar r = some R := by
    intro c hc
    cases hr : (x.j.m.rmap x.j.bg).at c with
    | none => rw [hl.ratn hr] at hc; cases hc
    | some r =>
      obtain ⟨q, a1, _, a3⟩ := hl.ratl hr
      rw [a3] at hc
      have : q = R := by
        have := (src.j.m.rnum src.j.bg).at_id q
        rw [Option.some.inj hc, hR] at this
        exact (Option.some.inj this).symm
      exact ⟨r, rfl, by rw [a1, this]⟩
  obtain ⟨r, hr, hrp⟩ := key c h1
  obtain ⟨r', hr', hrp'⟩ := key c' h2
  have hfaces : (x.j.m.region r).faces = (x.j.m.region r').faces := by
    have e := (hl.copy.faces r R hrp).trans (hl.copy.faces r' R hrp').symm
    refine List.map_injective_iff.mpr ?_ e
    intro q q' hq
    obtain ⟨e1, e2⟩ := Prod.mk.inj hq
    obtain ⟨w, hw⟩ := hl.copy.fhas q.1
    exact Prod.ext (hl.copy.finj _ _ w hw (e1 ▸ hw)) e2
  constructor
  · rw [cellFaces3_eq (hl.ready hf) hr, cellFaces3_eq (hl.ready hf) hr', hfaces]
  · intro hreg
    obtain ⟨q, hq, rfl⟩ := List.mem_map.mp hm
    have := List.mem_map_of_mem (f := fun q : Fin src.j.m.nf × Bool => (some q.1, q.2)) hq
    have e := hl.copy.faces r R hrp
    rw [← e, List.mem_map] at this
    obtain ⟨w, hw, _⟩ := this
    have hw' := hw
    rw [hfaces] at hw'
    have e := hreg.sides w.1 w.2 r r' hw hw'
    subst e
    exact hcc (by rw [← hl.rplain.at_iff.mp hr, ← hl.rplain.at_iff.mp hr'])

/-- **C120** a cell has the type of the listed cell -/
theorem cells_types (src : Source α) (hd : src.dim3 = true) {faces edges : Bool} {ids : List Nat} {x : Extracted src}
    (h : extract src .CELL false false faces edges ids = .made x) (c : Nat) :
    x.j.cellType3 c = (ids[c]?).bind src.j.cellType3 := by
  obtain ⟨_, _, l, hl⟩ := extract_cells_from hd h
  unfold JMesh.cellType3
  cases hr : (x.j.m.rmap x.j.bg).at c with
  | none => rw [hl.ratn hr]; rfl
  | some r =>
    obtain ⟨p, h1, _, h3⟩ := hl.ratl hr
    rw [h3, Option.bind_some, (src.j.m.rnum src.j.bg).at_id p, Option.map_some, Option.map_some]
    have e := hl.copy.faces r p h1
    have elen : (x.j.m.region r).faces.length = (src.j.m.region p).faces.length := by
      have := congrArg List.length e
      simpa using this
    have equad : x.j.m.numQuads (x.j.m.region r) = src.j.m.numQuads (src.j.m.region p) := by
      unfold MMesh.numQuads
      rw [← List.countP_eq_length_filter, ← List.countP_eq_length_filter]
      have e1 : (src.j.m.region p).faces.countP (fun p => decide ((src.j.m.mfVertices (src.j.m.face p.1) true).length = 4)) =
          ((src.j.m.region p).faces.map fun q => (some q.1, q.2)).countP (fun q => match q.1 with
            | some f => decide ((src.j.m.mfVertices (src.j.m.face f) true).length = 4)
            | none => false) := by
        rw [List.countP_map]; rfl
      rw [e1]
      have e : ((x.j.m.region r).faces.map fun q => (x.built.fpar q.1, q.2)) = (src.j.m.region p).faces.map fun q => (some q.1, q.2) := e
      rw [← e, List.countP_map]
      congr 1
      funext q
      obtain ⟨w, hw⟩ := hl.copy.fhas q.1
      have := congrArg List.length (hl.copy.verts q.1 w hw)
      simp only [List.length_map] at this
      simp only [Function.comp_apply, hw, ← this]
    unfold MMesh.regionCelltype
    rw [elen, equad]

/-- **C120** cells around a face and around a node are those of the source that were listed -/
theorem cells_around (src : Source α) (hs : src.Ready3) {edges : Bool} {ids : List Nat} {x : Extracted src}
    (h : extract src .CELL false false true edges ids = .made x) (c : Nat) :
    (∀ f, Has (x.j.faceCells3 f .ALL) c ↔ ∃ pf pc, x.parent .FACE f = some pf ∧ ids[c]? = some pc ∧ Has (src.j.faceCells3 pf .ALL) pc) ∧
    (∀ n, Has (x.j.nodeCells3 n .ALL) c ↔ ∃ pn pc, x.parent .NODE n = some pn ∧ ids[c]? = some pc ∧ Has (src.j.nodeCells3 pn .ALL) pc) := by
  obtain ⟨hf, _, l, hl⟩ := extract_cells_from hs.dim h
  have getr : ∀ pc R, ids[c]? = some pc → (src.j.m.rmap src.j.bg).at pc = some R →
      ∃ r, (x.j.m.rmap x.j.bg).at c = some r ∧ x.built.rpar r = some R := by
    intro pc R h1 h2
    cases hr : (x.j.m.rmap x.j.bg).at c with
    | none => rw [hl.ratn hr] at h1; cases h1
    | some r =>
      obtain ⟨q, a1, _, a3⟩ := hl.ratl hr
      have e := Option.some.inj (a3.symm.trans h1)
      have := (src.j.m.rnum src.j.bg).at_id q
      rw [e, h2] at this
      exact ⟨r, rfl, by rw [a1, ← Option.some.inj this]⟩
  constructor
  · intro f
    rw [has_faceCells3 hf]
    constructor
    · rintro ⟨r, fh, a1, a2, a3, _⟩
      obtain ⟨R, b1, _, b3⟩ := hl.ratl a1
      obtain ⟨F, hF⟩ := hl.copy.fhas fh
      refine ⟨src.j.m.fmap.id F - 1, _, (hl.face_iff hf hs.dim hs.ready.faces).mpr ⟨fh, F, a2, hF, src.j.m.fnum.at_id F⟩, b3, ?_⟩
      refine (has_faceCells3 hs.ready.faces _ _ _).mpr ⟨R, F, (src.j.m.rnum src.j.bg).at_id R, src.j.m.fnum.at_id F, ?_, by simp [passes]⟩
      obtain ⟨q, hq, rfl⟩ := List.mem_map.mp a3
      have := List.mem_map_of_mem (f := fun q : Fin x.j.m.nf × Bool => (x.built.fpar q.1, q.2)) hq
      have e := hl.copy.faces r R b1
      rw [e, List.mem_map] at this
      obtain ⟨w, hw, ew⟩ := this
      have e1 := (Prod.mk.inj ew).1
      rw [hF] at e1
      exact List.mem_map.mpr ⟨w, hw, Option.some.inj e1⟩
    · rintro ⟨pf, pc, a1, a2, a3⟩
      obtain ⟨R, F, b1, b2, b3, _⟩ := (has_faceCells3 hs.ready.faces _ _ _).mp a3
      obtain ⟨r, hr, hR⟩ := getr pc R a2 b1
      obtain ⟨fh, F', c1, c2, c3⟩ := (hl.face_iff hf hs.dim hs.ready.faces).mp a1
      have : F' = F := Option.some.inj (c3.symm.trans b2)
      subst this
      refine ⟨r, fh, hr, c1, ?_, by simp [passes]⟩
      obtain ⟨w, hw, ew⟩ := List.mem_map.mp b3
      have := List.mem_map_of_mem (f := fun q : Fin src.j.m.nf × Bool => (some q.1, q.2)) hw
      have e := hl.copy.faces r R hR
      rw [← e, List.mem_map] at this
      obtain ⟨q, hq, eq⟩ := this
      refine List.mem_map.mpr ⟨q, hq, ?_⟩
      refine hl.copy.finj _ _ F' ?_ c2
      rw [(Prod.mk.inj eq).1, ew]
  · intro n
    rw [has_nodeCells3]
    constructor
    · rintro ⟨r, v, a1, a2, a3, _⟩
      obtain ⟨R, b1, _, b3⟩ := hl.ratl a1
      obtain ⟨V, hV, _⟩ := hl.copy.vhas v
      refine ⟨src.j.m.vmap.id V - 1, _, hl.node_iff.mpr ⟨v, V, a2, hV, src.j.m.vnum.at_id V⟩, b3, ?_⟩
      refine (has_nodeCells3 _ _ _).mpr ⟨R, V, (src.j.m.rnum src.j.bg).at_id R, src.j.m.vnum.at_id V, ?_, by simp [passes]⟩
      have := List.mem_map_of_mem (f := x.built.vpar) a3
      rw [hl.mrVertices b1, hV, List.mem_map] at this
      obtain ⟨w, hw, ew⟩ := this
      rwa [← Option.some.inj ew]
    · rintro ⟨pn, pc, a1, a2, a3⟩
      obtain ⟨R, V, b1, b2, b3, _⟩ := (has_nodeCells3 _ _ _).mp a3
      obtain ⟨r, hr, hR⟩ := getr pc R a2 b1
      obtain ⟨v, V', c1, c2, c3⟩ := hl.node_iff.mp a1
      have : V' = V := Option.some.inj (c3.symm.trans b2)
      subst this
      refine ⟨r, v, hr, c1, ?_, by simp [passes]⟩
      have := List.mem_map_of_mem (f := some) b3
      rw [← hl.mrVertices hR, List.mem_map] at this
      obtain ⟨w, hw, ew⟩ := this
      rw [← hl.copy.vinj w v V' ew c2]; exact hw

/-! ### C121: edges -/

/-- **C121** an edge of the new mesh joins nodes that follow each other around a face of a listed cell, and every two such nodes
are joined by exactly one edge -/
theorem cells_edges (src : Source α) (hs : src.Ready3) {ids : List Nat} {x : Extracted src}
    (h : extract src .CELL false false true true ids = .made x) :
    (∀ e a b, x.j.edgeNodes e = some (a, b) → ∃ f, InOrder (x.j.faceNodes3 f) a b ∨ InOrder (x.j.faceNodes3 f) b a) ∧
    (∀ f a b, InOrder (x.j.faceNodes3 f) a b → ∃ e, (x.j.edgeNodes e = some (a, b) ∨ x.j.edgeNodes e = some (b, a)) ∧
      ∀ e', x.j.edgeNodes e' = some (a, b) ∨ x.j.edgeNodes e' = some (b, a) → e' = e) := by
  obtain ⟨hf, he, l, hl⟩ := extract_cells_from hs.dim h
  have key : ∀ e a b, x.j.edgeNodes e = some (a, b) ↔ ∃ eh, x.j.m.emap.at e = some eh ∧
      x.j.m.vmap.id (x.j.m.edge eh).v0 - 1 = a ∧ x.j.m.vmap.id (x.j.m.edge eh).v1 - 1 = b := by
    intro e a b
    unfold JMesh.edgeNodes
    have he' : x.j.edges = true := he
    rw [if_pos he']
    cases heh : x.j.m.emap.at e with
    | none => simp
    | some eh =>
      have hlt : e < x.j.m.ne := hl.eplain.lt_of_at heh
      have hfl : x.j.edgeflip[e]? = some false := by
        show (if x.edges then List.replicate x.built.mesh.ne false else [])[e]? = _
        rw [if_pos he, List.getElem?_replicate, if_pos hlt]
      rw [Option.bind_some, hfl, Option.map_some]
      simp
  have walk : ∀ f a b, InOrder (x.j.faceNodes3 f) a b ↔ ∃ fh q, x.j.m.fmap.at f = some fh ∧ q ∈ (x.j.m.face fh).edges ∧
      x.j.m.vmap.id (x.j.m.start q) - 1 = a ∧ x.j.m.vmap.id (x.j.m.finish q) - 1 = b := by
    intro f a b
    unfold InOrder JMesh.faceNodes3
    have hf' : x.j.faces = true := hf
    rw [if_pos hf']
    cases hfh : x.j.m.fmap.at f with
    | none => simp
    | some fh =>
      have hlt : f < x.j.faceflip.length := by rw [(hl.ready hf).flips]; exact x.j.m.fnum.lt_of_at hfh
      rw [Option.bind_some, List.getElem?_eq_getElem hlt, hl.flip hf _ (List.getElem_mem hlt), Option.map_some]
      have e0 : cyclicPairs ((x.j.m.mfVertices (x.j.m.face fh) (!false)).map fun v => x.j.m.vmap.id v - 1) =
          (x.j.m.face fh).edges.map fun q => (x.j.m.vmap.id (x.j.m.start q) - 1, x.j.m.vmap.id (x.j.m.finish q) - 1) := by
        rw [cyclicPairs_map]
        have : x.j.m.mfVertices (x.j.m.face fh) (!false) = (x.j.m.face fh).edges.map x.j.m.start := mfVertices_true _ _
        rw [this]
        unfold cyclicPairs
        have hc := hl.copy.closed fh
        rw [← hc, List.zip_map', List.map_map]; rfl
      constructor
      · rintro ⟨ns, e, hm⟩
        rw [← Option.some.inj e, e0, List.mem_map] at hm
        obtain ⟨q, hq, e⟩ := hm
        obtain ⟨e1, e2⟩ := Prod.mk.inj e
        exact ⟨fh, q, rfl, hq, e1, e2⟩
      · rintro ⟨fh', q, e, hq, e1, e2⟩
        have := Option.some.inj e
        subst this
        refine ⟨_, rfl, ?_⟩
        rw [e0, List.mem_map]
        exact ⟨q, hq, Prod.ext e1 e2⟩
  have sf : ∀ q : Fin x.j.m.ne × Bool, (x.j.m.start q = (x.j.m.edge q.1).v0 ∧ x.j.m.finish q = (x.j.m.edge q.1).v1) ∨
      (x.j.m.start q = (x.j.m.edge q.1).v1 ∧ x.j.m.finish q = (x.j.m.edge q.1).v0) := by
    intro q
    unfold MMesh.start MMesh.finish
    cases q.2 <;> simp
  constructor
  · intro e a b hab
    obtain ⟨eh, h1, h2, h3⟩ := (key e a b).mp hab
    obtain ⟨f, d, hm⟩ := hl.copy.eused eh
    refine ⟨x.j.m.fmap.id f - 1, ?_⟩
    rcases sf (eh, d) with ⟨s1, s2⟩ | ⟨s1, s2⟩
    · exact Or.inl ((walk _ _ _).mpr ⟨f, (eh, d), hl.fplain.at_id f, hm, by rw [s1]; exact h2, by rw [s2]; exact h3⟩)
    · exact Or.inr ((walk _ _ _).mpr ⟨f, (eh, d), hl.fplain.at_id f, hm, by rw [s1]; exact h3, by rw [s2]; exact h2⟩)
  · intro f a b hab
    obtain ⟨fh, q, _, hq, h2, h3⟩ := (walk f a b).mp hab
    have inj : ∀ v w : Fin x.j.m.nv, x.j.m.vmap.id v - 1 = x.j.m.vmap.id w - 1 → v = w := fun v w e => hl.vplain.id_inj e
    refine ⟨x.j.m.emap.id q.1 - 1, ?_, ?_⟩
    · rw [key, key]
      rcases sf q with ⟨s1, s2⟩ | ⟨s1, s2⟩
      · rw [s1] at h2; rw [s2] at h3
        exact Or.inl ⟨q.1, hl.eplain.at_id _, h2, h3⟩
      · rw [s1] at h2; rw [s2] at h3
        exact Or.inr ⟨q.1, hl.eplain.at_id _, h3, h2⟩
    · intro e' he'
      rw [key, key] at he'
      have : ∃ eh, x.j.m.emap.at e' = some eh ∧ eh = q.1 := by
        rcases he' with ⟨eh, k1, k2, k3⟩ | ⟨eh, k1, k2, k3⟩
        · refine ⟨eh, k1, hl.copy.dist eh q.1 ?_⟩
          rcases sf q with ⟨s1, s2⟩ | ⟨s1, s2⟩
          · rw [s1] at h2; rw [s2] at h3
            exact Or.inl ⟨inj _ _ (k2.trans h2.symm), inj _ _ (k3.trans h3.symm)⟩
          · rw [s1] at h2; rw [s2] at h3
            exact Or.inr ⟨inj _ _ (k2.trans h2.symm), inj _ _ (k3.trans h3.symm)⟩
        · refine ⟨eh, k1, hl.copy.dist eh q.1 ?_⟩
          rcases sf q with ⟨s1, s2⟩ | ⟨s1, s2⟩
          · rw [s1] at h2; rw [s2] at h3
            exact Or.inr ⟨inj _ _ (k2.trans h3.symm), inj _ _ (k3.trans h2.symm)⟩
          · rw [s1] at h2; rw [s2] at h3
            exact Or.inl ⟨inj _ _ (k2.trans h3.symm), inj _ _ (k3.trans h2.symm)⟩
      obtain ⟨eh, k1, rfl⟩ := this
      exact (hl.eplain.at_iff.mp k1).symm

/-- **C121** is false: whatever edge is asked for, its parent is said to be edge 0 -/
theorem cells_edge_parents_wrong (src : Source α) (hd : src.dim3 = true) {faces : Bool} {ids : List Nat} {x : Extracted src}
    (h : extract src .CELL false false faces true ids = .made x) (e : Nat) :
    x.parent .EDGE e = if e < x.j.m.edgeIds.all.length then some 0 else none := by
  obtain ⟨_, he, l, hl⟩ := extract_cells_from hd h
  have hlen : x.j.m.edgeIds.all.length = x.j.m.ne := by
    have := (numbered_two fun i => (x.j.m.edge i).ptype).length
    rw [← this]
    unfold MMesh.edgeIds idLists2
    simp only [List.length_append, List.length_map]
  rw [parent_edge he, hlen]
  cases hv : x.j.m.emap.at e with
  | none =>
    rw [plain_at hl.eplain] at hv
    have : ¬ e < x.j.m.ne := fun hc => by rw [toHandle_lt hc] at hv; cases hv
    rw [if_neg this]; rfl
  | some v =>
    rw [if_pos (hl.eplain.lt_of_at hv), Option.map_some, hl.copy.enone v]; rfl

/-! ### The example -/

theorem twoTets_polygons : twoTetsSrc.j.m.Polygons := ⟨by decide +kernel, by decide +kernel, by decide +kernel, by decide +kernel⟩

set_option synthInstance.maxHeartbeats 400000 in
theorem twoTets_regions : twoTetsSrc.j.m.Regions := ⟨by decide +kernel, by decide +kernel⟩

example : ∃ x, extract twoTetsSrc .CELL false false true true [1, 0] = .made x ∧ x.j.m.Polygons ∧ x.j.m.Regions := by
  obtain ⟨x, hx⟩ := (cells_extracted_iff twoTetsSrc rfl true true [1, 0]).mpr (by decide)
  obtain ⟨h1, h2, _⟩ := cells_make_mesh twoTetsSrc rfl twoTets_polygons twoTets_regions (by decide)
    (r := MeshCache.closure ⟨true, true, true, true, true⟩) ⟨_, rfl⟩ (by decide) hx
  exact ⟨x, hx, h1, h2⟩

/-- a cell listed twice does give a mesh that is not one -/
example : ∃ x, extract twoTetsSrc .CELL false false true true [1, 1] = .made x ∧ ¬ x.j.m.Regions := by
  obtain ⟨x, hx⟩ := (cells_extracted_iff twoTetsSrc rfl true true [1, 1]).mpr (by decide)
  exact ⟨x, hx, (cells_listed_twice twoTetsSrc twoTets_ready hx (c := 0) (c' := 1) (by decide) rfl rfl (f := 4)
    ⟨_, rfl, 1, by decide +kernel⟩).2⟩

/-- edges of the second tetrahedron: the edge between nodes 1 and 2 of the source is edge 3 there, but the parent is said to be 0 -/
example : (extract twoTetsSrc .CELL false false true true [1]).get?.map (fun x =>
    (x.j.edgeNodes 0, x.parent .NODE 0, x.parent .NODE 1, x.parent .EDGE 0)) =
    some (some (0, 1), some 1, some 2, some 0) ∧ twoTetsSrc.j.edgeNodes 3 = some (1, 2) := by
  decide +kernel

end Jali.Mstk
