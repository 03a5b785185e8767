import Verif.Props.MstkBase
import Verif.Props.MstkOrient
import Verif.Props.MstkDirs
import Verif.Props.Sides
/-
C115: sides, wedges and corners of a mesh made by MSTK.  C116: entity types, lists and counts of such a mesh.
-/
namespace Jali.Mstk
open Jali.Sides Jali.Sides.Spec

/-- every 3D mesh made by MSTK meets what the code for types, sides, wedges and corners needs -/
theorem mesh_ok3 (j : JMesh) (r : MeshCache.Request) (h : j.Made3 r) (hp : j.m.Polygons) (hr : j.m.Regions) :
    Types.WellFormed (j.base3 r) where
  closed := h.closed
  nodes := (numbered_two_of (ids_consecutive j.m j.bg).1 rfl).2
  edges := fun he => by
    have he' : r.edges = true := he
    unfold JMesh.base3; rw [if_pos he']; exact (numbered_two_of (ids_consecutive j.m j.bg).2.1 rfl).2
  faces := fun he => by
    have he' : r.faces = true := he
    unfold JMesh.base3; rw [if_pos he']; exact (numbered_two_of (ids_consecutive j.m j.bg).2.2.1 rfl).2
  cells := (numbered_of (ids_consecutive j.m j.bg).2.2.2.1).2
  dim := .inr rfl
  valid := fun hs => by
    obtain ⟨hf, he⟩ := closure_sides h.closed hs
    exact shape3_ok (h.ready hf) (h.readyE he) hp hr he

/-- the same for 2D meshes without boundary ghosts (which are no polygons) -/
theorem mesh_ok2 (j : JMesh) (r : MeshCache.Request) (h : j.Made2 r) (hp : j.m.Polygons) (hr : j.m.OrientedCells) :
    Types.WellFormed (j.base2 r) where
  closed := h.closed
  nodes := (numbered_two_of (ids_consecutive j.m j.bg).1 rfl).2
  edges := fun he => by
    have he' : r.edges = true := he
    unfold JMesh.base2; rw [if_pos he']; exact (numbered_two_of (ids_consecutive j.m j.bg).2.1 rfl).2
  faces := fun he => by
    have he' : r.faces = true := he
    unfold JMesh.base2; rw [if_pos he']; exact (numbered_two_of (ids_consecutive j.m j.bg).2.1 rfl).2
  cells := (numbered_of (ids_consecutive j.m j.bg).2.2.2.2).2
  dim := .inl rfl
  valid := fun hs => by
    obtain ⟨hf, he⟩ := closure_sides h.closed hs
    exact shape2_ok (h.ready hf) (h.readyE he) hp hr he

/-- the caches of a well-formed mesh with sides, and that they are computed from a valid mesh -/
theorem side_caches {b : Types.Base} (h : Types.WellFormed b) (hs : b.req.sides = true) :
    ∃ c i, Types.cacheExtra b = some c ∧ c.side = some i ∧ cacheSideInfo (Types.source b c.types) = some i ∧
      Valid (Types.source b c.types) ∧ Oriented (Types.source b c.types) ∧ NodesOk (Types.source b c.types) := by
  obtain ⟨c, hc, _, hv, hside, _⟩ := Types.cacheExtra_ok b h
  obtain ⟨i, hi, _⟩ := sides_are_incidences _ (hv hs)
  exact ⟨c, i, hc, (hside i).mpr ⟨hs, hi⟩, hi, hv hs, Types.oriented_source _ (h.valid hs).2.1, Types.nodesOk_source _ (h.valid hs).2.2⟩

/-- a side as the user sees it: cell, face, edge and two nodes -/
structure SideIs (b : Types.Base) (c : Types.Caches) (s cell face edge n0 n1 : Nat) : Prop where
  side : ∃ i rec, c.side = some i ∧ i.side s = some rec ∧ rec.cell = cell ∧ rec.face = face ∧ rec.edge = edge ∧
    sideGetNode (Types.source b c.types) i s 0 = some n0 ∧ sideGetNode (Types.source b c.types) i s 1 = some n1

/-- **C115** (3D) the sides of a mesh made by MSTK are the triples of a cell, a face of the cell and an edge of the face, each
once -/
theorem sides_of_mesh3 (j : JMesh) (r : MeshCache.Request) (h : j.Made3 r) (hp : j.m.Polygons) (hr : j.m.Regions)
    (hs : r.sides = true) :
    ∃ c, Types.cacheExtra (j.base3 r) = some c ∧
      (∀ s cell face edge n0 n1, SideIs (j.base3 r) c s cell face edge n0 n1 →
        HasFst (j.cellGetFaces3 cell) face ∧ HasFst (j.faceGetEdges3 face) edge ∧
        (j.edgeGetNodes edge = some (n0, n1) ∨ j.edgeGetNodes edge = some (n1, n0))) ∧
      (∀ cell face edge, HasFst (j.cellGetFaces3 cell) face → HasFst (j.faceGetEdges3 face) edge →
        ∃! s, ∃ n0 n1, SideIs (j.base3 r) c s cell face edge n0 n1) := by
  have W := mesh_ok3 j r h hp hr
  obtain ⟨hf, he⟩ := closure_sides h.closed hs
  have R := h.ready hf
  have E := h.readyE he
  obtain ⟨c, i, hc, hi, hci, hv, ho, hn⟩ := side_caches W hs
  obtain ⟨i', hi', _, _, hinc, huniq, _⟩ := sides_are_incidences _ hv
  rw [hci] at hi'; cases hi'
  obtain ⟨i', hi', hnod⟩ := side_nodes _ hv ho W.dim
  rw [hci] at hi'; cases hi'
  obtain ⟨q1, q2, q3⟩ := cached_connectivity3 j r h
  -- incidences in terms of the queries
  have hinc' : ∀ cl f e, Incident (Types.source (j.base3 r) c.types) cl f e ↔
      HasFst (j.cellGetFaces3 cl) f ∧ HasFst (j.faceGetEdges3 f) e := by
    intro cl f e
    constructor
    · rintro ⟨⟨d, hd⟩, ed, hed⟩
      obtain ⟨g, p, hg, hpm, hpf, hpd⟩ := (hasFace3 R cl f d).mp hd
      have hfe : (e, ed) ∈ (Types.shape (j.base3 r)).faceEdges f := hed
      rw [← hpf, faceEdges3_of R E] at hfe
      refine ⟨?_, ?_⟩
      · rw [q1 hf]
        exact ⟨_, cellFaces3_eq R hg, d, List.mem_map.mpr ⟨p, hpm, by rw [hpd, hpf]⟩⟩
      · rw [q2 hf he, ← hpf]
        exact ⟨_, faceEdges3_at R E (j.m.fnum.at_id p.1), ed, hfe⟩
    · rintro ⟨⟨l, hl, d, hd⟩, l', hl', ed, hed⟩
      rw [q1 hf] at hl
      cases hg : (j.m.rmap j.bg).at cl with
      | none => simp [JMesh.cellFaces3, hg, R.faces] at hl
      | some g =>
        have hl0 := hl
        rw [cellFaces3_eq R hg] at hl
        rw [← Option.some.inj hl] at hd
        obtain ⟨p, hpm, e1⟩ := List.mem_map.mp hd
        obtain ⟨e1, e2⟩ := Prod.mk.inj e1
        refine ⟨⟨d, (hasFace3 (r := r) R cl f d).mpr ⟨g, p, hg, hpm, e1, e2⟩⟩, ed, ?_⟩
        show (e, ed) ∈ (j.faceGetEdges3 f).getD []
        rw [hl']; exact hed
  have nodes : ∀ s rec, i.side s = some rec → ∃ n0 n1, sideGetNode (Types.source (j.base3 r) c.types) i s 0 = some n0 ∧
      sideGetNode (Types.source (j.base3 r) c.types) i s 1 = some n1 := by
    intro s rec hrec
    obtain ⟨_, _, _, _, _, a, b⟩ := hnod s rec hrec
    exact ⟨_, _, a, b⟩
  refine ⟨c, hc, ?_, ?_⟩
  · rintro s cell face edge n0 n1 ⟨i', rec, hi'', hrec, rfl, rfl, rfl, a0, a1⟩
    rw [hi] at hi''; cases hi''
    obtain ⟨x, y⟩ := (hinc' _ _ _).mp (hinc s rec hrec)
    refine ⟨x, y, ?_⟩
    obtain ⟨fd, ed, _, hedge, hcase, _⟩ := hnod s rec hrec
    have hlt : rec.edge < j.m.ne := by
      obtain ⟨l, hl, d, hd⟩ := y
      rw [q2 hf he] at hl
      obtain ⟨x1, hx1, d1, hd1⟩ := x
      cases hfh : j.m.fmap.at rec.face with
      | none => simp [JMesh.faceEdges3, hfh, R.faces, E.edges] at hl
      | some fh =>
        rw [faceEdges3_at R E hfh] at hl
        rw [← Option.some.inj hl] at hd
        obtain ⟨q, _, e1⟩ := List.mem_map.mp hd
        rw [← (Prod.mk.inj e1).1]
        exact j.m.enum.id_lt q.1
    obtain ⟨eh, heh⟩ := j.m.enum.at_some hlt
    obtain ⟨a, b, hab, _⟩ := edgeNodes_at E heh
    have hen : (Types.source (j.base3 r) c.types).edgeNodes rec.edge = (a, b) := by
      show (j.edgeGetNodes rec.edge).getD (0, 0) = _
      rw [(q3 he).2, hab]; rfl
    rw [hen] at hcase
    rw [(q3 he).2, hab]
    dsimp only at hcase
    by_cases hw : (if (Types.source (j.base3 r) c.types).manifoldDim = 2 then fd = 1 else fd ≠ ed)
    · obtain ⟨c0, c1⟩ := hcase.1 hw
      rw [a0] at c0; rw [a1] at c1
      cases c0; cases c1
      exact .inl rfl
    · obtain ⟨c0, c1⟩ := hcase.2 hw
      rw [a0] at c0; rw [a1] at c1
      cases c0; cases c1
      exact .inr rfl
  · intro cell face edge x y
    obtain ⟨s, ⟨rec, hrec, e1, e2, e3⟩, hu⟩ := huniq _ _ _ ((hinc' cell face edge).mpr ⟨x, y⟩)
    refine ⟨s, ?_, ?_⟩
    · obtain ⟨n0, n1, a0, a1⟩ := nodes s rec hrec
      exact ⟨n0, n1, ⟨i, rec, hi, hrec, e1, e2, e3, a0, a1⟩⟩
    · rintro s' ⟨n0, n1, ⟨i', rec', hi'', hrec', e1', e2', e3', _⟩⟩
      rw [hi] at hi''; cases hi''
      exact hu s' ⟨rec', hrec', e1', e2', e3'⟩

/-- the edge of a side, travelled as the face does, runs from the second node of the side to the first if the cell is behind the
face (direction 1), from the first to the second otherwise -/
theorem side_along3 (j : JMesh) (r : MeshCache.Request) (h : j.Made3 r) (hp : j.m.Polygons) (hr : j.m.Regions)
    (hs : r.sides = true) {c : Types.Caches} (hc : Types.cacheExtra (j.base3 r) = some c) {s cell face edge n0 n1 : Nat}
    (hside : SideIs (j.base3 r) c s cell face edge n0 n1) {fs : List (Nat × Int)} (hfs : j.cellGetFaces3 cell = some fs)
    {d : Int} (hd : (face, d) ∈ fs) :
    ∃ es ed, j.faceEdges3 face = some es ∧ (edge, ed) ∈ es ∧ (d = 1 ∨ d = -1) ∧
      (d = 1 → along (j.edgeNodes edge) ed = some (n1, n0)) ∧ (d = -1 → along (j.edgeNodes edge) ed = some (n0, n1)) := by
  have W := mesh_ok3 j r h hp hr
  obtain ⟨hf, he⟩ := closure_sides h.closed hs
  have R := h.ready hf
  have E := h.readyE he
  obtain ⟨c', i, hc', hi, hci, hv, ho, hn⟩ := side_caches W hs
  rw [hc] at hc'; cases hc'
  obtain ⟨i', hi', hnod⟩ := side_nodes _ hv ho W.dim
  rw [hci] at hi'; cases hi'
  obtain ⟨q1, q2, q3⟩ := cached_connectivity3 j r h
  obtain ⟨i', rec, hi'', hrec, rfl, rfl, rfl, a0, a1⟩ := hside
  rw [hi] at hi''; cases hi''
  obtain ⟨fd, ed, hface, hedge, hcase, _⟩ := hnod s rec hrec
  obtain ⟨g, p, hg, hpm, hpf, hpd⟩ := (hasFace3 R rec.cell rec.face fd).mp hface
  -- the direction of the face is unique
  have hdfd : d = fd := by
    rw [q1 hf, cellFaces3_eq R hg] at hfs
    rw [← Option.some.inj hfs] at hd
    obtain ⟨p', hpm', e'⟩ := List.mem_map.mp hd
    obtain ⟨e1, e2⟩ := Prod.mk.inj e'
    have hpp : p'.1 = p.1 := j.m.fnum.id_inj (e1.trans hpf.symm)
    have hb : p' = p := by
      have hnd := hr.noface g
      obtain ⟨x, hx, ex⟩ := List.mem_iff_getElem.mp hpm
      obtain ⟨y, hy, ey⟩ := List.mem_iff_getElem.mp hpm'
      have : y = x := (hnd.getElem_inj_iff (hi := by simpa using hy) (hj := by simpa using hx)).mp (by
        rw [List.getElem_map, List.getElem_map, ex, ey, hpp])
      subst this
      rw [← ex, ← ey]
    subst hb
    rw [← e2, hpd]
  subst hdfd
  have hed : (rec.edge, ed) ∈ (Types.shape (j.base3 r)).faceEdges rec.face := hedge
  have hes : j.faceEdges3 rec.face = some ((Types.shape (j.base3 r)).faceEdges rec.face) := by
    rw [← hpf, faceEdges3_of R E]
    exact faceEdges3_at R E (j.m.fnum.at_id p.1)
  have hdd : d = 1 ∨ d = -1 := by rw [← hpd]; exact flipDir_unit _ _ _
  refine ⟨_, ed, hes, hed, hdd, ?_⟩
  rw [← hpf, faceEdges3_of R E] at hed
  obtain ⟨q, hq, eq⟩ := List.mem_map.mp hed
  obtain ⟨eq1, eq2⟩ := Prod.mk.inj eq
  have hee : ed = 1 ∨ ed = -1 := by rw [← eq2]; exact flipDir_unit _ _ _
  obtain ⟨a, b, hab, _⟩ := edgeNodes_at E (j.m.enum.at_iff.mpr eq1)
  have hen : (Types.source (j.base3 r) c.types).edgeNodes rec.edge = (a, b) := by
    show (j.edgeGetNodes rec.edge).getD (0, 0) = _
    rw [(q3 he).2, hab]; rfl
  rw [hen, a0, a1] at hcase
  have hm : (Types.source (j.base3 r) c.types).manifoldDim = 3 := rfl
  rw [hm] at hcase
  rw [hab]
  simp only [show ¬ ((3 : Nat) = 2) by omega, if_false, Option.some.injEq] at hcase
  rcases hdd with rfl | rfl <;> rcases hee with rfl | rfl <;> simp_all [along]

/-- **C115** (3D, sides of faces that are not flipped) the nodes of a side run against the order of the nodes of the face if the
normal of the face points out of the cell, with it otherwise: the facet of the side points into the cell -/
theorem sides_point_inwards3_partial (j : JMesh) (r : MeshCache.Request) (h : j.Made3 r) (hp : j.m.Polygons) (hr : j.m.Regions)
    (hs : r.sides = true) {c : Types.Caches} (hc : Types.cacheExtra (j.base3 r) = some c) {s cell face edge n0 n1 : Nat}
    (hside : SideIs (j.base3 r) c s cell face edge n0 n1) {fs : List (Nat × Int)} (hfs : j.cellGetFaces3 cell = some fs)
    {d : Int} (hd : (face, d) ∈ fs) (hfl : j.faceflip[face]? = some false) :
    (d = 1 ∨ d = -1) ∧ (d = 1 → InOrder (j.faceNodes3 face) n1 n0) ∧ (d = -1 → InOrder (j.faceNodes3 face) n0 n1) := by
  obtain ⟨hf, he⟩ := closure_sides h.closed hs
  have R := h.ready hf
  have E := h.readyE he
  obtain ⟨es, ed, hes, hed, hdd, h1, h2⟩ := side_along3 j r h hp hr hs hc hside hfs hd
  obtain ⟨ns, hns⟩ : ∃ ns, j.faceNodes3 face = some ns := by
    cases hfh : j.m.fmap.at face with
    | none => simp [JMesh.faceEdges3, hfh, R.faces, E.edges] at hes
    | some fh =>
      unfold JMesh.faceNodes3
      rw [if_pos R.faces, hfh, Option.bind_some, hfl]
      exact ⟨_, rfl⟩
  have hw := face_edges_walk_nodes_partial j R E hp face hfl es ns hes hns
  have hmem : along (j.edgeNodes edge) ed ∈ (cyclicPairs ns).map some := by
    rw [← hw]
    exact List.mem_map.mpr ⟨(edge, ed), hed, rfl⟩
  obtain ⟨q, hq, eq⟩ := List.mem_map.mp hmem
  refine ⟨hdd, fun hd1 => ⟨ns, hns, ?_⟩, fun hd1 => ⟨ns, hns, ?_⟩⟩
  · rw [h1 hd1] at eq; rw [← Option.some.inj eq]; exact hq
  · rw [h2 hd1] at eq; rw [← Option.some.inj eq]; exact hq

/-- **C115** is false for every side of a flipped face (with three edges or more) of a 3D mesh: its nodes run the other way, the
side is turned inside out -/
theorem sides_of_flipped_faces_inverted (j : JMesh) (r : MeshCache.Request) (h : j.Made3 r) (hp : j.m.Polygons)
    (hr : j.m.Regions) (hs : r.sides = true) {c : Types.Caches} (hc : Types.cacheExtra (j.base3 r) = some c)
    {s cell face edge n0 n1 : Nat} (hside : SideIs (j.base3 r) c s cell face edge n0 n1) {fs : List (Nat × Int)}
    (hfs : j.cellGetFaces3 cell = some fs) {d : Int} (hd : (face, d) ∈ fs) (hfl : j.faceflip[face]? = some true)
    {ns : List Nat} (hns : j.faceNodes3 face = some ns) (h3 : 3 ≤ ns.length) :
    (d = 1 → ¬ InOrder (j.faceNodes3 face) n1 n0) ∧ (d = -1 → ¬ InOrder (j.faceNodes3 face) n0 n1) := by
  obtain ⟨hf, he⟩ := closure_sides h.closed hs
  have R := h.ready hf
  have E := h.readyE he
  obtain ⟨es, ed, hes, hed, hdd, h1, h2⟩ := side_along3 j r h hp hr hs hc hside hfs hd
  have h3' : 3 ≤ es.length := by
    cases hfh : j.m.fmap.at face with
    | none => simp [JMesh.faceEdges3, hfh, R.faces, E.edges] at hes
    | some fh =>
      rw [faceEdges3_at R E hfh] at hes
      unfold JMesh.faceNodes3 at hns
      rw [if_pos R.faces, hfh, Option.bind_some, hfl, Option.map_some] at hns
      rw [← Option.some.inj hns, List.length_map] at h3
      rw [← Option.some.inj hes, List.length_map]
      unfold MMesh.mfVertices at h3
      simpa using h3
  obtain ⟨a, b, hab, _, hno⟩ := flipped_face_edges_wrong j R E hp face hfl es ns hes hns h3' edge ed hed
  rw [hns]
  refine ⟨fun hd1 => ?_, fun hd1 => ?_⟩
  · rintro ⟨ns', e', hm⟩
    cases e'
    rw [h1 hd1] at hab
    cases hab
    exact hno hm
  · rintro ⟨ns', e', hm⟩
    cases e'
    rw [h2 hd1] at hab
    cases hab
    exact hno hm

/-! ### 2D -/

/-- **C115** (2D) the sides are the pairs of a cell and a face (an edge) of it, each once; the nodes of a side follow the order
of the nodes of the cell, whichever faces and edges are flipped, provided both are flipped alike (`flipped_alike`) -/
theorem sides_of_mesh2 (j : JMesh) (r : MeshCache.Request) (h : j.Made2 r) (hp : j.m.Polygons) (hr : j.m.OrientedCells)
    (hs : r.sides = true) (hfl : j.faceflip = j.edgeflip) :
    ∃ c, Types.cacheExtra (j.base2 r) = some c ∧
      (∀ s cell face edge n0 n1, SideIs (j.base2 r) c s cell face edge n0 n1 →
        HasFst (j.cellGetFaces2 cell) face ∧ edge = face ∧ InOrder (j.cellNodes2 cell) n0 n1) ∧
      (∀ cell face, HasFst (j.cellGetFaces2 cell) face →
        ∃! s, ∃ n0 n1, SideIs (j.base2 r) c s cell face face n0 n1) := by
  have W := mesh_ok2 j r h hp hr
  obtain ⟨hf, he⟩ := closure_sides h.closed hs
  have R := h.ready hf
  have E := h.readyE he
  obtain ⟨c, i, hc, hi, hci, hv, ho, hn⟩ := side_caches W hs
  obtain ⟨i', hi', _, _, hinc, huniq, _⟩ := sides_are_incidences _ hv
  rw [hci] at hi'; cases hi'
  obtain ⟨i', hi', hnod⟩ := side_nodes _ hv ho W.dim
  rw [hci] at hi'; cases hi'
  obtain ⟨q1, q2, q3⟩ := cached_connectivity2 j r h 2
  refine ⟨c, hc, ?_, ?_⟩
  · rintro s cell face edge n0 n1 ⟨i', rec, hi'', hrec, rfl, rfl, rfl, a0, a1⟩
    rw [hi] at hi''; cases hi''
    obtain ⟨fd, ed, hface, hedge, hcase, _⟩ := hnod s rec hrec
    obtain ⟨g, p, hg, hpm, hpf, hpd⟩ := (hasFace2 R rec.cell rec.face fd).mp hface
    have hedge' : (rec.edge, ed) ∈ (Types.shape (j.base2 r)).faceEdges rec.face := hedge
    rw [← hpf, faceEdges2_of R E] at hedge'
    obtain ⟨ee, rfl⟩ := Prod.mk.inj (List.mem_singleton.mp hedge')
    rw [hpf] at ee
    have hmem : (rec.face, fd) ∈ (j.m.face g).edges.map fun p =>
        (j.m.emap.id p.1 - 1, flipDir j.faceflip (j.m.emap.id p.1 - 1) p.2) :=
      List.mem_map.mpr ⟨p, hpm, by rw [hpd, hpf]⟩
    have hcf := cellFaces2_eq R hg
    refine ⟨?_, ee, ?_⟩
    · rw [q1 hf]
      exact ⟨_, hcf, fd, hmem⟩
    · obtain ⟨ns, hns⟩ : ∃ ns, j.cellNodes2 rec.cell = some ns := by
        unfold JMesh.cellNodes2; rw [hg]; exact ⟨_, rfl⟩
      have hw := cell_faces_walk_nodes2 j R hp rec.cell _ ns hcf hns
      have hin : along (twoNodes (j.faceNodes2 rec.face)) fd ∈ (cyclicPairs ns).map some := by
        rw [← hw]
        exact List.mem_map.mpr ⟨_, hmem, rfl⟩
      have hlt : rec.face < j.m.ne := by rw [← hpf]; exact j.m.enum.id_lt p.1
      obtain ⟨e, a, b, e1, e2, e3⟩ := face_edge_2D j R E hfl rec.face hlt
      have : e = rec.face := by
        rw [faceEdges2_at R E (j.m.enum.at_iff.mpr hpf)] at e1
        cases e1; rfl
      subst this
      have hen : (Types.source (j.base2 r) c.types).edgeNodes rec.edge = (a, b) := by
        show (j.edgeGetNodes rec.edge).getD (0, 0) = _
        rw [(q3 he).2.1, ee, e2]; rfl
      rw [hen, a0, a1] at hcase
      have hm : (Types.source (j.base2 r) c.types).manifoldDim = 2 := rfl
      rw [hm] at hcase
      simp only [if_true, Option.some.injEq] at hcase
      rw [e3] at hin
      obtain ⟨q, hq, eq⟩ := List.mem_map.mp hin
      refine ⟨ns, hns, ?_⟩
      have hdd : fd = 1 ∨ fd = -1 := by rw [← hpd]; exact flipDir_unit _ _ _
      rcases hdd with rfl | rfl
      · obtain ⟨x, y⟩ := hcase.1 rfl
        rw [x, y]
        simp [along, twoNodes] at eq
        rw [← eq]; exact hq
      · obtain ⟨x, y⟩ := hcase.2 (by omega)
        rw [x, y]
        simp [along, twoNodes] at eq
        rw [← eq]; exact hq
  · intro cell face hcf
    have hI : Incident (Types.source (j.base2 r) c.types) cell face face := by
      obtain ⟨l, hl, d, hd⟩ := hcf
      rw [q1 hf] at hl
      cases hg : (j.m.cmap j.bg).at cell with
      | none => simp [JMesh.cellFaces2, hg, R.faces] at hl
      | some g =>
        rw [cellFaces2_eq R hg] at hl
        rw [← Option.some.inj hl] at hd
        obtain ⟨p, hpm, e1⟩ := List.mem_map.mp hd
        obtain ⟨e1, e2⟩ := Prod.mk.inj e1
        refine ⟨⟨d, (hasFace2 (r := r) R cell face d).mpr ⟨g, p, hg, hpm, e1, e2⟩⟩, 1, ?_⟩
        have := faceEdges2_of (r := r) R E p.1
        rw [e1] at this
        show (face, 1) ∈ (Types.shape (j.base2 r)).faceEdges face
        rw [this]; exact List.mem_singleton.mpr rfl
    obtain ⟨s, ⟨rec, hrec, e1, e2, e3⟩, hu⟩ := huniq _ _ _ hI
    refine ⟨s, ?_, ?_⟩
    · obtain ⟨_, _, _, _, _, a0, a1⟩ := hnod s rec hrec
      exact ⟨_, _, ⟨i, rec, hi, hrec, e1, e2, e3, a0, a1⟩⟩
    · rintro s' ⟨n0, n1, ⟨i', rec', hi'', hrec', e1', e2', e3', _⟩⟩
      rw [hi] at hi''; cases hi''
      exact hu s' ⟨rec', hrec', e1', e2', e3'⟩

theorem setFlips_congr {n : Nat} (l : List (Fin n)) (id : Fin n → Nat) (t t' : Fin n → Option Bool)
    (h : ∀ x b, t x = some b → t' x = some b) (fl : List Bool) (hfl : setFlips l id t = some fl) : setFlips l id t' = some fl := by
  unfold setFlips at hfl ⊢
  generalize List.replicate n false = a at hfl ⊢
  induction l generalizing a with
  | nil => exact hfl
  | cons x l ih =>
    rw [List.foldlM_cons] at hfl ⊢
    cases hx : t x with
    | none => rw [hx] at hfl; cases hfl
    | some b =>
      rw [hx] at hfl
      rw [h x b hx]
      exact ih _ hfl

/-- in a 2D mesh the flags of faces and of edges are computed alike -/
theorem flipped_alike (serial : Bool) (w : List MMesh) (m : MMesh) (fl : List Bool) (h : initPedgeDirs serial w m = some fl) :
    initPfaceDirs2 serial w m = some fl := by
  unfold initPedgeDirs at h
  unfold initPfaceDirs2
  split at h
  · rename_i hs; rw [if_pos hs]; exact h
  · rename_i hs
    rw [if_neg hs]
    refine setFlips_congr _ _ _ _ ?_ fl h
    intro x b hb
    unfold flipTest at hb
    unfold flipTest2
    split at hb
    · rename_i hc; rw [decide_eq_true hc]; exact hb
    · rename_i hc
      rw [decide_eq_false hc]
      split at hb
      · cases hb
      · exact hb

/-! ### the hypotheses are met -/

/-- a decidable form of `SideIs` -/
def sideData (b : Types.Base) (s : Nat) : Option (Nat × Nat × Nat × Nat × Nat) :=
  (Types.cacheExtra b).bind fun k => k.side.bind fun i => (i.side s).bind fun rec =>
    (sideGetNode (Types.source b k.types) i s 0).bind fun n0 => (sideGetNode (Types.source b k.types) i s 1).map fun n1 =>
      (rec.cell, rec.face, rec.edge, n0, n1)

theorem sideData_is {b : Types.Base} {c : Types.Caches} (hc : Types.cacheExtra b = some c) {s cell face edge n0 n1 : Nat}
    (h : sideData b s = some (cell, face, edge, n0, n1)) : SideIs b c s cell face edge n0 n1 := by
  unfold sideData at h
  rw [hc, Option.bind_some] at h
  obtain ⟨i, hi, h⟩ := Option.bind_eq_some_iff.mp h
  obtain ⟨rec, hrec, h⟩ := Option.bind_eq_some_iff.mp h
  obtain ⟨m0, h0, h⟩ := Option.bind_eq_some_iff.mp h
  obtain ⟨m1, h1, h⟩ := Option.map_eq_some_iff.mp h
  simp only [Prod.mk.injEq] at h
  obtain ⟨rfl, rfl, rfl, rfl, rfl⟩ := h
  exact ⟨i, rec, hi, hrec, rfl, rfl, rfl, h0, h1⟩

/-- a side of a face that is not flipped: face 0 has the nodes 1, 2, 0 and its normal points out of cell 0, the nodes of the
side run from 2 to 1 -/
example : ∃ c, Types.cacheExtra (rankMesh.base3 reqAll) = some c ∧ SideIs (rankMesh.base3 reqAll) c 3 0 0 3 2 1 ∧
    rankMesh.cellGetFaces3 0 = some [(3, -1), (0, 1), (1, 1), (2, 1)] ∧ rankMesh.faceflip[0]? = some false ∧
    rankMesh.faceNodes3 0 = some [1, 2, 0] ∧ InOrder (rankMesh.faceNodes3 0) 1 2 := by
  obtain ⟨c, hc, _⟩ := sides_of_mesh3 rankMesh reqAll rankMesh_made.1 rank_polygons.2.1 rank_regions.2.1 rfl
  refine ⟨c, hc, sideData_is hc (by decide +kernel), by decide +kernel, by decide +kernel, by decide +kernel, ?_⟩
  refine (sides_point_inwards3_partial rankMesh reqAll rankMesh_made.1 rank_polygons.2.1 rank_regions.2.1 rfl hc
    (sideData_is (s := 3) (cell := 0) (face := 0) (edge := 3) (n0 := 2) (n1 := 1) hc (by decide +kernel))
    (fs := [(3, -1), (0, 1), (1, 1), (2, 1)]) (d := 1) (by decide +kernel) (by simp) (by decide +kernel)).2.1 rfl

/-- the same edge of cell 0, on the flipped face 3 with nodes 1, 2, 3 and normal into cell 0: the side runs from 2 to 1, again,
although the face lies on the other side of the edge -/
theorem inverted_sides_reachable : ∃ c, Types.cacheExtra (rankMesh.base3 reqAll) = some c ∧
    SideIs (rankMesh.base3 reqAll) c 2 0 3 3 2 1 ∧ (3, -1) ∈ (rankMesh.cellGetFaces3 0).getD [] ∧
    rankMesh.faceNodes3 3 = some [1, 2, 3] ∧ ¬ InOrder (rankMesh.faceNodes3 3) 2 1 := by
  obtain ⟨c, hc, _⟩ := sides_of_mesh3 rankMesh reqAll rankMesh_made.1 rank_polygons.2.1 rank_regions.2.1 rfl
  refine ⟨c, hc, sideData_is hc (by decide +kernel), by decide +kernel, by decide +kernel, ?_⟩
  refine (sides_of_flipped_faces_inverted rankMesh reqAll rankMesh_made.1 rank_polygons.2.1 rank_regions.2.1 rfl hc
    (sideData_is (s := 2) (cell := 0) (face := 3) (edge := 3) (n0 := 2) (n1 := 1) hc (by decide +kernel))
    (fs := [(3, -1), (0, 1), (1, 1), (2, 1)]) (d := -1) (by decide +kernel) (by simp) (by decide +kernel)
    (ns := [1, 2, 3]) (by decide +kernel) (by decide)).2 rfl

/-- a mesh with a boundary ghost -/
example : ∃ c, Types.cacheExtra (sample3.base3 reqAll) = some c ∧ ∃ n0 n1, SideIs (sample3.base3 reqAll) c 12 1 0 0 n0 n1 := by
  obtain ⟨c, _, hc, _⟩ := side_caches (mesh_ok3 sample3 reqAll sample3_made sample3_ok.2 sample3_ok.1) rfl
  exact ⟨c, hc, 1, 0, sideData_is hc (by decide +kernel)⟩

set_option synthInstance.maxHeartbeats 400000 in
set_option synthInstance.maxSize 2000 in
theorem sample2_ok : sample2.m.Polygons ∧ sample2.m.OrientedCells := by
  refine ⟨⟨?_, ?_, ?_, ?_⟩, ?_⟩
  · show ∀ e : Fin 5, (sampleMesh.edge e).v0 ≠ (sampleMesh.edge e).v1
    decide +kernel
  · show ∀ f : Fin 2, (sampleMesh.face f).edges.map sampleMesh.finish = ((sampleMesh.face f).edges.map sampleMesh.start).rotate 1
    decide +kernel
  · show ∀ f : Fin 2, ((sampleMesh.face f).edges.map sampleMesh.start).Nodup
    decide +kernel
  · show ∀ f : Fin 2, ((sampleMesh.face f).edges.map Prod.fst).Nodup
    decide +kernel
  · show ∀ (e : Fin 5) (d : Bool) (r r' : Fin 2), (e, d) ∈ (sampleMesh.face r).edges → (e, d) ∈ (sampleMesh.face r').edges → r = r'
    decide +kernel

/-- 2D: the face 3 and the edge 3 are flipped; cell 1 has the nodes 3, 0, 1 -/
example : sample2.faceflip = sample2.edgeflip ∧ sample2.cellNodes2 1 = some [3, 0, 1] ∧
    sideData (sample2.base2 reqAll) 3 = some (1, 3, 3, 3, 0) := ⟨rfl, by decide +kernel, by decide +kernel⟩

example : ∃ c, Types.cacheExtra (sample2.base2 reqAll) = some c ∧ SideIs (sample2.base2 reqAll) c 3 1 3 3 3 0 := by
  obtain ⟨c, hc, _⟩ := sides_of_mesh2 sample2 reqAll sample2_made sample2_ok.1 sample2_ok.2 rfl rfl
  exact ⟨c, hc, sideData_is hc (by decide +kernel)⟩

example : initPedgeDirs false (sampleWorld2.map JMesh.m) rank1 = some [false, false, false, true, false, false, false, false, false] := by
  decide +kernel

end Jali.Mstk
