import Verif.Proof.MstkBndry2
import Verif.Props.MstkBndry3
/-
C113: cells added outside the boundary of a 2D mesh.
-/
namespace Jali.Mstk

/-- the mesh with boundary ghosts, by the lemmas of `Proof/MstkBndry2` -/
def JMesh.gh2 (j : JMesh) : JMesh := { j with m := j.m.withFaces j.m.added2, bg := true }

theorem withGhosts2_eq (j : JMesh) : j.withGhosts2 = j.gh2 := by
  unfold JMesh.withGhosts2 JMesh.gh2
  rw [boundaryGhosts2_eq]

theorem faceCells2_ALL (j : JMesh) (hf : j.faces = true) (f : Nat) (fh : Fin j.m.ne) (hfh : j.m.emap.at f = some fh) :
    j.faceCells2 f .ALL = some ((users Face.edges j.m.face fh).map fun r => (j.m.cmap j.bg).id r - 1) := by
  unfold JMesh.faceCells2
  rw [if_pos hf, hfh, Option.map_some, filter_passes_ALL]
  rfl

theorem outer2_iff (j : JMesh) (hf : j.Ready2) (h0 : j.Fresh2) (f c : Nat) :
    j.Outer2 f c ↔ ∃ fh r d, j.m.emap.at f = some fh ∧ (j.m.cmap false).at c = some r ∧ j.m.OuterH2 fh r d := by
  have hn := (ids_name_entities j.m j.bg).2.1
  constructor
  · rintro ⟨ho, hp, h1⟩
    cases hfh : j.m.emap.at f with
    | none => unfold JMesh.faceCells2 at h1; rw [if_pos hf.faces, hfh] at h1; cases h1
    | some fh =>
      rw [faceCells2_ALL j hf.faces f fh hfh] at h1
      obtain ⟨r, hr, e⟩ := List.map_eq_singleton_iff.mp (Option.some.inj h1)
      obtain ⟨⟨d, hd⟩, hu⟩ := (users_singleton _ _).mp hr
      refine ⟨fh, r, d, rfl, ?_, ⟨⟨(hn.owned_iff f fh hfh).mp ho, hp fh hfh⟩, hd, hu⟩⟩
      rw [← h0.noghosts]
      exact (j.m.cnum j.bg).at_iff.mpr e
  · rintro ⟨fh, r, d, hfh, hr, ⟨⟨h1, h2⟩, hd, hu⟩⟩
    refine ⟨(hn.owned_iff f fh hfh).mpr h1, ?_, ?_⟩
    · intro h e
      rw [hfh] at e
      rw [← Option.some.inj e]; exact h2
    · rw [faceCells2_ALL j hf.faces f fh hfh, (users_singleton _ _).mpr ⟨⟨d, hd⟩, hu⟩]
      rw [← h0.noghosts] at hr
      simp only [List.map_cons, List.map_nil]
      rw [(j.m.cnum j.bg).at_iff.mp hr]

theorem cellFaces_old2 (j : JMesh) (hr : j.m.Cells2) (h0 : j.Fresh2) (c : Nat) (hc : c < j.m.nf) :
    j.gh2.cellFaces2 c = j.cellFaces2 c ∧ j.gh2.cellNodes2 c = j.cellNodes2 c ∧ j.gh2.cellEdges2 c = j.cellEdges2 c ∧
    j.gh2.cellType2 c = j.cellType2 c ∧ j.gh2.cellGid2 c = j.cellGid2 c := by
  obtain ⟨r, hrr⟩ := (j.m.cnum j.bg).at_some hc
  obtain ⟨r', e', hreg⟩ : ∃ r' : Fin j.gh2.m.nf, (j.gh2.m.cmap j.gh2.bg).at c = some r' ∧ j.gh2.m.face r' = j.m.face r := by
    refine ⟨(Fin.castAdd _ r : Fin (j.m.nf + j.m.added2.length)), ?_, extend_old _ _ r⟩
    have e := cmap_old j.m hr h0.unmarked c hc
    rw [← h0.noghosts, hrr] at e
    exact e
  refine ⟨?_, ?_, ?_, ?_, ?_⟩
  · unfold JMesh.cellFaces2
    rw [e', hrr, Option.bind_some, Option.bind_some, hreg]
    rfl
  · unfold JMesh.cellNodes2
    rw [e', hrr, Option.map_some, Option.map_some, hreg]
    rfl
  · unfold JMesh.cellEdges2
    rw [e', hrr, Option.map_some, Option.map_some, hreg]
    rfl
  · unfold JMesh.cellType2
    rw [e', hrr, Option.map_some, Option.map_some, hreg]
    rfl
  · unfold JMesh.cellGid2
    rw [e', hrr, Option.map_some, Option.map_some, hreg, (j.gh2.m.cnum j.gh2.bg).id_of_at e', (j.m.cnum j.bg).id_of_at hrr]
    rfl

/-- **C113** adding boundary ghosts changes nothing about the cells that were there: the same ids, owned and ghost, with the same
faces, nodes, edges, types and global ids (2D) -/
theorem cells_unchanged2 (j : JMesh) (hr : j.m.Cells2) (h0 : j.Fresh2) :
    (j.withGhosts2.m.cellIds2 true).owned = (j.m.cellIds2 false).owned ∧
    (j.withGhosts2.m.cellIds2 true).ghost = (j.m.cellIds2 false).ghost ∧
    ∀ c, c < j.m.nf → j.withGhosts2.cellFaces2 c = j.cellFaces2 c ∧ j.withGhosts2.cellNodes2 c = j.cellNodes2 c ∧
      j.withGhosts2.cellEdges2 c = j.cellEdges2 c ∧ j.withGhosts2.cellType2 c = j.cellType2 c ∧
      j.withGhosts2.cellGid2 c = j.cellGid2 c := by
  rw [withGhosts2_eq]
  have h := cellIds2_old j.m hr h0.unmarked
  exact ⟨h.1, h.2.1, fun c hc => cellFaces_old2 j hr h0 c hc⟩

/-- the boundary ghost of a face -/
theorem ghost_of_outer2 (j : JMesh) (hf : j.Ready2) (hr : j.m.Cells2) (h0 : j.Fresh2) (f c : Nat) (fh : Fin j.m.ne)
    (r : Fin j.m.nf) (d : Bool) (hfh : j.m.emap.at f = some fh) (hrc : (j.m.cmap false).at c = some r)
    (ho : j.m.OuterH2 fh r d) : ∃ i : Fin j.m.added2.length,
    j.gh2.faceCells2 f .ALL = some [c, j.m.nf + i] ∧
    (j.gh2.m.cmap true).at (j.m.nf + i) = some (Fin.natAdd _ i) ∧
    j.gh2.m.face (Fin.natAdd _ i : Fin (j.m.nf + j.m.added2.length)) = outside2 (fh, !d) := by
  obtain ⟨i, hi, hu⟩ := users_outer j.m.face Face.edges j.m.Ok2 outside2 hr.noface (fun _ => rfl) ho
  refine ⟨i, ?_, cmap_new j.m hr h0.unmarked i, ?_⟩
  · have := faceCells2_ALL j.gh2 hf.faces f fh hfh
    rw [this]
    have hu' : users Face.edges j.gh2.m.face fh = [Fin.castAdd _ r, Fin.natAdd _ i] := hu
    rw [hu']
    have e1 := cmap_old_id j.m hr h0.unmarked r
    have e2 := cmap_new_id j.m hr h0.unmarked i
    have e3 := (j.m.cnum false).at_iff.mp hrc
    show some [((j.m.withFaces j.m.added2).cmap true).id (Fin.castAdd _ r : Fin (j.m.nf + j.m.added2.length)) - 1,
      ((j.m.withFaces j.m.added2).cmap true).id (Fin.natAdd _ i : Fin (j.m.nf + j.m.added2.length)) - 1] = _
    rw [e1, e2, e3]
  · have := extend_new j.m.face j.m.added2 i
    rw [← hi]
    exact this

/-- **C113** each outer face gets one cell of its own (2D): it has the face only, sees it from the other side; the face then has two cells -/
theorem outer_face_ghost2 (j : JMesh) (hf : j.Ready2) (hr : j.m.Cells2) (h0 : j.Fresh2) (f c : Nat) (d : Int)
    (ho : j.Outer2 f c) (hd : Has (j.cellFaces2 c) (f, d)) :
    ∃ g, g ∈ (j.withGhosts2.m.cellIds2 true).bndry ∧ j.withGhosts2.faceCells2 f .ALL = some [c, g] ∧
      j.withGhosts2.cellFaces2 g = some [(f, -d)] := by
  rw [withGhosts2_eq]
  obtain ⟨fh, r, b, hfh, hrc, hob⟩ := (outer2_iff j hf h0 f c).mp ho
  obtain ⟨i, h1, h2, h3⟩ := ghost_of_outer2 j hf hr h0 f c fh r b hfh hrc hob
  refine ⟨j.m.nf + i, ?_, h1, ?_⟩
  · have := (cellIds2_old j.m hr h0.unmarked).2.2
    show j.m.nf + i ∈ ((j.m.withFaces j.m.added2).cellIds2 true).bndry
    rw [this]
    simp
  · have hrdy : j.gh2.Ready2 := ⟨hf.faces, hf.flips⟩
    have := cellFaces2_eq hrdy h2
    rw [this, h3]
    obtain ⟨l, hl, hm⟩ := hd
    rw [← h0.noghosts] at hrc
    rw [cellFaces2_eq hf hrc] at hl
    rw [← Option.some.inj hl, List.mem_map] at hm
    obtain ⟨⟨fh', b'⟩, hp, e⟩ := hm
    simp only [Prod.mk.injEq] at e
    have ef : fh' = fh := j.m.enum.id_inj (e.1.trans (j.m.enum.at_iff.mp hfh).symm)
    subst ef
    have eb : b' = b := by
      rw [← dirOf_eq Face.edges (hr.noface r) hp, ← dirOf_eq Face.edges (hr.noface r) hob.2.1]
    subst eb
    rw [← e.2, ← flipDir_ne _ _ (show b' ≠ !b' by cases b' <;> decide)]
    show some [(j.m.emap.id fh' - 1, flipDir j.faceflip (j.m.emap.id fh' - 1) (!b'))] = _
    rw [e.1]

/-- **C113** the other faces have the cells they had (2D) -/
theorem other_faces2 (j : JMesh) (hf : j.Ready2) (hr : j.m.Cells2) (h0 : j.Fresh2) (f : Nat) (ho : ∀ c, ¬ j.Outer2 f c) :
    j.withGhosts2.faceCells2 f .ALL = j.faceCells2 f .ALL := by
  rw [withGhosts2_eq]
  cases hfh : j.m.emap.at f with
  | none =>
    have e : j.gh2.m.emap.at f = none := hfh
    unfold JMesh.faceCells2
    rw [e, hfh]
    rfl
  | some fh =>
    have hno : ¬ ∃ r d, OuterG j.m.face Face.edges j.m.Ok2 fh r d := by
      rintro ⟨r, d, h⟩
      exact ho _ ((outer2_iff j hf h0 f _).mpr ⟨fh, r, d, hfh, (j.m.cnum false).at_id r, h⟩)
    have hu := users_inner j.m.face Face.edges j.m.Ok2 outside2 hr.noface (fun _ => rfl) hno
    have hu' : users Face.edges j.gh2.m.face fh = (users Face.edges j.m.face fh).map (Fin.castAdd _) := hu
    have h1 : j.gh2.faceCells2 f .ALL = some ((users Face.edges j.gh2.m.face fh).map
      fun r => (j.gh2.m.cmap true).id r - 1) := faceCells2_ALL j.gh2 hf.faces f fh hfh
    rw [h1, hu', faceCells2_ALL j hf.faces f fh hfh, h0.noghosts]
    show some (((users Face.edges j.m.face fh).map (Fin.castAdd _)).map fun r : Fin (j.m.nf + j.m.added2.length) =>
      ((j.m.withFaces j.m.added2).cmap true).id r - 1) = _
    rw [List.map_map]
    congr 1
    apply List.map_congr_left
    intro r _
    exact cmap_old_id j.m hr h0.unmarked r

/-- **C113** each boundary ghost is the cell outside one outer face (2D); with `outer_face_ghost2`, outer faces and boundary
ghosts are one to one -/
theorem ghosts_outside2 (j : JMesh) (hf : j.Ready2) (hr : j.m.Cells2) (h0 : j.Fresh2) (g : Nat)
    (hg : g ∈ (j.withGhosts2.m.cellIds2 true).bndry) :
    ∃ f c, j.Outer2 f c ∧ j.withGhosts2.faceCells2 f .ALL = some [c, g] := by
  rw [withGhosts2_eq] at hg ⊢
  have hg' : g ∈ ((j.m.withFaces j.m.added2).cellIds2 true).bndry := hg
  rw [(cellIds2_old j.m hr h0.unmarked).2.2, List.mem_map] at hg'
  obtain ⟨i, hi, rfl⟩ := hg'
  rw [List.mem_range] at hi
  obtain ⟨fh, r, d, ho, e⟩ := (added2_mem j.m hr).mp (List.getElem_mem hi)
  obtain ⟨i', h1, h2, h3⟩ := ghost_of_outer2 j hf hr h0 (j.m.emap.id fh - 1) _ fh r d (j.m.enum.at_id fh)
    ((j.m.cnum false).at_id r) ho
  refine ⟨j.m.emap.id fh - 1, _, (outer2_iff j hf h0 _ _).mpr ⟨fh, r, d, j.m.enum.at_id fh, (j.m.cnum false).at_id r, ho⟩, ?_⟩
  rw [h1]
  have : (i' : Nat) = i := by
    have hx : j.m.added2[i'] = outside2 (fh, !d) := (extend_new j.m.face j.m.added2 i').symm.trans h3
    exact ((nodup_ghostsFor j.m.face Face.edges j.m.Ok2 outside2 hr.noface (fun _ => rfl)).getElem_inj_iff
      (hi := i'.isLt) (hj := hi)).mp (hx.trans e.symm)
  rw [this]

/-- **C113** with boundary ghosts the mesh still is one: a face has at most one cell on each side (2D) -/
theorem cells_kept (m : MMesh) (hr : m.Cells2) : m.boundaryGhosts2.Cells2 := by
  rw [boundaryGhosts2_eq]
  have hold : ∀ x : Fin (m.nf + m.added2.length), (∃ r, x = Fin.castAdd _ r) ∨ ∃ i, x = Fin.natAdd _ i := by
    intro x
    exact Fin.addCases (fun r => .inl ⟨r, rfl⟩) (fun i => .inr ⟨i, rfl⟩) x
  have hnew : ∀ i : Fin m.added2.length, ∃ f r d, m.OuterH2 f r d ∧ m.added2[i] = outside2 (f, !d) := fun i =>
    (added2_mem m hr).mp (List.getElem_mem i.isLt)
  constructor
  · intro x
    show ((extend m.face m.added2 x).edges.map Prod.fst).Nodup
    rcases hold x with ⟨r, rfl⟩ | ⟨i, rfl⟩
    · rw [extend_old]; exact hr.noface r
    · rw [extend_new]
      obtain ⟨f, r, d, _, e⟩ := hnew i
      rw [e]; simp [outside2]
  · intro f d x y hx hy
    have hx' : (f, d) ∈ (extend m.face m.added2 x).edges := hx
    have hy' : (f, d) ∈ (extend m.face m.added2 y).edges := hy
    show (x : Fin (m.nf + m.added2.length)) = y
    rcases hold x with ⟨r, rfl⟩ | ⟨i, rfl⟩ <;> rcases hold y with ⟨r', rfl⟩ | ⟨i', rfl⟩
    · rw [extend_old] at hx' hy'
      rw [hr.sides f d r r' hx' hy']
    · rw [extend_old] at hx'
      rw [extend_new] at hy'
      obtain ⟨g, q, b, ho, e⟩ := hnew i'
      rw [e] at hy'
      obtain ⟨rfl, rfl⟩ := Prod.mk.inj (List.mem_singleton.mp hy')
      have hq := ho.2.2 r _ hx'
      subst hq
      have h1 := dirOf_eq Face.edges (hr.noface r) hx'
      have h2 := dirOf_eq Face.edges (hr.noface r) ho.2.1
      rw [h1] at h2
      cases b <;> simp at h2
    · rw [extend_old] at hy'
      rw [extend_new] at hx'
      obtain ⟨g, q, b, ho, e⟩ := hnew i
      rw [e] at hx'
      obtain ⟨rfl, rfl⟩ := Prod.mk.inj (List.mem_singleton.mp hx')
      have hq := ho.2.2 r' _ hy'
      subst hq
      have h1 := dirOf_eq Face.edges (hr.noface r') hy'
      have h2 := dirOf_eq Face.edges (hr.noface r') ho.2.1
      rw [h1] at h2
      cases b <;> simp at h2
    · rw [extend_new] at hx' hy'
      obtain ⟨g, q, b, ho, e⟩ := hnew i
      obtain ⟨g', q', b', ho', e'⟩ := hnew i'
      rw [e] at hx'
      rw [e'] at hy'
      obtain ⟨rfl, e1⟩ := Prod.mk.inj (List.mem_singleton.mp hx')
      obtain ⟨rfl, e2⟩ := Prod.mk.inj (List.mem_singleton.mp hy')
      obtain ⟨rfl, rfl⟩ := outerG_unique m.face Face.edges m.Ok2 hr.noface ho ho'
      congr 1
      exact Fin.ext (((nodup_ghostsFor m.face Face.edges m.Ok2 outside2 hr.noface (fun _ => rfl)).getElem_inj_iff
        (hi := i.isLt) (hj := i'.isLt)).mp (e.trans e'.symm))

/-- **C113** in a mesh on one rank in which each face has one or two cells, with boundary ghosts each face has two, which see it
from opposite sides (2D) -/
theorem two_cells2 (j : JMesh) (hf : j.Ready2) (hr : j.m.Cells2) (h0 : j.Fresh2)
    (hs : ∀ f, (j.m.edge f).ptype ≠ .ghost ∧ (j.m.edge f).parBndry = false)
    (hc : ∀ f < j.m.ne, (∃ a, j.faceCells2 f .ALL = some [a]) ∨ ∃ a b, j.faceCells2 f .ALL = some [a, b]) (f : Nat)
    (hlt : f < j.m.ne) : ∃ a b d, a ≠ b ∧ j.withGhosts2.faceCells2 f .ALL = some [a, b] ∧
      Has (j.withGhosts2.cellFaces2 a) (f, d) ∧ Has (j.withGhosts2.cellFaces2 b) (f, -d) := by
  have hrdy : j.withGhosts2.Ready2 := ⟨hf.faces, by rw [withGhosts2_eq]; exact hf.flips⟩
  obtain ⟨fh, hfh⟩ := j.m.enum.at_some hlt
  obtain ⟨a, b, hab⟩ : ∃ a b, j.withGhosts2.faceCells2 f .ALL = some [a, b] := by
    by_cases ho : ∃ c, j.Outer2 f c
    · obtain ⟨c, ho⟩ := ho
      obtain ⟨fh', r, b, hfh', hrc, hob⟩ := (outer2_iff j hf h0 f c).mp ho
      obtain ⟨i, h1, _⟩ := ghost_of_outer2 j hf hr h0 f c fh' r b hfh' hrc hob
      rw [withGhosts2_eq]
      exact ⟨_, _, h1⟩
    · rw [other_faces2 j hf hr h0 f (fun c h => ho ⟨c, h⟩)]
      rcases hc f hlt with ⟨a, h⟩ | h
      · refine absurd ⟨a, ?_, ?_, h⟩ ho
        · exact ((ids_name_entities j.m j.bg).2.1.owned_iff f fh hfh).mpr (hs fh).1
        · intro h' _; exact (hs h').2
      · exact h
  have hne : a ≠ b := by
    have := (cells_listed_once j.withGhosts2 .ALL).2.1 f _ hab
    simpa using this
  obtain ⟨l, hl, d, hd⟩ := (faces_cells_agree2 j.withGhosts2 hrdy a f).mpr ⟨_, hab, by simp⟩
  obtain ⟨l', hl', d', hd'⟩ := (faces_cells_agree2 j.withGhosts2 hrdy b f).mpr ⟨_, hab, by simp⟩
  have := opposite_dirs2 j.withGhosts2 hrdy (cells_kept j.m hr).sides a b f d d' l l' hl hl' hd hd' hne
  subst this
  exact ⟨a, b, d, hne, hab, ⟨l, hl, hd⟩, ⟨l', hl', hd'⟩⟩

/-- **C113** is false for the nodes in 2D: a boundary ghost has one node only, though its face has two -/
theorem ghost_one_node2 (j : JMesh) (hf : j.Ready2) (he : ∀ e, (j.m.edge e).v0 ≠ (j.m.edge e).v1) (hr : j.m.Cells2) (h0 : j.Fresh2)
    (f c g : Nat) (ho : j.Outer2 f c) (hg : j.withGhosts2.faceCells2 f .ALL = some [c, g]) :
    ∃ n a b, j.withGhosts2.cellNodes2 g = some [n] ∧ j.withGhosts2.faceNodes2 f = some [a, b] ∧ a ≠ b := by
  rw [withGhosts2_eq] at hg ⊢
  obtain ⟨fh, r, b, hfh, hrc, hob⟩ := (outer2_iff j hf h0 f c).mp ho
  obtain ⟨i, h1, h2, h3⟩ := ghost_of_outer2 j hf hr h0 f c fh r b hfh hrc hob
  rw [hg] at h1
  have e : g = j.m.nf + i := by
    have := Option.some.inj h1
    simpa using this
  subst e
  obtain ⟨x, h2', h3'⟩ : ∃ x : Fin j.gh2.m.nf, (j.gh2.m.cmap j.gh2.bg).at (j.m.nf + i) = some x ∧
    j.gh2.m.face x = outside2 (fh, !b) := ⟨_, h2, h3⟩
  have hlt : f < j.faceflip.length := by rw [hf.flips]; exact j.m.enum.lt_of_at hfh
  have hne : j.m.vmap.id (j.m.edge fh).v0 - 1 ≠ j.m.vmap.id (j.m.edge fh).v1 - 1 := fun e => he fh (j.m.vnum.id_inj e)
  have hN : ∃ n, j.gh2.cellNodes2 (j.m.nf + i) = some [n] := by
    unfold JMesh.cellNodes2
    rw [h2', Option.map_some, h3']
    exact ⟨_, rfl⟩
  obtain ⟨n, hn⟩ := hN
  have hF : j.gh2.faceNodes2 f = j.faceNodes2 f := rfl
  rw [hF]
  unfold JMesh.faceNodes2
  rw [if_pos hf.faces, hfh, Option.bind_some, List.getElem?_eq_getElem hlt, Option.map_some]
  cases j.faceflip[f]
  · exact ⟨n, _, _, hn, rfl, hne⟩
  · exact ⟨n, _, _, hn, rfl, hne.symm⟩

abbrev sampleQuad : MMesh where
  nv := 4
  ne := 4
  nf := 1
  nr := 0
  vtx := fun i => ⟨.interior, i + 1⟩
  edge := ![⟨.interior, 1, 0, 1, false⟩, ⟨.interior, 2, 2, 1, true⟩, ⟨.interior, 3, 2, 3, false⟩, ⟨.interior, 4, 3, 0, false⟩]
  face := ![⟨.interior, 1, [(0, true), (1, false), (2, true), (3, true)], false, false⟩]
  region := fun r => r.elim0

abbrev sampleQuadJ : JMesh := ⟨sampleQuad, true, true, false, false, [false, true, false, false], [false, true, false, false]⟩

example : sampleQuadJ.Ready2 ∧ sampleQuadJ.Fresh2 ∧ sampleQuad.Cells2 ∧ sampleQuadJ.Outer2 2 0 ∧ (∀ c, ¬ sampleQuadJ.Outer2 1 c) ∧
    sampleQuadJ.withGhosts2.faceCells2 2 .ALL = some [0, 2] ∧ sampleQuadJ.withGhosts2.faceCells2 1 .ALL = some [0] ∧
    sampleQuadJ.withGhosts2.cellFaces2 2 = some [(2, -1)] ∧ sampleQuadJ.withGhosts2.cellNodes2 2 = some [3] ∧
    sampleQuadJ.faceNodes2 2 = some [2, 3] ∧
    sampleQuadJ.withGhosts2.m.cellIds2 true = ⟨[0], [], [1, 2, 3], [0, 1, 2, 3]⟩ := by
  refine ⟨⟨rfl, rfl⟩, ⟨rfl, by decide +kernel⟩, ⟨by decide +kernel, by unfold MMesh.OrientedCells; decide +kernel⟩,
    ⟨by decide +kernel, by decide +kernel, by decide +kernel⟩, ?_, by decide +kernel, by decide +kernel, by decide +kernel,
    by decide +kernel, by decide +kernel, by decide +kernel⟩
  rintro c ⟨_, h, _⟩
  exact absurd (h 1 (by decide +kernel)) (by decide +kernel)

end Jali.Mstk
