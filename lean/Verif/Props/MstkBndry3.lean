import Verif.Proof.MstkBndry3
import Verif.Props.MstkQueries
/-
C113: cells added outside the boundary of a 3D mesh.
-/
namespace Jali.Mstk

/-- the mesh with boundary ghosts, by the lemmas of `Proof/MstkBndry3` -/
def JMesh.gh3 (j : JMesh) : JMesh := { j with m := j.m.withRegions j.m.added3, bg := true }

theorem withGhosts3_eq (j : JMesh) : j.withGhosts3 = j.gh3 := by
  unfold JMesh.withGhosts3 JMesh.gh3
  rw [boundaryGhosts3_eq]

theorem filter_passes_ALL {n : Nat} (L : List (Fin n)) (pt : Fin n → PType) : (L.filter fun r => passes .ALL (pt r)) = L := by
  rw [List.filter_eq_self]
  intro r _
  exact passes_ALL _

theorem faceCells3_ALL (j : JMesh) (hf : j.faces = true) (f : Nat) (fh : Fin j.m.nf) (hfh : j.m.fmap.at f = some fh) :
    j.faceCells3 f .ALL = some ((users Region.faces j.m.region fh).map fun r => (j.m.rmap j.bg).id r - 1) := by
  unfold JMesh.faceCells3
  rw [if_pos hf, hfh, Option.map_some, filter_passes_ALL]
  rfl

theorem outer3_iff (j : JMesh) (hf : j.Ready3) (h0 : j.Fresh3) (f c : Nat) :
    j.Outer3 f c ↔ ∃ fh r d, j.m.fmap.at f = some fh ∧ (j.m.rmap false).at c = some r ∧ j.m.OuterH3 fh r d := by
  have hn := (ids_name_entities j.m j.bg).2.2.1
  constructor
  · rintro ⟨ho, hp, h1⟩
    cases hfh : j.m.fmap.at f with
    | none => unfold JMesh.faceCells3 at h1; rw [if_pos hf.faces, hfh] at h1; cases h1
    | some fh =>
      rw [faceCells3_ALL j hf.faces f fh hfh] at h1
      obtain ⟨r, hr, e⟩ := List.map_eq_singleton_iff.mp (Option.some.inj h1)
      obtain ⟨⟨d, hd⟩, hu⟩ := (users_singleton _ _).mp hr
      refine ⟨fh, r, d, rfl, ?_, ⟨⟨(hn.owned_iff f fh hfh).mp ho, hp fh hfh⟩, hd, hu⟩⟩
      rw [← h0.noghosts]
      exact (j.m.rnum j.bg).at_iff.mpr e
  · rintro ⟨fh, r, d, hfh, hr, ⟨⟨h1, h2⟩, hd, hu⟩⟩
    refine ⟨(hn.owned_iff f fh hfh).mpr h1, ?_, ?_⟩
    · intro h e
      rw [hfh] at e
      rw [← Option.some.inj e]; exact h2
    · rw [faceCells3_ALL j hf.faces f fh hfh, (users_singleton _ _).mpr ⟨⟨d, hd⟩, hu⟩]
      rw [← h0.noghosts] at hr
      simp only [List.map_cons, List.map_nil]
      rw [(j.m.rnum j.bg).at_iff.mp hr]

theorem cellFaces_old3 (j : JMesh) (hr : j.m.Regions) (h0 : j.Fresh3) (c : Nat) (hc : c < j.m.nr) :
    j.gh3.cellFaces3 c = j.cellFaces3 c ∧ j.gh3.cellNodes3 c = j.cellNodes3 c ∧ j.gh3.cellEdges3 c = j.cellEdges3 c ∧
    j.gh3.cellType3 c = j.cellType3 c ∧ j.gh3.cellGid3 c = j.cellGid3 c := by
  obtain ⟨r, hrr⟩ := (j.m.rnum j.bg).at_some hc
  obtain ⟨r', e', hreg⟩ : ∃ r' : Fin j.gh3.m.nr, (j.gh3.m.rmap j.gh3.bg).at c = some r' ∧ j.gh3.m.region r' = j.m.region r := by
    refine ⟨(Fin.castAdd _ r : Fin (j.m.nr + j.m.added3.length)), ?_, extend_old _ _ r⟩
    have e := rmap_old j.m hr h0.unmarked c hc
    rw [← h0.noghosts, hrr] at e
    exact e
  refine ⟨?_, ?_, ?_, ?_, ?_⟩
  · unfold JMesh.cellFaces3
    rw [e', hrr, Option.bind_some, Option.bind_some, hreg]
    rfl
  · unfold JMesh.cellNodes3
    rw [e', hrr, Option.map_some, Option.map_some, hreg]
    rfl
  · unfold JMesh.cellEdges3
    rw [e', hrr, Option.map_some, Option.map_some, hreg]
    rfl
  · unfold JMesh.cellType3
    rw [e', hrr, Option.map_some, Option.map_some, hreg]
    rfl
  · unfold JMesh.cellGid3
    rw [e', hrr, Option.map_some, Option.map_some, hreg, (j.gh3.m.rnum j.gh3.bg).id_of_at e', (j.m.rnum j.bg).id_of_at hrr]
    rfl

/-- **C113** adding boundary ghosts changes nothing about the cells that were there: the same ids, owned and ghost, with the same
faces, nodes, edges, types and global ids (3D) -/
theorem cells_unchanged3 (j : JMesh) (hr : j.m.Regions) (h0 : j.Fresh3) :
    (j.withGhosts3.m.cellIds3 true).owned = (j.m.cellIds3 false).owned ∧
    (j.withGhosts3.m.cellIds3 true).ghost = (j.m.cellIds3 false).ghost ∧
    ∀ c, c < j.m.nr → j.withGhosts3.cellFaces3 c = j.cellFaces3 c ∧ j.withGhosts3.cellNodes3 c = j.cellNodes3 c ∧
      j.withGhosts3.cellEdges3 c = j.cellEdges3 c ∧ j.withGhosts3.cellType3 c = j.cellType3 c ∧
      j.withGhosts3.cellGid3 c = j.cellGid3 c := by
  rw [withGhosts3_eq]
  have h := cellIds3_old j.m hr h0.unmarked
  exact ⟨h.1, h.2.1, fun c hc => cellFaces_old3 j hr h0 c hc⟩

/-- the boundary ghost of a face -/
theorem ghost_of_outer3 (j : JMesh) (hf : j.Ready3) (hr : j.m.Regions) (h0 : j.Fresh3) (f c : Nat) (fh : Fin j.m.nf)
    (r : Fin j.m.nr) (d : Bool) (hfh : j.m.fmap.at f = some fh) (hrc : (j.m.rmap false).at c = some r)
    (ho : j.m.OuterH3 fh r d) : ∃ i : Fin j.m.added3.length,
    j.gh3.faceCells3 f .ALL = some [c, j.m.nr + i] ∧
    (j.gh3.m.rmap true).at (j.m.nr + i) = some (Fin.natAdd _ i) ∧
    j.gh3.m.region (Fin.natAdd _ i : Fin (j.m.nr + j.m.added3.length)) = outside3 (fh, !d) := by
  obtain ⟨i, hi, hu⟩ := users_outer j.m.region Region.faces j.m.Ok3 outside3 hr.noface (fun _ => rfl) ho
  refine ⟨i, ?_, rmap_new j.m hr h0.unmarked i, ?_⟩
  · have := faceCells3_ALL j.gh3 hf.faces f fh hfh
    rw [this]
    have hu' : users Region.faces j.gh3.m.region fh = [Fin.castAdd _ r, Fin.natAdd _ i] := hu
    rw [hu']
    have e1 := rmap_old_id j.m hr h0.unmarked r
    have e2 := rmap_new_id j.m hr h0.unmarked i
    have e3 := (j.m.rnum false).at_iff.mp hrc
    show some [((j.m.withRegions j.m.added3).rmap true).id (Fin.castAdd _ r : Fin (j.m.nr + j.m.added3.length)) - 1,
      ((j.m.withRegions j.m.added3).rmap true).id (Fin.natAdd _ i : Fin (j.m.nr + j.m.added3.length)) - 1] = _
    rw [e1, e2, e3]
  · have := extend_new j.m.region j.m.added3 i
    rw [← hi]
    exact this

/-- **C113** each outer face gets one cell of its own (3D): it has the face only, sees it from the other side; the face then has two cells -/
theorem outer_face_ghost3 (j : JMesh) (hf : j.Ready3) (hr : j.m.Regions) (h0 : j.Fresh3) (f c : Nat) (d : Int)
    (ho : j.Outer3 f c) (hd : Has (j.cellFaces3 c) (f, d)) :
    ∃ g, g ∈ (j.withGhosts3.m.cellIds3 true).bndry ∧ j.withGhosts3.faceCells3 f .ALL = some [c, g] ∧
      j.withGhosts3.cellFaces3 g = some [(f, -d)] := by
  rw [withGhosts3_eq]
  obtain ⟨fh, r, b, hfh, hrc, hob⟩ := (outer3_iff j hf h0 f c).mp ho
  obtain ⟨i, h1, h2, h3⟩ := ghost_of_outer3 j hf hr h0 f c fh r b hfh hrc hob
  refine ⟨j.m.nr + i, ?_, h1, ?_⟩
  · have := (cellIds3_old j.m hr h0.unmarked).2.2
    show j.m.nr + i ∈ ((j.m.withRegions j.m.added3).cellIds3 true).bndry
    rw [this]
    simp
  · have hrdy : j.gh3.Ready3 := ⟨hf.faces, hf.flips⟩
    have := cellFaces3_eq hrdy h2
    rw [this, h3]
    obtain ⟨l, hl, hm⟩ := hd
    rw [← h0.noghosts] at hrc
    rw [cellFaces3_eq hf hrc] at hl
    rw [← Option.some.inj hl, List.mem_map] at hm
    obtain ⟨⟨fh', b'⟩, hp, e⟩ := hm
    simp only [Prod.mk.injEq] at e
    have ef : fh' = fh := j.m.fnum.id_inj (e.1.trans (j.m.fnum.at_iff.mp hfh).symm)
    subst ef
    have eb : b' = b := by
      rw [← dirOf_eq Region.faces (hr.noface r) hp, ← dirOf_eq Region.faces (hr.noface r) hob.2.1]
    subst eb
    rw [← e.2, ← flipDir_ne _ _ (show b' ≠ !b' by cases b' <;> decide)]
    show some [(j.m.fmap.id fh' - 1, flipDir j.faceflip (j.m.fmap.id fh' - 1) (!b'))] = _
    rw [e.1]

/-- **C113** the other faces have the cells they had (3D) -/
theorem other_faces3 (j : JMesh) (hf : j.Ready3) (hr : j.m.Regions) (h0 : j.Fresh3) (f : Nat) (ho : ∀ c, ¬ j.Outer3 f c) :
    j.withGhosts3.faceCells3 f .ALL = j.faceCells3 f .ALL := by
  rw [withGhosts3_eq]
  cases hfh : j.m.fmap.at f with
  | none =>
    have e : j.gh3.m.fmap.at f = none := hfh
    unfold JMesh.faceCells3
    rw [e, hfh]
    rfl
  | some fh =>
    have hno : ¬ ∃ r d, OuterG j.m.region Region.faces j.m.Ok3 fh r d := by
      rintro ⟨r, d, h⟩
      exact ho _ ((outer3_iff j hf h0 f _).mpr ⟨fh, r, d, hfh, (j.m.rnum false).at_id r, h⟩)
    have hu := users_inner j.m.region Region.faces j.m.Ok3 outside3 hr.noface (fun _ => rfl) hno
    have hu' : users Region.faces j.gh3.m.region fh = (users Region.faces j.m.region fh).map (Fin.castAdd _) := hu
    have h1 : j.gh3.faceCells3 f .ALL = some ((users Region.faces j.gh3.m.region fh).map
      fun r => (j.gh3.m.rmap true).id r - 1) := faceCells3_ALL j.gh3 hf.faces f fh hfh
    rw [h1, hu', faceCells3_ALL j hf.faces f fh hfh, h0.noghosts]
    show some (((users Region.faces j.m.region fh).map (Fin.castAdd _)).map fun r : Fin (j.m.nr + j.m.added3.length) =>
      ((j.m.withRegions j.m.added3).rmap true).id r - 1) = _
    rw [List.map_map]
    congr 1
    apply List.map_congr_left
    intro r _
    exact rmap_old_id j.m hr h0.unmarked r

/-- **C113** each boundary ghost is the cell outside one outer face (3D); with `outer_face_ghost3`, outer faces and boundary
ghosts are one to one -/
theorem ghosts_outside3 (j : JMesh) (hf : j.Ready3) (hr : j.m.Regions) (h0 : j.Fresh3) (g : Nat)
    (hg : g ∈ (j.withGhosts3.m.cellIds3 true).bndry) :
    ∃ f c, j.Outer3 f c ∧ j.withGhosts3.faceCells3 f .ALL = some [c, g] := by
  rw [withGhosts3_eq] at hg ⊢
  have hg' : g ∈ ((j.m.withRegions j.m.added3).cellIds3 true).bndry := hg
  rw [(cellIds3_old j.m hr h0.unmarked).2.2, List.mem_map] at hg'
  obtain ⟨i, hi, rfl⟩ := hg'
  rw [List.mem_range] at hi
  obtain ⟨fh, r, d, ho, e⟩ := (added3_mem j.m hr).mp (List.getElem_mem hi)
  obtain ⟨i', h1, h2, h3⟩ := ghost_of_outer3 j hf hr h0 (j.m.fmap.id fh - 1) _ fh r d (j.m.fnum.at_id fh)
    ((j.m.rnum false).at_id r) ho
  refine ⟨j.m.fmap.id fh - 1, _, (outer3_iff j hf h0 _ _).mpr ⟨fh, r, d, j.m.fnum.at_id fh, (j.m.rnum false).at_id r, ho⟩, ?_⟩
  rw [h1]
  have : (i' : Nat) = i := by
    have hx : j.m.added3[i'] = outside3 (fh, !d) := (extend_new j.m.region j.m.added3 i').symm.trans h3
    exact ((nodup_ghostsFor j.m.region Region.faces j.m.Ok3 outside3 hr.noface (fun _ => rfl)).getElem_inj_iff
      (hi := i'.isLt) (hj := hi)).mp (hx.trans e.symm)
  rw [this]

/-- **C113** with boundary ghosts the mesh still is one: a face has at most one cell on each side (3D) -/
theorem regions_kept (m : MMesh) (hr : m.Regions) : m.boundaryGhosts3.Regions := by
  rw [boundaryGhosts3_eq]
  have hold : ∀ x : Fin (m.nr + m.added3.length), (∃ r, x = Fin.castAdd _ r) ∨ ∃ i, x = Fin.natAdd _ i := by
    intro x
    exact Fin.addCases (fun r => .inl ⟨r, rfl⟩) (fun i => .inr ⟨i, rfl⟩) x
  have hnew : ∀ i : Fin m.added3.length, ∃ f r d, m.OuterH3 f r d ∧ m.added3[i] = outside3 (f, !d) := fun i =>
    (added3_mem m hr).mp (List.getElem_mem i.isLt)
  constructor
  · intro x
    show ((extend m.region m.added3 x).faces.map Prod.fst).Nodup
    rcases hold x with ⟨r, rfl⟩ | ⟨i, rfl⟩
    · rw [extend_old]; exact hr.noface r
    · rw [extend_new]
      obtain ⟨f, r, d, _, e⟩ := hnew i
      rw [e]; simp [outside3]
  · intro f d x y hx hy
    have hx' : (f, d) ∈ (extend m.region m.added3 x).faces := hx
    have hy' : (f, d) ∈ (extend m.region m.added3 y).faces := hy
    show (x : Fin (m.nr + m.added3.length)) = y
    rcases hold x with ⟨r, rfl⟩ | ⟨i, rfl⟩ <;> rcases hold y with ⟨r', rfl⟩ | ⟨i', rfl⟩
    · rw [extend_old] at hx' hy'
      rw [hr.sides f d r r' hx' hy']
    · rw [extend_old] at hx'
      rw [extend_new] at hy'
      obtain ⟨g, q, b, ho, e⟩ := hnew i'
      rw [e] at hy'
      obtain ⟨rfl, rfl⟩ := Prod.mk.inj (List.mem_singleton.mp hy')
      have hq := ho.2.2 r _ hx'
      subst hq
      have h1 := dirOf_eq Region.faces (hr.noface r) hx'
      have h2 := dirOf_eq Region.faces (hr.noface r) ho.2.1
      rw [h1] at h2
      cases b <;> simp at h2
    · rw [extend_old] at hy'
      rw [extend_new] at hx'
      obtain ⟨g, q, b, ho, e⟩ := hnew i
      rw [e] at hx'
      obtain ⟨rfl, rfl⟩ := Prod.mk.inj (List.mem_singleton.mp hx')
      have hq := ho.2.2 r' _ hy'
      subst hq
      have h1 := dirOf_eq Region.faces (hr.noface r') hy'
      have h2 := dirOf_eq Region.faces (hr.noface r') ho.2.1
      rw [h1] at h2
      cases b <;> simp at h2
    · rw [extend_new] at hx' hy'
      obtain ⟨g, q, b, ho, e⟩ := hnew i
      obtain ⟨g', q', b', ho', e'⟩ := hnew i'
      rw [e] at hx'
      rw [e'] at hy'
      obtain ⟨rfl, e1⟩ := Prod.mk.inj (List.mem_singleton.mp hx')
      obtain ⟨rfl, e2⟩ := Prod.mk.inj (List.mem_singleton.mp hy')
      obtain ⟨rfl, rfl⟩ := outerG_unique m.region Region.faces m.Ok3 hr.noface ho ho'
      congr 1
      exact Fin.ext (((nodup_ghostsFor m.region Region.faces m.Ok3 outside3 hr.noface (fun _ => rfl)).getElem_inj_iff
        (hi := i.isLt) (hj := i'.isLt)).mp (e.trans e'.symm))

/-- **C113** in a mesh on one rank in which each face has one or two cells, with boundary ghosts each face has two, which see it
from opposite sides (3D) -/
theorem two_cells3 (j : JMesh) (hf : j.Ready3) (hr : j.m.Regions) (h0 : j.Fresh3)
    (hs : ∀ f, (j.m.face f).ptype ≠ .ghost ∧ (j.m.face f).parBndry = false)
    (hc : ∀ f < j.m.nf, (∃ a, j.faceCells3 f .ALL = some [a]) ∨ ∃ a b, j.faceCells3 f .ALL = some [a, b]) (f : Nat)
    (hlt : f < j.m.nf) : ∃ a b d, a ≠ b ∧ j.withGhosts3.faceCells3 f .ALL = some [a, b] ∧
      Has (j.withGhosts3.cellFaces3 a) (f, d) ∧ Has (j.withGhosts3.cellFaces3 b) (f, -d) := by
  have hrdy : j.withGhosts3.Ready3 := ⟨hf.faces, by rw [withGhosts3_eq]; exact hf.flips⟩
  obtain ⟨fh, hfh⟩ := j.m.fnum.at_some hlt
  obtain ⟨a, b, hab⟩ : ∃ a b, j.withGhosts3.faceCells3 f .ALL = some [a, b] := by
    by_cases ho : ∃ c, j.Outer3 f c
    · obtain ⟨c, ho⟩ := ho
      obtain ⟨fh', r, b, hfh', hrc, hob⟩ := (outer3_iff j hf h0 f c).mp ho
      obtain ⟨i, h1, _⟩ := ghost_of_outer3 j hf hr h0 f c fh' r b hfh' hrc hob
      rw [withGhosts3_eq]
      exact ⟨_, _, h1⟩
    · rw [other_faces3 j hf hr h0 f (fun c h => ho ⟨c, h⟩)]
      rcases hc f hlt with ⟨a, h⟩ | h
      · refine absurd ⟨a, ?_, ?_, h⟩ ho
        · exact ((ids_name_entities j.m j.bg).2.2.1.owned_iff f fh hfh).mpr (hs fh).1
        · intro h' _; exact (hs h').2
      · exact h
  have hne : a ≠ b := by
    have := (cells_listed_once j.withGhosts3 .ALL).1 f _ hab
    simpa using this
  obtain ⟨l, hl, d, hd⟩ := (faces_cells_agree3 j.withGhosts3 hrdy a f).mpr ⟨_, hab, by simp⟩
  obtain ⟨l', hl', d', hd'⟩ := (faces_cells_agree3 j.withGhosts3 hrdy b f).mpr ⟨_, hab, by simp⟩
  have := opposite_dirs3 j.withGhosts3 hrdy (regions_kept j.m hr) a b f d d' l l' hl hl' hd hd' hne
  subst this
  exact ⟨a, b, d, hne, hab, ⟨l, hl, hd⟩, ⟨l', hl', hd'⟩⟩

/-- **C113** a boundary ghost has the nodes of its face (3D) -/
theorem ghost_nodes3 (j : JMesh) (hf : j.Ready3) (hp : j.m.Polygons) (hr : j.m.Regions) (h0 : j.Fresh3) (f c g n : Nat)
    (ho : j.Outer3 f c) (hg : j.withGhosts3.faceCells3 f .ALL = some [c, g]) :
    Has (j.withGhosts3.cellNodes3 g) n ↔ Has (j.faceNodes3 f) n := by
  rw [withGhosts3_eq] at hg ⊢
  obtain ⟨fh, r, b, hfh, hrc, hob⟩ := (outer3_iff j hf h0 f c).mp ho
  obtain ⟨i, h1, h2, h3⟩ := ghost_of_outer3 j hf hr h0 f c fh r b hfh hrc hob
  rw [hg] at h1
  have e : g = j.m.nr + i := by
    have := Option.some.inj h1
    simpa using this
  subst e
  rw [has_cellNodes3, has_faceNodes3 hf hp]
  have hv : ∀ v : Fin j.m.nv, v ∈ j.gh3.m.mrVertices (outside3 (fh, !b)) ↔ v ∈ j.m.mfVertices (j.m.face fh) true := by
    intro v
    refine List.mem_dedup.trans ?_
    show v ∈ List.flatMap (fun p : Fin j.m.nf × Bool => j.m.mfVertices (j.m.face p.1) true) [(fh, !b)] ↔ _
    simp
  constructor
  · rintro ⟨r', v, hr', hv', hm⟩
    have h2' : (j.gh3.m.rmap j.gh3.bg).at (j.m.nr + i) = some (Fin.natAdd _ i : Fin (j.m.nr + j.m.added3.length)) := h2
    rw [h2'] at hr'
    rw [← Option.some.inj hr', h3] at hm
    exact ⟨fh, v, hfh, hv', (hv v).mp hm⟩
  · rintro ⟨fh', v, hf', hv', hm⟩
    rw [hfh] at hf'
    rw [← Option.some.inj hf'] at hm
    refine ⟨_, v, h2, hv', ?_⟩
    rw [h3]
    exact (hv v).mpr hm

/-- a tetrahedron; face 3 is on the boundary between two ranks -/
abbrev sampleTet : MMesh where
  nv := 4
  ne := 6
  nf := 4
  nr := 1
  vtx := fun i => ⟨.interior, i + 1⟩
  edge := ![⟨.interior, 1, 0, 1, false⟩, ⟨.interior, 2, 1, 2, false⟩, ⟨.interior, 3, 2, 0, false⟩, ⟨.interior, 4, 0, 3, false⟩,
    ⟨.interior, 5, 1, 3, false⟩, ⟨.interior, 6, 2, 3, false⟩]
  face := ![⟨.interior, 1, [(0, true), (1, true), (2, true)], false, false⟩,
    ⟨.interior, 2, [(0, true), (4, true), (3, false)], false, false⟩,
    ⟨.interior, 3, [(1, true), (5, true), (4, false)], false, false⟩,
    ⟨.interior, 4, [(2, true), (3, true), (5, false)], true, false⟩]
  region := ![⟨.interior, 1, [(0, false), (1, true), (2, true), (3, true)], false⟩]

abbrev sampleTetJ : JMesh := ⟨sampleTet, true, true, false, false, [false, true, false, false], [false, false, false, false, false, false]⟩

example : sampleTetJ.Ready3 ∧ sampleTetJ.Fresh3 ∧ sampleTet.Regions ∧ sampleTet.Polygons := by
  refine ⟨⟨rfl, rfl⟩, ⟨rfl, by decide +kernel⟩, ⟨by decide +kernel, by decide +kernel⟩, ⟨by decide +kernel, by decide +kernel, by decide +kernel, by decide +kernel⟩⟩

example : sampleTetJ.Outer3 1 0 ∧ (∀ c, ¬ sampleTetJ.Outer3 3 c) := by
  refine ⟨⟨by decide +kernel, by decide +kernel, by decide +kernel⟩, ?_⟩
  rintro c ⟨_, h, _⟩
  exact absurd (h 3 (by decide +kernel)) (by decide +kernel)

example : (sampleTetJ.withGhosts3.m.cellIds3 true) = ⟨[0], [], [1, 2, 3], [0, 1, 2, 3]⟩ ∧
    sampleTetJ.withGhosts3.faceCells3 1 .ALL = some [0, 2] ∧ sampleTetJ.withGhosts3.faceCells3 3 .ALL = some [0] ∧
    sampleTetJ.cellFaces3 0 = some [(0, -1), (1, -1), (2, 1), (3, 1)] ∧ sampleTetJ.withGhosts3.cellFaces3 2 = some [(1, 1)] := by
  refine ⟨?_, ?_, ?_, ?_, ?_⟩ <;> decide +kernel

/-- the tetrahedron alone -/
abbrev sampleTet1 : JMesh :=
  { sampleTetJ with m := { sampleTet with face := fun f => { sampleTet.face f with parBndry := false } } }

example : (∀ f, (sampleTet1.m.face f).ptype ≠ .ghost ∧ (sampleTet1.m.face f).parBndry = false) ∧
    (∀ f < 4, (∃ a, sampleTet1.faceCells3 f .ALL = some [a]) ∨ ∃ a b, sampleTet1.faceCells3 f .ALL = some [a, b]) := by
  refine ⟨by decide +kernel, fun f hf => .inl ⟨0, ?_⟩⟩
  revert f
  decide +kernel

end Jali.Mstk
