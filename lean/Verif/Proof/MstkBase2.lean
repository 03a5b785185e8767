import Verif.Proof.MstkBase
/-
An MSTK mesh gives the base class a valid mesh.
-/
namespace Jali.Mstk
open Jali.Sides Jali.Sides.Spec

theorem numbered_of {L : IdLists} {n : Nat} (h : Consecutive L n) :
    L.owned ++ L.ghost ++ L.bndry = List.range n ∧ Types.Numbered L.owned L.ghost L.bndry := by
  have e : L.owned ++ L.ghost ++ L.bndry = List.range n := h.1
  exact ⟨e, by unfold Types.Numbered; rw [e]; simp⟩

theorem numbered_two_of {L : IdLists} {n : Nat} (h : Consecutive L n) (hb : L.bndry = []) :
    L.owned.length + L.ghost.length = n ∧ Types.Numbered L.owned L.ghost [] := by
  obtain ⟨e, hn⟩ := numbered_of h
  rw [hb] at e hn
  refine ⟨?_, hn⟩
  have := congrArg List.length e
  simpa using this

theorem flipDir_unit (fl : List Bool) (i : Nat) (b : Bool) : flipDir fl i b = 1 ∨ flipDir fl i b = -1 := by
  unfold flipDir dirInt
  cases b <;> split <;> simp

/-- a vertex is a start of an edge of a polygon iff it is an end of an edge of it -/
theorem ends_of_polygon {m : MMesh} (hp : m.Polygons) (f : Fin m.nf) (v : Fin m.nv) :
    v ∈ (m.face f).edges.map m.start ↔ ∃ p ∈ (m.face f).edges, v = (m.edge p.1).v0 ∨ v = (m.edge p.1).v1 := by
  constructor
  · rw [List.mem_map]
    rintro ⟨p, hpm, rfl⟩
    refine ⟨p, hpm, ?_⟩
    unfold MMesh.start
    split
    · exact .inl rfl
    · exact .inr rfl
  · rintro ⟨p, hpm, hv⟩
    have h1 : m.start p ∈ (m.face f).edges.map m.start := List.mem_map_of_mem hpm
    have h2 : m.finish p ∈ (m.face f).edges.map m.start := by
      rw [← List.mem_rotate (n := 1), ← hp.closed f]
      exact List.mem_map_of_mem hpm
    unfold MMesh.start at h1
    unfold MMesh.finish at h2
    cases hb : p.2 <;> rw [hb] at h1 h2 <;> rcases hv with rfl | rfl <;> first | exact h1 | exact h2

theorem mfVertices_start (m : MMesh) (f : Face m.ne) : m.mfVertices f true = f.edges.map m.start := by
  unfold MMesh.mfVertices MMesh.start
  rfl

section Three
variable {j : JMesh} {r : MeshCache.Request}

theorem cells3_range : (j.base3 r).cells.all = List.range j.m.nr :=
  (numbered_of (ids_consecutive j.m j.bg).2.2.2.1).1

theorem hasFace3 (h : j.Ready3) (c f : Nat) (d : Int) : HasFace (Types.shape (j.base3 r)) c f d ↔
    ∃ rg p, (j.m.rmap j.bg).at c = some rg ∧ p ∈ (j.m.region rg).faces ∧ j.m.fmap.id p.1 - 1 = f ∧
      flipDir j.faceflip (j.m.fmap.id p.1 - 1) p.2 = d := by
  unfold HasFace
  show c ∈ (j.base3 r).cells.all ∧ (f, d) ∈ (j.cellGetFaces3 c).getD [] ↔ _
  rw [cells3_range, List.mem_range]
  constructor
  · rintro ⟨hc, hf⟩
    obtain ⟨rg, hr⟩ := (j.m.rnum j.bg).at_some hc
    rw [(public3 h).1 c hc, cellFaces3_eq h hr, Option.getD_some, List.mem_map] at hf
    obtain ⟨p, hp, e⟩ := hf
    exact ⟨rg, p, hr, hp, congrArg Prod.fst e, congrArg Prod.snd e⟩
  · rintro ⟨rg, p, hr, hp, rfl, rfl⟩
    have hc := (j.m.rnum j.bg).lt_of_at hr
    refine ⟨hc, ?_⟩
    rw [(public3 h).1 c hc, cellFaces3_eq h hr, Option.getD_some, List.mem_map]
    exact ⟨p, hp, rfl⟩

theorem faceEdges3_of (h : j.Ready3) (he : j.ReadyE) (fh : Fin j.m.nf) :
    (Types.shape (j.base3 r)).faceEdges (j.m.fmap.id fh - 1) =
      (j.m.face fh).edges.map fun p => (j.m.emap.id p.1 - 1, flipDir j.edgeflip (j.m.emap.id p.1 - 1) p.2) := by
  show (j.faceGetEdges3 _).getD [] = _
  rw [((public3 h).2 he).1 _ (j.m.fnum.id_lt fh), faceEdges3_at h he (j.m.fnum.at_id fh), Option.getD_some]

theorem edgeNodes_of (he : j.ReadyE) (eh : Fin j.m.ne) (n : Nat) :
    ((j.edgeGetNodes (j.m.emap.id eh - 1)).getD (0, 0)).1 = n ∨ ((j.edgeGetNodes (j.m.emap.id eh - 1)).getD (0, 0)).2 = n ↔
      n = j.m.vmap.id (j.m.edge eh).v0 - 1 ∨ n = j.m.vmap.id (j.m.edge eh).v1 - 1 := by
  rw [publicE he _ (j.m.enum.id_lt eh)]
  obtain ⟨a, b, hab, h⟩ := edgeNodes_at he (j.m.enum.at_id eh)
  rw [hab]
  show a = n ∨ b = n ↔ _
  rcases h with ⟨rfl, rfl⟩ | ⟨rfl, rfl⟩ <;> constructor <;> rintro (h | h) <;> simp [h]

theorem shape3_ok (h : j.Ready3) (he : j.ReadyE) (hp : j.m.Polygons) (hr : j.m.Regions) (hre : r.edges = true) :
    Valid (Types.shape (j.base3 r)) ∧ Oriented (Types.shape (j.base3 r)) ∧ NodesOk (Types.shape (j.base3 r)) := by
  have hcell : ∀ c ∈ (Types.shape (j.base3 r)).cells, ∃ rg, (j.m.rmap j.bg).at c = some rg := by
    intro c hc
    have : c ∈ (j.base3 r).cells.all := hc
    rw [cells3_range, List.mem_range] at this
    exact (j.m.rnum j.bg).at_some this
  have ncells : (Types.shape (j.base3 r)).ncells = j.m.nr := by
    have := congrArg List.length (numbered_of (ids_consecutive j.m j.bg).2.2.2.1).1
    simpa [Types.shape, JMesh.base3, Nat.add_assoc] using this
  have nedges : (Types.shape (j.base3 r)).nedges = j.m.ne := by
    have := (numbered_two_of (ids_consecutive j.m j.bg).2.1 rfl).1
    simpa [Types.shape, JMesh.base3, hre] using this
  have nnodes : (Types.shape (j.base3 r)).nnodes = j.m.nv := (numbered_two_of (ids_consecutive j.m j.bg).1 rfl).1
  refine ⟨⟨?_, ?_, ?_, ?_, ?_, ?_, ?_⟩, ⟨?_, ?_, ?_⟩, ⟨?_, ?_, ?_⟩⟩
  · show ((j.base3 r).cells.all).Nodup
    rw [cells3_range]; exact List.nodup_range
  · intro c hc
    have : c ∈ (j.base3 r).cells.all := hc
    rw [cells3_range, List.mem_range] at this
    rw [ncells]; exact this
  · intro c _; exact .inl rfl
  · intro c hc
    obtain ⟨rg, hrg⟩ := hcell c hc
    show (((j.cellGetFaces3 c).getD []).map Prod.fst).Nodup
    rw [(public3 h).1 c ((j.m.rnum j.bg).lt_of_at hrg), cellFaces3_eq h hrg, Option.getD_some, List.map_map]
    have := nodup_map_id j.m.fnum (hr.noface rg)
    rwa [List.map_map] at this
  · intro c f d hf
    obtain ⟨rg, p, _, _, rfl, _⟩ := (hasFace3 h c f d).mp hf
    rw [faceEdges3_of h he, List.map_map]
    have := nodup_map_id j.m.enum (hp.noedge p.1)
    rwa [List.map_map] at this
  · rintro c f e ⟨⟨d, hf⟩, ed, hed⟩
    obtain ⟨rg, p, _, _, rfl, _⟩ := (hasFace3 h c f d).mp hf
    rw [faceEdges3_of h he, List.mem_map] at hed
    obtain ⟨q, _, e⟩ := hed
    obtain ⟨rfl, rfl⟩ := Prod.mk.inj e
    rw [nedges]
    exact j.m.enum.id_lt q.1
  · intro f c1 d1 c2 d2 c3 d3 h1 h2 h3
    obtain ⟨g1, p1, a1, m1, e1, _⟩ := (hasFace3 h c1 f d1).mp h1
    obtain ⟨g2, p2, a2, m2, e2, _⟩ := (hasFace3 h c2 f d2).mp h2
    obtain ⟨g3, p3, a3, m3, e3, _⟩ := (hasFace3 h c3 f d3).mp h3
    have f2 : p2.1 = p1.1 := j.m.fnum.id_inj (e2.trans e1.symm)
    have f3 : p3.1 = p1.1 := j.m.fnum.id_inj (e3.trans e1.symm)
    obtain ⟨q1, b1⟩ := p1
    obtain ⟨q2, b2⟩ := p2
    obtain ⟨q3, b3⟩ := p3
    simp only at f2 f3
    subst f2; subst f3
    have key : ∀ g g' c c' b, (j.m.rmap j.bg).at c = some g → (j.m.rmap j.bg).at c' = some g' → (q3, b) ∈ (j.m.region g).faces →
        (q3, b) ∈ (j.m.region g').faces → c = c' := by
      intro g g' c c' b a a' x y
      have := hr.sides _ _ _ _ x y
      subst this
      rw [← (j.m.rnum j.bg).at_iff.mp a, ← (j.m.rnum j.bg).at_iff.mp a']
    by_cases b12 : b1 = b2
    · subst b12; exact .inl (key _ _ _ _ _ a1 a2 m1 m2)
    · by_cases b13 : b1 = b3
      · subst b13; exact .inr (.inl (key _ _ _ _ _ a1 a3 m1 m3))
      · have : b2 = b3 := by cases b1 <;> cases b2 <;> cases b3 <;> simp_all
        subst this; exact .inr (.inr (key _ _ _ _ _ a2 a3 m2 m3))
  · intro c f d hf
    obtain ⟨rg, p, _, _, _, rfl⟩ := (hasFace3 h c f d).mp hf
    exact flipDir_unit _ _ _
  · intro c f d e ed hf hed
    obtain ⟨rg, p, _, _, rfl, _⟩ := (hasFace3 h c f d).mp hf
    rw [faceEdges3_of h he, List.mem_map] at hed
    obtain ⟨q, _, e⟩ := hed
    obtain ⟨rfl, rfl⟩ := Prod.mk.inj e
    exact flipDir_unit _ _ _
  · intro f c1 d1 c2 d2 h1 h2 hne
    obtain ⟨g1, p1, a1, m1, e1, s1⟩ := (hasFace3 h c1 f d1).mp h1
    obtain ⟨g2, p2, a2, m2, e2, s2⟩ := (hasFace3 h c2 f d2).mp h2
    refine opposite_dirs3 j h hr c1 c2 f d1 d2 _ _ (cellFaces3_eq h a1) (cellFaces3_eq h a2) ?_ ?_ hne
    · exact List.mem_map.mpr ⟨p1, m1, by rw [s1, e1]⟩
    · exact List.mem_map.mpr ⟨p2, m2, by rw [s2, e2]⟩
  · intro c hc
    obtain ⟨rg, hrg⟩ := hcell c hc
    show ((j.cellNodes3 c).getD []).Nodup
    unfold JMesh.cellNodes3
    rw [hrg]
    exact nodup_map_id j.m.vnum (List.nodup_dedup _)
  · intro c hc n hn
    obtain ⟨rg, hrg⟩ := hcell c hc
    have hn' : n ∈ (j.cellNodes3 c).getD [] := hn
    unfold JMesh.cellNodes3 at hn'
    rw [hrg, Option.map_some, Option.getD_some, List.mem_map] at hn'
    obtain ⟨v, _, rfl⟩ := hn'
    rw [nnodes]
    exact j.m.vnum.id_lt v
  · intro c hc n
    obtain ⟨rg, hrg⟩ := hcell c hc
    have : n ∈ (Types.shape (j.base3 r)).cellNodes c ↔ ∃ v ∈ j.m.mrVertices (j.m.region rg), j.m.vmap.id v - 1 = n := by
      show n ∈ (j.cellNodes3 c).getD [] ↔ _
      unfold JMesh.cellNodes3
      rw [hrg, Option.map_some, Option.getD_some, List.mem_map]
    rw [this]
    constructor
    · rintro ⟨v, hv, rfl⟩
      unfold MMesh.mrVertices at hv
      rw [List.mem_dedup, List.mem_flatMap] at hv
      obtain ⟨p, hpm, hv⟩ := hv
      rw [mfVertices_start, ends_of_polygon hp] at hv
      obtain ⟨q, hq, hv⟩ := hv
      refine ⟨j.m.fmap.id p.1 - 1, j.m.emap.id q.1 - 1, ⟨⟨_, (hasFace3 h c _ _).mpr ⟨rg, p, hrg, hpm, rfl, rfl⟩⟩,
        flipDir j.edgeflip (j.m.emap.id q.1 - 1) q.2, ?_⟩, ?_⟩
      · rw [faceEdges3_of h he]
        exact List.mem_map.mpr ⟨q, hq, rfl⟩
      · refine (edgeNodes_of he q.1 _).mpr ?_
        rcases hv with rfl | rfl
        · exact .inl rfl
        · exact .inr rfl
    · rintro ⟨f, e, ⟨⟨d, hf⟩, ed, hed⟩, hn⟩
      obtain ⟨rg', p, hrg', hpm, rfl, _⟩ := (hasFace3 h c f d).mp hf
      rw [hrg] at hrg'
      cases hrg'
      rw [faceEdges3_of h he, List.mem_map] at hed
      obtain ⟨q, hq, e'⟩ := hed
      have e1 : j.m.emap.id q.1 - 1 = e := congrArg Prod.fst e'
      subst e1
      have hn' := (edgeNodes_of he q.1 n).mp hn
      have mem : ∀ v, (v = (j.m.edge q.1).v0 ∨ v = (j.m.edge q.1).v1) → v ∈ j.m.mrVertices (j.m.region rg) := by
        intro v hv
        unfold MMesh.mrVertices
        rw [List.mem_dedup, List.mem_flatMap]
        refine ⟨p, hpm, ?_⟩
        rw [mfVertices_start, ends_of_polygon hp]
        exact ⟨q, hq, hv⟩
      rcases hn' with rfl | rfl
      · exact ⟨_, mem _ (.inl rfl), rfl⟩
      · exact ⟨_, mem _ (.inr rfl), rfl⟩

end Three

section Two
variable {j : JMesh} {r : MeshCache.Request}

theorem cells2_range : (j.base2 r).cells.all = List.range j.m.nf :=
  (numbered_of (ids_consecutive j.m j.bg).2.2.2.2).1

theorem hasFace2 (h : j.Ready2) (c f : Nat) (d : Int) : HasFace (Types.shape (j.base2 r)) c f d ↔
    ∃ g p, (j.m.cmap j.bg).at c = some g ∧ p ∈ (j.m.face g).edges ∧ j.m.emap.id p.1 - 1 = f ∧
      flipDir j.faceflip (j.m.emap.id p.1 - 1) p.2 = d := by
  unfold HasFace
  show c ∈ (j.base2 r).cells.all ∧ (f, d) ∈ (j.cellGetFaces2 c).getD [] ↔ _
  rw [cells2_range, List.mem_range]
  constructor
  · rintro ⟨hc, hf⟩
    obtain ⟨g, hr⟩ := (j.m.cnum j.bg).at_some hc
    rw [(public2 h).1 c hc, cellFaces2_eq h hr, Option.getD_some, List.mem_map] at hf
    obtain ⟨p, hp, e⟩ := hf
    exact ⟨g, p, hr, hp, congrArg Prod.fst e, congrArg Prod.snd e⟩
  · rintro ⟨g, p, hr, hp, rfl, rfl⟩
    have hc := (j.m.cnum j.bg).lt_of_at hr
    refine ⟨hc, ?_⟩
    rw [(public2 h).1 c hc, cellFaces2_eq h hr, Option.getD_some, List.mem_map]
    exact ⟨p, hp, rfl⟩

theorem faceEdges2_of (h : j.Ready2) (he : j.ReadyE) (eh : Fin j.m.ne) :
    (Types.shape (j.base2 r)).faceEdges (j.m.emap.id eh - 1) = [(j.m.emap.id eh - 1, 1)] := by
  show (j.faceGetEdges2 _).getD [] = _
  rw [((public2 h).2 he).1 _ (j.m.enum.id_lt eh), faceEdges2_at h he (j.m.enum.at_id eh), Option.getD_some]

theorem shape2_ok (h : j.Ready2) (he : j.ReadyE) (hp : j.m.Polygons) (hr : j.m.OrientedCells) (hre : r.edges = true) :
    Valid (Types.shape (j.base2 r)) ∧ Oriented (Types.shape (j.base2 r)) ∧ NodesOk (Types.shape (j.base2 r)) := by
  have hcell : ∀ c ∈ (Types.shape (j.base2 r)).cells, ∃ g, (j.m.cmap j.bg).at c = some g := by
    intro c hc
    have : c ∈ (j.base2 r).cells.all := hc
    rw [cells2_range, List.mem_range] at this
    exact (j.m.cnum j.bg).at_some this
  have ncells : (Types.shape (j.base2 r)).ncells = j.m.nf := by
    have := congrArg List.length (numbered_of (ids_consecutive j.m j.bg).2.2.2.2).1
    simpa [Types.shape, JMesh.base2, Nat.add_assoc] using this
  have nedges : (Types.shape (j.base2 r)).nedges = j.m.ne := by
    have := (numbered_two_of (ids_consecutive j.m j.bg).2.1 rfl).1
    simpa [Types.shape, JMesh.base2, hre] using this
  have nnodes : (Types.shape (j.base2 r)).nnodes = j.m.nv := (numbered_two_of (ids_consecutive j.m j.bg).1 rfl).1
  refine ⟨⟨?_, ?_, ?_, ?_, ?_, ?_, ?_⟩, ⟨?_, ?_, ?_⟩, ⟨?_, ?_, ?_⟩⟩
  · show ((j.base2 r).cells.all).Nodup
    rw [cells2_range]; exact List.nodup_range
  · intro c hc
    have : c ∈ (j.base2 r).cells.all := hc
    rw [cells2_range, List.mem_range] at this
    rw [ncells]; exact this
  · intro c _; exact .inl rfl
  · intro c hc
    obtain ⟨g, hg⟩ := hcell c hc
    show (((j.cellGetFaces2 c).getD []).map Prod.fst).Nodup
    rw [(public2 h).1 c ((j.m.cnum j.bg).lt_of_at hg), cellFaces2_eq h hg, Option.getD_some, List.map_map]
    have := nodup_map_id j.m.enum (hp.noedge g)
    rwa [List.map_map] at this
  · intro c f d hf
    obtain ⟨g, p, _, _, rfl, _⟩ := (hasFace2 h c f d).mp hf
    rw [faceEdges2_of h he]
    simp
  · rintro c f e ⟨⟨d, hf⟩, ed, hed⟩
    obtain ⟨g, p, _, _, rfl, _⟩ := (hasFace2 h c f d).mp hf
    rw [faceEdges2_of h he] at hed
    obtain ⟨rfl, rfl⟩ := Prod.mk.inj (List.mem_singleton.mp hed)
    rw [nedges]
    exact j.m.enum.id_lt p.1
  · intro f c1 d1 c2 d2 c3 d3 h1 h2 h3
    obtain ⟨g1, p1, a1, m1, e1, _⟩ := (hasFace2 h c1 f d1).mp h1
    obtain ⟨g2, p2, a2, m2, e2, _⟩ := (hasFace2 h c2 f d2).mp h2
    obtain ⟨g3, p3, a3, m3, e3, _⟩ := (hasFace2 h c3 f d3).mp h3
    have f2 : p2.1 = p1.1 := j.m.enum.id_inj (e2.trans e1.symm)
    have f3 : p3.1 = p1.1 := j.m.enum.id_inj (e3.trans e1.symm)
    obtain ⟨q1, b1⟩ := p1
    obtain ⟨q2, b2⟩ := p2
    obtain ⟨q3, b3⟩ := p3
    simp only at f2 f3
    subst f2; subst f3
    have key : ∀ g g' c c' b, (j.m.cmap j.bg).at c = some g → (j.m.cmap j.bg).at c' = some g' → (q3, b) ∈ (j.m.face g).edges →
        (q3, b) ∈ (j.m.face g').edges → c = c' := by
      intro g g' c c' b a a' x y
      have := hr _ _ _ _ x y
      subst this
      rw [← (j.m.cnum j.bg).at_iff.mp a, ← (j.m.cnum j.bg).at_iff.mp a']
    by_cases b12 : b1 = b2
    · subst b12; exact .inl (key _ _ _ _ _ a1 a2 m1 m2)
    · by_cases b13 : b1 = b3
      · subst b13; exact .inr (.inl (key _ _ _ _ _ a1 a3 m1 m3))
      · have : b2 = b3 := by cases b1 <;> cases b2 <;> cases b3 <;> simp_all
        subst this; exact .inr (.inr (key _ _ _ _ _ a2 a3 m2 m3))
  · intro c f d hf
    obtain ⟨g, p, _, _, _, rfl⟩ := (hasFace2 h c f d).mp hf
    exact flipDir_unit _ _ _
  · intro c f d e ed hf hed
    obtain ⟨g, p, _, _, rfl, _⟩ := (hasFace2 h c f d).mp hf
    rw [faceEdges2_of h he] at hed
    obtain ⟨rfl, rfl⟩ := Prod.mk.inj (List.mem_singleton.mp hed)
    exact .inl rfl
  · intro f c1 d1 c2 d2 h1 h2 hne
    obtain ⟨g1, p1, a1, m1, e1, s1⟩ := (hasFace2 h c1 f d1).mp h1
    obtain ⟨g2, p2, a2, m2, e2, s2⟩ := (hasFace2 h c2 f d2).mp h2
    refine opposite_dirs2 j h hr c1 c2 f d1 d2 _ _ (cellFaces2_eq h a1) (cellFaces2_eq h a2) ?_ ?_ hne
    · exact List.mem_map.mpr ⟨p1, m1, by rw [s1, e1]⟩
    · exact List.mem_map.mpr ⟨p2, m2, by rw [s2, e2]⟩
  · intro c hc
    obtain ⟨g, hg⟩ := hcell c hc
    show ((j.cellNodes2 c).getD []).Nodup
    unfold JMesh.cellNodes2
    rw [hg]
    exact nodup_map_id j.m.vnum (by rw [mfVertices_start]; exact hp.simple g)
  · intro c hc n hn
    obtain ⟨g, hg⟩ := hcell c hc
    have hn' : n ∈ (j.cellNodes2 c).getD [] := hn
    unfold JMesh.cellNodes2 at hn'
    rw [hg, Option.map_some, Option.getD_some, List.mem_map] at hn'
    obtain ⟨v, _, rfl⟩ := hn'
    rw [nnodes]
    exact j.m.vnum.id_lt v
  · intro c hc n
    obtain ⟨g, hg⟩ := hcell c hc
    have : n ∈ (Types.shape (j.base2 r)).cellNodes c ↔
        ∃ v ∈ j.m.mfVertices (j.m.face g) true, j.m.vmap.id v - 1 = n := by
      show n ∈ (j.cellNodes2 c).getD [] ↔ _
      unfold JMesh.cellNodes2
      rw [hg, Option.map_some, Option.getD_some, List.mem_map]
    rw [this]
    constructor
    · rintro ⟨v, hv, rfl⟩
      rw [mfVertices_start, ends_of_polygon hp] at hv
      obtain ⟨q, hq, hv⟩ := hv
      refine ⟨j.m.emap.id q.1 - 1, j.m.emap.id q.1 - 1, ⟨⟨_, (hasFace2 h c _ _).mpr ⟨g, q, hg, hq, rfl, rfl⟩⟩, 1, ?_⟩, ?_⟩
      · rw [faceEdges2_of h he]
        exact List.mem_singleton.mpr rfl
      · refine (edgeNodes_of he q.1 _).mpr ?_
        rcases hv with rfl | rfl
        · exact .inl rfl
        · exact .inr rfl
    · rintro ⟨f, e, ⟨⟨d, hf⟩, ed, hed⟩, hn⟩
      obtain ⟨g', q, hg', hq, rfl, _⟩ := (hasFace2 h c f d).mp hf
      rw [hg] at hg'
      cases hg'
      rw [faceEdges2_of h he] at hed
      obtain ⟨rfl, rfl⟩ := Prod.mk.inj (List.mem_singleton.mp hed)
      have hn' := (edgeNodes_of he q.1 n).mp hn
      have mem : ∀ v, (v = (j.m.edge q.1).v0 ∨ v = (j.m.edge q.1).v1) → v ∈ j.m.mfVertices (j.m.face g) true := by
        intro v hv
        rw [mfVertices_start, ends_of_polygon hp]
        exact ⟨q, hq, hv⟩
      rcases hn' with rfl | rfl
      · exact ⟨_, mem _ (.inl rfl), rfl⟩
      · exact ⟨_, mem _ (.inr rfl), rfl⟩

end Two

end Jali.Mstk
