import Verif.Spec.SetKinds
import Verif.Props.NodePointSets
import Verif.Props.PointSets
/-!
C181: which regions can be made into sets of which kinds of entities.
-/
namespace Jali.Reg
open Jali.MSet

variable {P K : Type} [Field K] [LinearOrder K]

/-- **C181, first half, for cells, faces and nodes.** A region of a type that does not describe the kind is rejected with an exception,
whatever sets there are. -/
theorem undescribed_rejected_partial (g : Geo P K) {gm : List (Region P)} (w : World) {kind : EntityKind} {r : Region P} {n : String}
    (hr : findRegion gm n = some r) (hk : Settable kind) (ht : ¬ Describes kind r.type) (d : Nat) (b : Bool) :
    build g gm d w n kind b = .error .thrown := by
  have hl : regionLists g w kind r = .error .thrown := by
    rcases hk with rfl | rfl | rfl <;> simp only [regionLists, cellLists, faceLists, nodeLists, Describes] at ht ⊢ <;>
      cases h : r.type <;> simp_all
  cases d <;> rw [build] <;> simp only [hr, hl]

/-- **C181, first half, is false of the other kinds**: for edges, sides, wedges, corners and so on the call returns a null pointer without
a message, for every region but logical ones. -/
theorem other_kinds_null (g : Geo P K) {gm : List (Region P)} (w : World) {kind : EntityKind} {r : Region P} {n : String}
    (hr : findRegion gm n = some r) (hk : ¬ Settable kind) (ht : r.type ≠ .LOGICAL) (d : Nat) (b : Bool) :
    build g gm d w n kind b = .ok (none, w) := by
  have hl : regionLists g w kind r = .ok none := by
    unfold regionLists
    split
    · exact absurd (.inl rfl) hk
    · exact absurd (.inr (.inl rfl)) hk
    · exact absurd (.inr (.inr rfl)) hk
    · rfl
  cases d <;> rw [build] <;> simp only [hr, hl, if_neg ht]

/-- for a logical region with a component that has no set of the kind yet, the process is aborted -/
theorem other_kinds_logical_abort (g : Geo P K) {gm : List (Region P)} (w : World) {kind : EntityKind} {r r1 : Region P} {n n1 : String}
    {ns : List String} (hr : findRegion gm n = some r) (hk : ¬ Settable kind) (ht : r.type = .LOGICAL) (hc : r.comps = n1 :: ns)
    (h1 : findRegion gm n1 = some r1) (ht1 : r1.type ≠ .LOGICAL) (hno : findMeshset w n1 kind = none) (d : Nat) (b : Bool) :
    build g gm (d + 1) w n kind b = .error .assertFailed := by
  rw [build]
  simp only [hr, logical_none ht, if_pos ht, hc]
  rw [componentsWith]
  simp only [h1, hno, other_kinds_null g w h1 hk ht1 d b, combineAll]

/-- **C181, second half, in part.** A region that describes the kind has its set made: any region but a logical one; a labeled set if its
entity string names the kind; for the cells of a point, if a node is nearer than 1e8 (C74). -/
theorem described_made_partial {g : Geo P K} {gm : List (Region P)} {w : World} {kind : EntityKind} {r : Region P} {n : String}
    (hf : Fits g gm w kind) (hr : findRegion gm n = some r) (ht : Describes kind r.type) (hl : r.type ≠ .LOGICAL)
    (hn : r.type = .LABELEDSET → NamesKind r.entityStr kind)
    (hp : kind = .CELL → r.type = .POINT → ∃ p k, r.point = some p ∧ k < (w.view .NODE).nAll ∧ g.dist2 (g.nodeCoord k) p < 10 ^ 16)
    (d : Nat) (b : Bool) :
    ∃ w' s, build g gm d w n kind b = .ok (some w.heap.length, w') ∧ w'.heap = w.heap ++ [s] ∧ s.name = n ∧ s.kind = kind := by
  by_cases hpos : Positional kind r.type = true
  · obtain ⟨w', s, h1, h2, -, h4, h5, -⟩ := region_set_exact hf n hr hpos d b
    exact ⟨w', s, h1, h2, h4, h5⟩
  by_cases hlab : r.type = .LABELEDSET
  · have hk : kind = .CELL ∨ kind = .FACE ∨ kind = .NODE := by cases kind <;> simp_all [Describes]
    obtain ⟨w', s, h1, h2, -, h4, h5, -⟩ := (labeled_set_exact hf n hr hlab hk d b).1 (hn hlab)
    exact ⟨w', s, h1, h2, h4, h5⟩
  have lists : ∃ o gh, regionLists g w kind r = .ok (some (o, gh)) := by
    cases kind <;> simp only [Describes] at ht
    · rcases ht with h | h | h | h | h | h <;> simp_all [regionLists, nodeLists, Positional]
      exact ⟨_, _, rfl⟩
    · rcases ht with h | h | h | h | h <;> simp_all [Positional]
    · rcases ht with h | h | h | h | h | h
      · simp_all [Positional]
      · simp_all [Positional]
      · obtain ⟨p, k, h1, h2, h3⟩ := hp rfl h
        obtain ⟨m, hm⟩ := Option.isSome_iff_exists.1 (nearestNode_isSome g p (List.range (w.view .NODE).nAll) (10 ^ 16) none
          (.inr ⟨k, List.mem_range.2 h2, h3⟩))
        simp only [regionLists, cellLists, h, h1, pointCells, hm]
        exact ⟨_, _, rfl⟩
      · simp only [regionLists, cellLists, h]
        exact ⟨_, _, rfl⟩
      · exact absurd h hlab
      · exact absurd h hl
  obtain ⟨o, gh, hls⟩ := lists
  obtain ⟨g1, g2, g3, g4⟩ := regionLists_good hf (findRegion_mem hr).1 hls
  obtain ⟨s, hmk, m1, m2, -⟩ := makeMeshset_ok (n := n) (b := b) g1 g2 g3 g4
  refine ⟨withSet w s false, s, ?_, withSet_heap _ _ _, m1, m2⟩
  cases d <;> rw [build] <;> simp only [hr, hls, hmk]

/-- **C181, third part, for boxes and planes.** If `valid_region_name` accepts a box or a plane for a kind, `find_meshset_from_region` gives
its set: the one made before, or a new one. -/
theorem valid_region_made_partial {g : Geo P K} {gm : List (Region P)} {w : World} {kind : EntityKind} {r : Region P} {n : String} {mdim : Nat}
    (hf : Fits g gm w kind) (hr : findRegion gm n = some r) (hnd : (gm.map (·.name)).Nodup) (ht : r.type = .BOX ∨ r.type = .PLANE)
    (hv : validRegionName mdim n kind gm = true) (d : Nat) :
    ∃ a w', findFromRegion g gm d mdim w n kind true = .ok (some a, w') := by
  obtain ⟨-, h1, h2⟩ := (find_from_region g gm d mdim w n kind true).2 hv
  cases hs : findMeshset w n kind with
  | some a => exact ⟨a, w, h1 a hs⟩
  | none =>
    rw [h2 hs, if_pos rfl]
    obtain ⟨r', hr', hn', hsuit⟩ := (valid_iff_suits mdim n kind gm hnd).1 hv
    have e : r' = r := by
      obtain ⟨m1, m2⟩ := findRegion_mem hr
      exact List.inj_on_of_nodup_map hnd hr' m1 (by rw [hn', m2])
    subst e
    have hk : kind = .CELL ∨ kind = .FACE ∨ kind = .NODE := by
      unfold Suits at hsuit
      rcases ht with h | h <;> rw [if_neg (by rw [h]; decide), if_neg (by rw [h]; decide)] at hsuit <;> tauto
    obtain ⟨w', s, h3, -⟩ := described_made_partial hf hr (by rcases hk with rfl | rfl | rfl <;> rcases ht with h | h <;> simp [Describes, h])
      (by rcases ht with h | h <;> rw [h] <;> decide) (fun h' => by rcases ht with h | h <;> rw [h] at h' <;> cases h')
      (fun _ h' => by rcases ht with h | h <;> rw [h] at h' <;> cases h') d true
    exact ⟨_, w', h3⟩

/-- **C181, third part, is false of other regions**: `valid_region_name` accepts color functions for faces and nodes, polygons for the cells of
surface meshes, points for the faces of one-dimensional meshes, and labeled sets of edges, but the set cannot be made: an exception, or for
edges a null pointer. -/
theorem valid_region_false (g : Geo P K) {gm : List (Region P)} (w : World) {r : Region P} {n : String} (hr : findRegion gm n = some r)
    (hnd : (gm.map (·.name)).Nodup) (d : Nat) :
    (∀ kind mdim, r.type = .COLORFUNCTION → kind = .FACE ∨ kind = .NODE → findMeshset w n kind = none →
      validRegionName mdim n kind gm = true ∧ findFromRegion g gm d mdim w n kind true = .error .thrown) ∧
    (r.type = .POLYGON → r.dim = 2 → findMeshset w n .CELL = none →
      validRegionName 2 n .CELL gm = true ∧ findFromRegion g gm d 2 w n .CELL true = .error .thrown) ∧
    (r.type = .POINT → findMeshset w n .FACE = none →
      validRegionName 1 n .FACE gm = true ∧ findFromRegion g gm d 1 w n .FACE true = .error .thrown) ∧
    (∀ mdim, r.type = .LABELEDSET → r.entityStr = "EDGE" → findMeshset w n .EDGE = none →
      validRegionName mdim n .EDGE gm = true ∧ findFromRegion g gm d mdim w n .EDGE true = .ok (none, w)) := by
  have val : ∀ mdim kind, Suits mdim kind r → validRegionName mdim n kind gm = true := fun mdim kind h =>
    (valid_iff_suits mdim n kind gm hnd).2 ⟨r, (findRegion_mem hr).1, (findRegion_mem hr).2, h⟩
  have bad : ∀ mdim kind, Suits mdim kind r → findMeshset w n kind = none → Settable kind → ¬ Describes kind r.type →
      validRegionName mdim n kind gm = true ∧ findFromRegion g gm d mdim w n kind true = .error .thrown := fun mdim kind h1 h2 h3 h4 => by
    refine ⟨val mdim kind h1, ?_⟩
    rw [((find_from_region g gm d mdim w n kind true).2 (val mdim kind h1)).2.2 h2, if_pos rfl]
    exact undescribed_rejected_partial g w hr h3 h4 d true
  refine ⟨fun kind mdim ht hk hs => ?_, fun ht hd hs => ?_, fun ht hs => ?_, fun mdim ht he hs => ?_⟩
  · refine bad mdim kind (by rw [Suits, if_pos ht]; trivial) hs (.inr hk) ?_
    rcases hk with rfl | rfl <;> simp [Describes, ht]
  · refine bad 2 .CELL ?_ hs (.inl rfl) (by simp [Describes, ht])
    rw [Suits, if_neg (by rw [ht]; decide), if_neg (by rw [ht]; decide)]
    exact .inl ⟨rfl, .inl hd.ge⟩
  · refine bad 1 .FACE ?_ hs (.inr (.inl rfl)) (by simp [Describes, ht])
    rw [Suits, if_neg (by rw [ht]; decide), if_neg (by rw [ht]; decide)]
    exact .inr (.inl ⟨rfl, by omega⟩)
  · have hv := val mdim .EDGE (by rw [Suits, if_neg (by rw [ht]; decide), if_pos ht, he]; rfl)
    refine ⟨hv, ?_⟩
    rw [((find_from_region g gm d mdim w n .EDGE true).2 hv).2.2 hs, if_pos rfl]
    exact other_kinds_null g w hr (by simp [Settable]) (by rw [ht]; decide) d true

/-! ### examples: a color function `C`, a labeled set of edges `E`, the union `L` of `A` and `C` -/

def exKinds : List (Region Nat) :=
  [{ exBox "C" 0 1 with type := .COLORFUNCTION }, { exBox "E" 0 1 with type := .LABELEDSET, entityStr := "EDGE" },
   exBox "A" 0 1, exLog "L" .UNION ["A", "C"]]

example : validRegionName 3 "C" .FACE exKinds = true ∧ findFromRegion exG exKinds 5 3 exW "C" .FACE true = .error .thrown :=
  (valid_region_false exG exW (r := { exBox "C" 0 1 with type := .COLORFUNCTION }) (gm := exKinds) (n := "C") rfl (by decide) 5).1 .FACE 3 rfl
    (.inl rfl) rfl

example : findFromRegion exG exKinds 5 3 exW "E" .EDGE true = .ok (none, exW) :=
  ((valid_region_false exG exW (r := { exBox "E" 0 1 with type := .LABELEDSET, entityStr := "EDGE" }) (gm := exKinds) (n := "E") rfl
    (by decide) 5).2.2.2 3 rfl rfl rfl).2

/-- the wedges in the union of two regions: the process is aborted -/
example : build exG exKinds 5 exW "L" .WEDGE true = .error .assertFailed :=
  other_kinds_logical_abort exG exW (r := exLog "L" .UNION ["A", "C"]) (r1 := exBox "A" 0 1) (n1 := "A") (ns := ["C"]) rfl (by simp [Settable])
    rfl rfl rfl (by decide) rfl 4 true

example : ∃ a w', findFromRegion exG exGm 5 3 exW "A" .CELL true = .ok (some a, w') :=
  valid_region_made_partial (r := exBox "A" 0 1) exGm_fits rfl (by decide) (.inl rfl) (by decide) 5

end Jali.Reg
