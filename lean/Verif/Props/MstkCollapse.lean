import Verif.Proof.MstkCollapse
import Verif.Props.MstkSets
/-
C135–C139: edges of length zero, and the sets of a mesh that was read from a file.
-/
namespace Jali.Mstk

variable {E M : Type} [DecidableEq E]

/-! ### C135: which vertex is kept -/

/-- the same edge in the other direction -/
def DegenEdge.flip (e : DegenEdge M E) : DegenEdge M E := ⟨e.v1, e.v0, e.gid1, e.gid0, e.collapse⟩

omit [DecidableEq E] in
/-- **C135** the direction of the edge does not matter if the global ids of its vertices differ: two ranks that know the same edge
in different directions do the same -/
theorem direction_irrelevant (e : DegenEdge M E) (h : e.gid0 ≠ e.gid1) (m : M) : e.flip.body m = e.body m := by
  unfold DegenEdge.body DegenEdge.flip
  dsimp only
  by_cases h1 : e.gid0 < e.gid1
  · simp only [if_pos h1, if_neg (show ¬ e.gid1 < e.gid0 by omega)]
  · simp only [if_neg h1, if_pos (show e.gid1 < e.gid0 by omega)]

omit [DecidableEq E] in
/-- **C135** the vertex with the lower global id is kept, if MSTK can do that -/
theorem lower_kept (e : DegenEdge M E) (m : M) {c : Collapsed M E} :
    (e.gid0 < e.gid1 → e.collapse m e.v0 = some c → e.body m = .made c) ∧
    (e.gid1 < e.gid0 → e.collapse m e.v1 = some c → e.body m = .made c) := by
  unfold DegenEdge.body
  constructor
  · intro h hc; simp only [if_pos h, hc]
  · intro h hc; simp only [if_neg (show ¬ e.gid0 < e.gid1 by omega), hc]

omit [DecidableEq E] in
/-- **C135** if not, the other vertex is kept -/
theorem higher_kept (e : DegenEdge M E) (m : M) {c : Collapsed M E} :
    (e.gid0 < e.gid1 → e.collapse m e.v0 = none → e.collapse m e.v1 = some c → e.body m = .made c) ∧
    (e.gid1 < e.gid0 → e.collapse m e.v1 = none → e.collapse m e.v0 = some c → e.body m = .made c) := by
  unfold DegenEdge.body
  constructor
  · intro h hc hd; simp only [if_pos h, hc, hd]
  · intro h hc hd; simp only [if_neg (show ¬ e.gid0 < e.gid1 by omega), hc, hd]

omit [DecidableEq E] in
/-- **C135** an edge that MSTK can collapse in no way is an error, and only such an edge is -/
theorem collapse_throws (e : DegenEdge M E) (m : M) : e.body m = .throws ↔ e.collapse m e.v0 = none ∧ e.collapse m e.v1 = none := by
  unfold DegenEdge.body
  by_cases h : e.gid0 < e.gid1
  · simp only [if_pos h]
    cases e.collapse m e.v0 <;> cases e.collapse m e.v1 <;> simp
  · simp only [if_neg h]
    cases e.collapse m e.v0 <;> cases e.collapse m e.v1 <;> simp

omit [DecidableEq E] in
/-- **C135** a mesh in which MSTK can collapse every edge it is given is loaded, and the merged pairs of all collapses are kept in
the order of the collapses -/
theorem loop_total (es : List (DegenEdge M E)) (h : ∀ e ∈ es, ∀ m, ∃ c, e.collapse m e.v0 = some c ∨ e.collapse m e.v1 = some c)
    (c : Collapsed M E) : ∃ d, collapseLoop es c = .made d ∧ c.merged <+: d.merged ∧ c.deleted <+: d.deleted := by
  induction es generalizing c with
  | nil => exact ⟨c, rfl, List.prefix_rfl, List.prefix_rfl⟩
  | cons e es ih =>
    obtain ⟨d, hd⟩ : ∃ d, e.body c.mesh = .made d := by
      cases hb : e.body c.mesh with
      | made d => exact ⟨d, rfl⟩
      | throws =>
        obtain ⟨h1, h2⟩ := (collapse_throws e c.mesh).mp hb
        obtain ⟨c', hc | hc⟩ := h e (List.mem_cons_self ..) c.mesh
        · rw [h1] at hc; cases hc
        · rw [h2] at hc; cases hc
      | undefined =>
        unfold DegenEdge.body at hb
        dsimp only at hb
        split at hb
        · cases hb
        · split at hb <;> cases hb
    obtain ⟨f, hf, h1, h2⟩ := ih (fun e he => h e (List.mem_cons_of_mem _ he)) ⟨d.mesh, c.deleted ++ d.deleted, c.merged ++ d.merged⟩
    refine ⟨f, ?_, (List.prefix_append _ _).trans h1, (List.prefix_append _ _).trans h2⟩
    unfold collapseLoop
    rw [hd]
    exact hf

/-- an edge between the vertices 7 and 4, with the ids 7 and 4, that can be collapsed in one way only -/
example : (⟨7, 4, 7, 4, fun _ v => if v = 4 then some ⟨(), [7], [(7, 4)]⟩ else none⟩ : DegenEdge Unit Nat).body () =
    .made ⟨(), [7], [(7, 4)]⟩ := rfl
example : (⟨7, 4, 7, 4, fun _ v => if v = 7 then some ⟨(), [4], [(4, 7)]⟩ else none⟩ : DegenEdge Unit Nat).body () =
    .made ⟨(), [4], [(4, 7)]⟩ := rfl

/-! ### C136: sets -/

/-- **C136** a set has the entities that its entities were merged with in one step, and its entities that were not merged, as far as
they are not deleted -/
theorem set_direct (p : Part E) (h : p.Sane) {s : ESet E} (hs : s ∈ p.sets) (y : E) :
    y ∈ (p.setAfter s).ents ↔ y ∉ p.deleted ∧ ∃ x ∈ s.ents, x = y ∨ (x, y) ∈ p.merged := by
  have hln : (p.live.map Prod.fst).Nodup := filter_fst_nodup (f := fun q => q.2 ∉ p.deleted) h.once
  rw [setAfter_eq h hs]
  show y ∈ List.filter _ _ ↔ _
  rw [List.mem_filter, List.mem_map]
  constructor
  · rintro ⟨⟨x, hx, rfl⟩, hd⟩
    refine ⟨by simpa using hd, x, hx, ?_⟩
    by_cases hq : ∃ q ∈ p.live, q.1 = x
    · obtain ⟨⟨a, b⟩, hq, rfl⟩ := hq
      rw [repl_of hq hln h.live_keep]
      exact .inr (mem_live.mp hq).1
    · push Not at hq
      exact .inl (repl_not hq).symm
  · rintro ⟨hd, x, hx, hxy⟩
    refine ⟨⟨x, hx, ?_⟩, by simpa using hd⟩
    rcases hxy with rfl | hxy
    · exact repl_not fun q hq e => hd (e ▸ h.marked q (mem_live.mp hq).1)
    · exact repl_of (mem_live.mpr ⟨hxy, hd⟩) hln h.live_keep

/-- without an entity that is kept first and deleted later, what stands for an entity is the one it was merged with -/
theorem standsFor_direct {p : Part E} (h : p.Sane) (hc : ∀ q ∈ p.merged, q.2 ∉ p.deleted) {x y : E} :
    p.StandsFor x y ↔ y ∉ p.deleted ∧ (x = y ∨ (x, y) ∈ p.merged) := by
  constructor
  · rintro ⟨hr, hd⟩
    refine ⟨hd, ?_⟩
    rcases Relation.ReflTransGen.cases_head hr with rfl | ⟨z, hz, hr⟩
    · exact .inl rfl
    · rcases Relation.ReflTransGen.cases_head hr with rfl | ⟨w, hw, _⟩
      · exact .inr hz
      · exact absurd (h.marked _ hw) (hc _ hz)
  · rintro ⟨hd, rfl | hm⟩
    · exact ⟨.refl, hd⟩
    · exact ⟨.single hm, hd⟩

/-- **C136** the sets are kept, if no entity that is kept in a collapse is deleted in a later one and no two entities of a set are
merged -/
theorem sets_kept_partial (ps : List (Part E)) {outs : List (AfterCollapse E)} (ho : finishCollapse ps = .made outs) {i : Nat}
    {p : Part E} (hp : ps[i]? = some p) (h : p.Sane) (hc : ∀ q ∈ p.merged, q.2 ∉ p.deleted)
    (hd : ∀ s ∈ p.sets, ∀ x ∈ s.ents, ∀ y ∈ s.ents, ∀ z, p.StandsFor x z → p.StandsFor y z → x = y) :
    ∃ a, outs[i]? = some a ∧ SetsKept p a.sets := by
  unfold finishCollapse at ho
  split at ho
  · cases ho
  · cases ho
    refine ⟨_, by rw [List.getElem?_map, hp]; rfl, ?_⟩
    unfold SetsKept
    rw [List.forall₂_map_right_iff, List.forall₂_same]
    intro s hs
    have hln : (p.live.map Prod.fst).Nodup := filter_fst_nodup (f := fun q => q.2 ∉ p.deleted) h.once
    refine ⟨by rw [setAfter_eq h hs], by rw [setAfter_eq h hs], ?_, ?_⟩
    · intro y
      rw [set_direct p h hs]
      constructor
      · rintro ⟨h1, x, hx, h2⟩; exact ⟨x, hx, (standsFor_direct h hc).mpr ⟨h1, h2⟩⟩
      · rintro ⟨x, hx, h2⟩
        obtain ⟨h1, h2⟩ := (standsFor_direct h hc).mp h2
        exact ⟨h1, x, hx, h2⟩
    · rw [setAfter_eq h hs]
      show List.Nodup (List.filter _ _)
      rw [List.filter_map]
      refine List.Nodup.map_on ?_ ((h.sets s hs).1.filter _)
      have key : ∀ x, repl p.live x ∉ p.deleted → p.StandsFor x (repl p.live x) := by
        intro x hx
        rw [standsFor_direct h hc]
        refine ⟨hx, ?_⟩
        by_cases hq : ∃ q ∈ p.live, q.1 = x
        · obtain ⟨⟨a, b⟩, hq, rfl⟩ := hq
          rw [repl_of hq hln h.live_keep]
          exact .inr (mem_live.mp hq).1
        · push Not at hq
          exact .inl (repl_not hq).symm
      intro x hx y hy e
      rw [List.mem_filter] at hx hy
      refine hd s hs x hx.1 y hy.1 _ (key x (by simpa using hx.2)) ?_
      rw [e]
      exact key y (by simpa using hy.2)

/-- vertices 1 to 5, of which 2 is merged with 1 and the edge 10 between them is deleted; a set of the vertices 2, 3 and one of the
edges 10, 11 -/
abbrev pinched : Part Nat where
  ents := [1, 3, 4, 5, 11]
  dim n := if n < 10 then .vertex else .edge
  gid n := n
  ghost _ := false
  sets := [⟨"nodeset_1", .vertex, [2, 3]⟩, ⟨"sideset_1", .edge, [10, 11]⟩]
  deleted := [2, 10]
  merged := [(2, 1)]

theorem pinched_sane : pinched.Sane := ⟨by decide, by decide, by decide, by decide⟩

example : pinched.sets.map pinched.setAfter = [⟨"nodeset_1", .vertex, [1, 3]⟩, ⟨"sideset_1", .edge, [11]⟩] := by decide

/-- the hypotheses of `sets_kept_partial` are met -/
example : ∃ a, [(⟨pinched.sets.map pinched.setAfter, pinched.gidAfter ([pinched].flatMap Part.info)⟩ : AfterCollapse Nat)][0]? = some a ∧
    SetsKept pinched a.sets := by
  refine sets_kept_partial [pinched] (i := 0) (p := pinched) ?_ rfl pinched_sane (by decide) ?_
  · unfold finishCollapse
    rw [if_neg (by simp)]
    rfl
  · intro s hs x hx y hy z h1 h2
    rw [standsFor_direct pinched_sane (by decide)] at h1 h2
    simp only [List.mem_cons, List.not_mem_nil, or_false] at hs
    obtain ⟨h3, h1⟩ := h1
    obtain ⟨_, h2⟩ := h2
    simp only [List.mem_cons, List.not_mem_nil, or_false, Prod.mk.injEq] at h1 h2 h3
    rcases hs with rfl | rfl
    · simp only [List.mem_cons, List.not_mem_nil, or_false] at hx hy
      omega
    · simp only [List.mem_cons, List.not_mem_nil, or_false] at hx hy
      omega

/-- both vertices of the edge are in the set -/
abbrev bothIn : Part Nat := { pinched with sets := [⟨"nodeset_1", .vertex, [1, 2, 3]⟩] }

theorem bothIn_sane : bothIn.Sane := ⟨by decide, by decide, by decide, by decide⟩

/-- **C136** is false: a set with both vertices of the edge has the vertex that is kept twice -/
theorem sets_kept_fails_twice : ¬ ∀ (p : Part Nat) (a : AfterCollapse Nat), p.Sane → finishCollapse [p] = .made [a] → SetsKept p a.sets := by
  intro h
  have h1 := h bothIn ⟨_, _⟩ bothIn_sane (by unfold finishCollapse; rw [if_neg (by simp)]; rfl)
  have h2 : ∀ t ∈ bothIn.sets.map bothIn.setAfter, t.ents.Nodup := by
    intro t ht
    obtain ⟨i, hi, he⟩ := List.mem_iff_getElem.mp ht
    have := (List.forall₂_iff_get.mp h1).2 i (by simpa using hi) hi
    have := this.2.2.2
    rw [← he]
    exact this
  have h3 : bothIn.sets.map bothIn.setAfter = [⟨"nodeset_1", .vertex, [1, 1, 3]⟩] := by decide
  rw [h3] at h2
  exact absurd (h2 _ (List.mem_singleton_self _)) (by decide)

/-- three vertices in one place: 3 is merged with 2, then 2 with 1; a set has vertex 3 only -/
abbrev pinchedTwice : Part Nat where
  ents := [1, 4]
  dim n := if n < 10 then .vertex else .edge
  gid n := n
  ghost _ := false
  sets := [⟨"nodeset_1", .vertex, [3, 4]⟩]
  deleted := [3, 10, 2, 11]
  merged := [(3, 2), (2, 1)]

theorem pinchedTwice_sane : pinchedTwice.Sane := ⟨by decide, by decide, by decide, by decide⟩

/-- **C136** is false: after two collapses in one place a set loses the place -/
theorem sets_kept_fails_lost : ∃ s ∈ pinchedTwice.sets, 3 ∈ s.ents ∧ pinchedTwice.StandsFor 3 1 ∧ (pinchedTwice.setAfter s).ents = [4] :=
  ⟨⟨"nodeset_1", .vertex, [3, 4]⟩, by decide, by decide, ⟨.head (b := 2) (by decide) (.single (by decide)), by decide⟩, by decide⟩

/-! ### C137: global ids of ghosts -/

theorem mem_info {ps : List (Part E)} {t : MType} {g h : Int} :
    (some t, g, h) ∈ ps.flatMap Part.info ↔
      ∃ p ∈ ps, ∃ q ∈ p.merged, q.2 ∉ p.deleted ∧ p.dim q.2 = t ∧ p.gid q.1 = g ∧ p.gid q.2 = h := by
  rw [List.mem_flatMap]
  unfold Part.info
  constructor
  · rintro ⟨p, hp, hm⟩
    obtain ⟨q, hq, he⟩ := List.mem_map.mp hm
    simp only [Prod.mk.injEq] at he
    obtain ⟨h1, h2, h3⟩ := he
    refine ⟨p, hp, q, hq, ?_⟩
    unfold Part.dimNow at h1
    split at h1
    · cases h1
    · rename_i hd; exact ⟨hd, Option.some.inj h1, h2, h3⟩
  · rintro ⟨p, hp, q, hq, hd, h1, h2, h3⟩
    refine ⟨p, hp, List.mem_map.mpr ⟨q, hq, ?_⟩⟩
    unfold Part.dimNow
    rw [if_neg hd, h1, h2, h3]

/-- **C137** a ghost node, edge or face has the global id of the entity that stands for it, if no global id that is kept on a rank is
given up on a rank -/
theorem ghosts_kept_partial (ps : List (Part E)) {outs : List (AfterCollapse E)} (ho : finishCollapse ps = .made outs) {i : Nat}
    {p : Part E} (hp : ps[i]? = some p) (hsane : ∀ p ∈ ps, p.Sane) (hc : ∀ p ∈ ps, ∀ q ∈ p.merged, q.2 ∉ p.deleted)
    (hg : ∀ t g h, Merges ps t g h → Alive ps t h) :
    ∃ a, outs[i]? = some a ∧ (∀ e ∈ p.ents, p.ghost e = true → p.dim e ≠ .region → GhostKept ps p a.gid e) ∧
      ∀ e, p.ghost e = false → a.gid e = p.gid e := by
  unfold finishCollapse at ho
  split at ho
  · cases ho
  · cases ho
    refine ⟨_, by rw [List.getElem?_map, hp]; rfl, ?_, ?_⟩
    · intro e he hgh hr
      unfold GhostKept
      dsimp only
      unfold Part.gidAfter
      rw [if_pos ⟨hgh, he⟩]
      unfold newGid
      rw [if_neg hr]
      cases hf : (ps.flatMap Part.info).find? fun q => q.1 = some (p.dim e) ∧ q.2.1 = p.gid e with
      | some q =>
        obtain ⟨t, g, h⟩ := q
        have h1 := List.find?_some hf
        simp only [decide_eq_true_eq] at h1
        obtain ⟨rfl, rfl⟩ := h1
        have h2 := mem_info.mp (List.mem_of_find?_eq_some hf)
        have h3 : Merges ps (p.dim e) (p.gid e) h := by
          obtain ⟨p', hp', q, hq, _, h4, h5, h6⟩ := h2
          exact ⟨p', hp', q, hq, ((hsane p' hp').same q hq).trans h4, h5, h6⟩
        exact ⟨.single h3, hg _ _ _ h3⟩
      | none =>
        refine ⟨.refl, fun h hm => ?_⟩
        obtain ⟨p', hp', q, hq, h4, h5, h6⟩ := hm
        have := List.find?_eq_none.mp hf (some (p.dim e), p.gid e, h)
          (mem_info.mpr ⟨p', hp', q, hq, hc p' hp' q hq, ((hsane p' hp').same q hq).symm.trans h4, h5, h6⟩)
        simp at this
    · intro e he
      dsimp only
      unfold Part.gidAfter
      rw [if_neg (by simp [he])]

/-- another rank, which has vertices with the ids 21, 22 of its own that are merged, and a ghost of the vertex 3 of the first rank -/
abbrev otherRank (n : Int) : Part Nat where
  ents := [1, 3]
  dim _ := .vertex
  gid k := if k = 3 then n else 20 + k
  ghost k := k = 3
  sets := []
  deleted := [2]
  merged := [(2, 1)]

theorem otherRank_sane (n : Int) : (otherRank n).Sane :=
  ⟨by show ∀ q ∈ [((2 : Nat), 1)], q.1 ∈ [2]; decide, by show (List.map Prod.fst [((2 : Nat), 1)]).Nodup; decide,
   fun _ _ => rfl, fun s h => by cases h⟩

/-- the ghost of vertex 2 gets the id 1 of the vertex that is kept -/
example : (otherRank 2).gidAfter ([pinched, otherRank 2].flatMap Part.info) 3 = 1 := by decide

/-- the hypotheses of `ghosts_kept_partial` are met by a mesh with a ghost that is given another id -/
example : ∃ outs, finishCollapse [pinched, otherRank 2] = .made outs ∧ (∀ p ∈ [pinched, otherRank 2], p.Sane) ∧
    (∀ p ∈ [pinched, otherRank 2], ∀ q ∈ p.merged, q.2 ∉ p.deleted) ∧
    (∀ t g h, Merges [pinched, otherRank 2] t g h → Alive [pinched, otherRank 2] t h) := by
  refine ⟨_, by unfold finishCollapse; rw [if_neg (by simp)], ?_, by decide, ?_⟩
  · intro p hp
    rcases List.mem_pair.mp hp with rfl | rfl
    · exact pinched_sane
    · exact otherRank_sane 2
  · have key : ∀ t g h, Merges [pinched, otherRank 2] t g h → (g = 2 ∧ h = 1) ∨ (g = 22 ∧ h = 21) := by
      rintro t g h ⟨p, hp, q, hq, h1, rfl, rfl⟩
      rcases List.mem_pair.mp hp with rfl | rfl
      · rw [List.mem_singleton.mp hq]; left; decide
      · rw [List.mem_singleton.mp hq]; right; decide
    intro t g h h1 h' h2
    have h1 := key _ _ _ h1
    have h2 := key _ _ _ h2
    omega

/-- **C137** is false: vertex 3 is merged with 2 and 2 with 1 on the first rank; the ghost of vertex 3 on the other rank keeps an id
that no entity has -/
theorem ghosts_kept_fails : ∃ outs a, finishCollapse [pinchedTwice, otherRank 3] = .made outs ∧ outs[1]? = some a ∧
    a.gid 3 = 3 ∧ ¬ GhostKept [pinchedTwice, otherRank 3] (otherRank 3) a.gid 3 := by
  refine ⟨_, _, by unfold finishCollapse; rw [if_neg (by simp)], rfl, by decide, ?_⟩
  rintro ⟨_, h⟩
  exact h 2 ⟨pinchedTwice, by simp, (3, 2), by decide, rfl, rfl, rfl⟩

/-! ### C138: nothing to collapse -/

omit [DecidableEq E] in
/-- **C138** the loop does nothing on a mesh without edges of length zero -/
theorem nothing_to_collapse (c : Collapsed M E) : collapseLoop [] c = .made c := rfl

/-- **C138** the sets of a rank that has merged and deleted nothing are not changed -/
theorem nothing_merged_partial (p : Part E) (h1 : p.merged = []) (h2 : p.deleted = []) (s : ESet E) : p.setAfter s = s := by
  unfold Part.setAfter
  rw [h1, h2]
  rfl

/-- **C138** is false: the collapse is undefined as soon as one rank has merged nothing; on a mesh without degenerate edges it always
is -/
theorem nothing_merged_undefined (ps : List (Part E)) (h : ∃ p ∈ ps, p.merged = []) : finishCollapse ps = .undefined := if_pos h

example : finishCollapse [{ pinched with deleted := [], merged := [] }] = .undefined := nothing_merged_undefined _ ⟨_, List.mem_singleton_self _, rfl⟩

/-! ### C139: the kinds of sets and regions -/

/-- the loop body finds an error exactly if the kinds do not agree, for a region in the long spelling -/
theorem checkRegion_long {m : MMesh} {dim3 : Bool} {sets : List (MstkSet m)} (hu : (sets.map MstkSet.name).Nodup) {r : Rgn}
    {k : EntityKind} {label : String} (h : r.Long k label) : checkRegion dim3 sets r = none ↔ Agrees dim3 sets r := by
  have hn := internalName_prefix (.inl h)
  have hlk : ∀ k' l', r.Asked k' l' → k' = k ∧ l' = label := by
    rintro k' l' ((⟨rfl, h'⟩ | ⟨rfl, h'⟩ | ⟨rfl, h'⟩) | (⟨rfl, h'⟩ | ⟨rfl, h'⟩ | ⟨rfl, h'⟩)) <;>
      rcases h with ⟨rfl, h⟩ | ⟨rfl, h⟩ | ⟨rfl, h⟩ <;> rw [h] at h' <;> simp at h' <;> simp [h']
  have hag : Agrees dim3 sets r ↔ ∀ t ∈ sets, t.name = filePrefix k ++ label → kindToMtype dim3 k = some t.dim := by
    constructor
    · intro ha t ht he
      refine ha k label (.inl h) t ht ?_
      rcases h with ⟨rfl, h⟩ | ⟨rfl, h⟩ | ⟨rfl, h⟩ <;> exact he
    · intro ha k' l' hk t ht he
      obtain ⟨rfl, rfl⟩ := hlk k' l' hk
      refine ha t ht ?_
      rcases h with ⟨rfl, h⟩ | ⟨rfl, h⟩ | ⟨rfl, h⟩ <;> exact he
  have hone : ∀ {t}, byName sets (filePrefix k ++ label) = some t →
      ((∀ t ∈ sets, t.name = filePrefix k ++ label → kindToMtype dim3 k = some t.dim) ↔ kindToMtype dim3 k = some t.dim) := by
    intro t ht
    obtain ⟨h1, h2⟩ := setByName_name ht
    constructor
    · intro ha; exact ha t h1 h2
    · intro ha t' ht' he'
      have : t' = t := List.inj_on_of_nodup_map hu ht' h1 (he'.trans h2.symm)
      rw [this]; exact ha
  rw [hag]
  have hnone : byName sets (filePrefix k ++ label) = none →
      ∀ t ∈ sets, t.name = filePrefix k ++ label → kindToMtype dim3 k = some t.dim :=
    fun hb t ht he => absurd he (setByName_none.mp hb t ht)
  rcases h with ⟨rfl, h⟩ | ⟨rfl, h⟩ | ⟨rfl, h⟩
  all_goals
    unfold checkRegion initName
    rw [h]
    simp only [reduceIte, String.reduceEq]
    rw [hn]
    cases hb : byName sets (filePrefix _ ++ label) with
    | none => exact ⟨fun _ => hnone hb, fun _ => rfl⟩
    | some t =>
      rw [hone hb]
      dsimp only
      cases dim3 <;> cases hd : t.dim <;> simp [kindMismatch, kindToMtype]

/-- **C139** a mesh is completed exactly if the kinds of its sets agree with the regions, when the regions name their kinds in the long
spelling -/
theorem kinds_checked_partial {m : MMesh} (dim3 : Bool) (sets : List (MstkSet m)) (hu : (sets.map MstkSet.name).Nodup) (gm : List Rgn)
    (hl : ∀ r ∈ gm, r.labeled.isSome → ∃ k label, r.Long k label) :
    initSetInfo dim3 sets (some gm) = none ↔ ∀ r ∈ gm, Agrees dim3 sets r := by
  unfold initSetInfo
  dsimp only
  rw [List.findSome?_eq_none_iff]
  refine forall₂_congr fun r hr => ?_
  cases h : r.labeled with
  | none =>
    constructor
    · intro _ k label hk
      obtain ⟨str, hs⟩ := hk.labeled
      rw [h] at hs; cases hs
    · intro _
      unfold checkRegion
      rw [h]
  | some q =>
    obtain ⟨k, label, hlong⟩ := hl r hr (by rw [h]; rfl)
    exact checkRegion_long hu hlong

/-- **C139** on a mesh of solids the error is a message -/
theorem kinds_message {m : MMesh} (sets : List (MstkSet m)) (gm : Option (List Rgn)) {e : SetError} (h : initSetInfo true sets gm = some e) :
    e = .message := by
  unfold initSetInfo at h
  cases gm with
  | none => exact (Option.some.inj h).symm
  | some gm =>
    dsimp only at h
    obtain ⟨r, _, h⟩ := List.exists_of_findSome?_eq_some h
    unfold checkRegion at h
    split at h
    · cases h
    · split at h
      · cases h
      · split at h
        · simpa using (Option.some.inj h).symm
        · cases h

/-- the sets of two tetrahedra with a side set of cells, as a damaged file would give it -/
abbrev wrongSets : List (MstkSet twoTets) := [⟨"sideset_7", .region, [.r 0]⟩]

/-- a mismatch is found -/
example : initSetInfo true wrongSets (some [⟨"inlet", some ("Entity_kind::FACE", "7")⟩]) = some .message := by decide
/-- no mismatch for a set of faces -/
example : initSetInfo true ([⟨"sideset_7", .face, [.f 0]⟩] : List (MstkSet twoTets)) (some [⟨"inlet", some ("Entity_kind::FACE", "7")⟩]) =
    none := by decide

/-- **C139** is false: a region that names its kind in the short spelling, which the query accepts, is not checked -/
theorem kinds_checked_fails_short : ∃ r : Rgn, r.Asked .FACE "7" ∧ initSetInfo true wrongSets (some [r]) = none ∧
    ¬ Agrees true wrongSets r :=
  ⟨⟨"inlet", some ("FACE", "7")⟩, .inr (.inr (.inl ⟨rfl, rfl⟩)), by decide, fun h =>
    absurd (h .FACE "7" (.inr (.inr (.inl ⟨rfl, rfl⟩))) _ (List.mem_singleton_self _) rfl) (by decide)⟩

/-- **C139** is false: an element set is not checked, whatever the spelling -/
theorem kinds_checked_fails_elemset : initSetInfo true ([⟨"elemset_7", .vertex, [.v 0]⟩] : List (MstkSet twoTets))
    (some [⟨"rock", some ("Entity_kind::CELL", "7")⟩]) = none ∧
    ∃ own gh, twoTetsSrc.labeledEntities [⟨"elemset_7", .vertex, [.v 0]⟩] ⟨"rock", some ("Entity_kind::CELL", "7")⟩ .CELL = .made (own, gh) ∧
      own = [0] := ⟨by decide, _, _, rfl, by decide⟩

/-- **C139** is false: on a plane mesh the error has no message -/
theorem kinds_checked_bare : initSetInfo false wrongSets (some [⟨"inlet", some ("Entity_kind::FACE", "7")⟩]) = some .bare := by decide

end Jali.Mstk
