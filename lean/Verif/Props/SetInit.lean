import Verif.Spec.SetInit
import Mathlib.Tactic.Tauto
import Verif.Props.SetRegistry
import Verif.Proof.SetInit
/-! Property theorems C74 – C77: point regions, circular regions, initialisation of sets from the geometric model. -/
namespace Jali.Reg
open Jali.MSet

variable {P K : Type} [Field K] [LinearOrder K]

/-! ### C74: point regions -/

theorem nearestNode_spec (g : Geo P K) (p : P) : ∀ (ns : List Nat) (m : K) (best : Option Nat) (n : Nat),
    (∀ k, best = some k → g.dist2 (g.nodeCoord k) p = m) → nearestNode g p ns m best = some n →
    (best = some n ∨ n ∈ ns) ∧
    (g.dist2 (g.nodeCoord n) p ≤ 1 / 10 ^ 32 ∨
      (g.dist2 (g.nodeCoord n) p ≤ m ∧ ∀ k ∈ ns, g.dist2 (g.nodeCoord n) p ≤ g.dist2 (g.nodeCoord k) p)) := by
  intro ns
  induction ns with
  | nil =>
    intro m best n hb h
    simp only [nearestNode] at h
    exact ⟨Or.inl h, Or.inr ⟨(hb n h).le, by simp⟩⟩
  | cons x xs ih =>
    intro m best n hb h
    simp only [nearestNode] at h
    split at h
    · rename_i hlt
      split at h
      · rename_i hle
        injection h with h; subst h
        exact ⟨Or.inr (by simp), Or.inl hle⟩
      · obtain ⟨h1, h2⟩ := ih _ (some x) n (fun k hk => by injection hk with hk; rw [hk]) h
        refine ⟨Or.inr ?_, ?_⟩
        · rcases h1 with h1 | h1
          · injection h1 with h1; simp [h1]
          · simp [h1]
        · rcases h2 with h2 | ⟨h2, h3⟩
          · exact Or.inl h2
          · refine Or.inr ⟨h2.trans hlt.le, fun k hk => ?_⟩
            rcases List.mem_cons.1 hk with rfl | hk
            exacts [h2, h3 k hk]
    · rename_i hge
      obtain ⟨h1, h2⟩ := ih m best n hb h
      refine ⟨h1.imp_right (fun h => by simp [h]), ?_⟩
      rcases h2 with h2 | ⟨h2, h3⟩
      · exact Or.inl h2
      · refine Or.inr ⟨h2, fun k hk => ?_⟩
        rcases List.mem_cons.1 hk with rfl | hk
        exacts [h2.trans (not_lt.1 hge), h3 k hk]

/-- **C74 (partial).** The cell set of a point region: if it is made, there is a node `n`, nearest to the point (or
within 1e-16 of it), such that the set holds exactly the cells around `n` that contain the point, each once. Missing
against the full property: cells that contain the point but not the nearest node. -/
theorem point_region_cells_partial {g : Geo P K} {gm : List (Region P)} {w : World} {r : Region P}
    (hf : Fits g gm w .CELL) (name : String) (hr : findRegion gm name = some r) (ht : r.type = .POINT) (p : P)
    (hp : r.point = some p) (d : Nat) (b : Bool) (a : Nat) (w' : World)
    (h : build g gm d w name .CELL b = .ok (some a, w')) :
    ∃ n s, n < (w.view .NODE).nAll ∧
      (g.dist2 (g.nodeCoord n) p ≤ 1 / 10 ^ 32 ∨
        ∀ k, k < (w.view .NODE).nAll → g.dist2 (g.nodeCoord n) p ≤ g.dist2 (g.nodeCoord k) p) ∧
      w'.heap = w.heap ++ [s] ∧ w'.reg = w.reg ++ [a] ∧ a = w.heap.length ∧ s.name = name ∧
      (∀ c, c ∈ entities s .ALL ↔ c ∈ g.nodeCells n ∧ g.pointInCell p c = true) ∧ (entities s .ALL).Nodup := by
  have hbuild : ∃ l, regionLists g w .CELL r = .ok (some l) := by
    cases hl : regionLists g w .CELL r with
    | error e => cases d <;> rw [build] at h <;> simp only [hr, hl] at h <;> cases h
    | ok x =>
      cases x with
      | some l => exact ⟨l, rfl⟩
      | none =>
        cases d <;> rw [build] at h <;> simp only [hr, hl] at h <;> rw [if_neg (by rw [ht]; decide)] at h <;>
          cases h
  obtain ⟨⟨o, gh⟩, hl⟩ := hbuild
  obtain ⟨g1, g2, g3, g4⟩ := regionLists_good hf (findRegion_mem hr).1 hl
  obtain ⟨s, hmk, m1, m2, m3, m4, m5, m6, m7⟩ := makeMeshset_ok (n := name) (b := b) g1 g2 g3 g4
  have hb : build g gm d w name .CELL b = .ok (some w.heap.length, withSet w s false) := by
    cases d <;> rw [build] <;> simp only [hr, hl, hmk]
  rw [hb] at h
  injection h with h; injection h with h1 h2; injection h1 with h1
  subst h1 h2
  simp only [regionLists, cellLists, ht, hp, pointCells] at hl
  split at hl
  · cases hl
  · rename_i n hn
    injection hl with hl; injection hl with hl
    obtain ⟨k1, k2⟩ := nearestNode_spec g p _ _ _ n (fun k hk => by cases hk) hn
    have hlt : n < (w.view .NODE).nAll := by
      rcases k1 with k1 | k1
      · cases k1
      · exact List.mem_range.1 k1
    refine ⟨n, s, hlt, ?_, withSet_heap _ _ _, rfl, rfl, m1, fun c => ?_, m6.nodup⟩
    · rcases k2 with k2 | k2
      · exact Or.inl k2
      · exact Or.inr fun k hk => k2.2 k (List.mem_range.2 hk)
    · show c ∈ s.all ↔ _
      rw [Proper.mem_all m6, m4, m5]
      have ho : o = (splitByType (w.view .CELL) ((g.nodeCells n).filter fun c => g.pointInCell p c)).1 := by rw [hl]
      have hg : gh = (splitByType (w.view .CELL) ((g.nodeCells n).filter fun c => g.pointInCell p c)).2 := by rw [hl]
      rw [ho, hg, mem_split.1, mem_split.2, List.mem_filter]
      constructor
      · rintro (h | h) <;> exact h.1
      · intro h
        have hc := (hf.nodeCells rfl n).2 c h.1
        by_cases hlt : c < (w.view .CELL).nOwned
        · exact Or.inl ⟨h, (hf.ownedFirst.1 c).2 hlt⟩
        · exact Or.inr ⟨h, (hf.ownedFirst.2 c).2 ⟨by omega, hc⟩⟩

/-- **C74, negation.** When every node is 1e8 or farther from the point (or the mesh has no nodes), the cells around
node -1 are asked for: undefined behaviour. -/
theorem point_far_away_undefined (g : Geo P K) (gm : List (Region P)) (w : World) (r : Region P) (name : String)
    (hr : findRegion gm name = some r) (ht : r.type = .POINT) (p : P) (hp : r.point = some p)
    (hfar : ∀ k, k < (w.view .NODE).nAll → 10 ^ 16 ≤ g.dist2 (g.nodeCoord k) p) (d : Nat) (b : Bool) :
    build g gm d w name .CELL b = .error .undefinedBehaviour := by
  have hnone : ∀ ns : List Nat, (∀ k ∈ ns, 10 ^ 16 ≤ g.dist2 (g.nodeCoord k) p) →
      nearestNode g p ns (10 ^ 16) none = none := by
    intro ns
    induction ns with
    | nil => intro _; rfl
    | cons x xs ih =>
      intro h
      simp only [nearestNode]
      rw [if_neg (not_lt.2 (h x (by simp)))]
      exact ih fun k hk => h k (by simp [hk])
  have hl : regionLists g w .CELL r = .error .undefinedBehaviour := by
    simp only [regionLists, cellLists, ht, hp, pointCells]
    rw [hnone _ fun k hk => hfar k (List.mem_range.1 hk)]
  cases d <;> rw [build] <;> simp only [hr, hl]

/-! The witness: a square and a triangle on the left of it whose apex is near the square. -/

/-- corners of the two cells -/
def sqCorners : Nat → List (Rat × Rat)
  | 0 => [(0, -10), (10, -10), (10, 10), (0, 10)]
  | 1 => [(0, -10), (0, 10), (-1, 0)]
  | _ => []
/-- node coordinates -/
def sqNode : Nat → Rat × Rat
  | 0 => (0, -10) | 1 => (10, -10) | 2 => (10, 10) | 3 => (0, 10) | _ => (-1, 0)
/-- `p` is not to the right of any side of the counterclockwise convex polygon: it is in it -/
def inConvex (p : Rat × Rat) (c : List (Rat × Rat)) : Bool :=
  (c.zip (c.drop 1 ++ c.take 1)).all fun ab =>
    decide (0 ≤ (ab.2.1 - ab.1.1) * (p.2 - ab.1.2) - (ab.2.2 - ab.1.2) * (p.1 - ab.1.1))
/-- the mesh of the two cells -/
def sqG : Geo (Rat × Rat) :=
  ⟨2, true, fun _ => (0, 0), fun _ => (0, 0), sqNode, sqCorners, fun _ => [],
   fun n => (List.range 2).filter fun c => decide (sqNode n ∈ sqCorners c),
   fun p c => inConvex p (sqCorners c),
   fun a b => (a.1 - b.1) * (a.1 - b.1) + (a.2 - b.2) * (a.2 - b.2)⟩
/-- two cells, five nodes -/
def sqW : World :=
  ⟨fun k => if k = .NODE then ⟨fun e => if e < 5 then .PARALLEL_OWNED else .TYPE_UNKNOWN, 5, 0⟩
    else ⟨fun e => if e < 2 then .PARALLEL_OWNED else .TYPE_UNKNOWN, 2, 0⟩, [], []⟩
/-- the point (1/2, 0) -/
def sqPoint : Region (Rat × Rat) :=
  ⟨"pt", .POINT, 0, false, fun p => p == (1/2, 0), some (1/2, 0), .NOBOOLEAN, [], "", ([], [])⟩

/-- **C74, negation.** The cell set of a point region can miss the cell that contains the point: (1/2, 0) is inside the
square, but the nearest node is the apex (-1, 0) of the triangle, which is not a corner of the square, and the set is
empty. -/
theorem point_region_misses_cell :
    sqG.pointInCell (1/2, 0) 0 = true ∧
    ∃ w' s, build sqG [sqPoint] 0 sqW "pt" .CELL true = .ok (some 0, w') ∧ w'.heap[0]? = some s ∧
      entities s .ALL = [] := by
  refine ⟨by decide +kernel, ?_⟩
  have h : nearestNode sqG (1/2, 0) (List.range 5) (10 ^ 16) none = some 4 := by decide +kernel
  have h2 : ((sqG.nodeCells 4).filter fun c => sqG.pointInCell (1/2, 0) c) = [] := by decide +kernel
  have hl : regionLists sqG sqW .CELL sqPoint = .ok (some ([], [])) := by
    simp only [regionLists, cellLists, sqPoint, pointCells]
    rw [show (sqW.view .NODE).nAll = 5 from rfl, h]
    simp only [h2, splitByType, List.filter_nil]
  obtain ⟨s, hmk, -, -, -, ho, hg, hp, -⟩ := makeMeshset_ok (w := sqW) (n := "pt") (k := .CELL) (o := []) (g := [])
    (b := true) (by simp) (by simp) (by simp) (by simp)
  refine ⟨withSet sqW s false, s, ?_, withSet_get _ _ _, ?_⟩
  · rw [build]
    simp only [show findRegion [sqPoint] "pt" = some sqPoint from rfl, hl, hmk]
    rfl
  · show s.all = []
    rw [hp.all_eq, ho, hg]; rfl

theorem sq_fits : Fits sqG [sqPoint] sqW .CELL := by
  refine ⟨⟨fun e => ?_, fun e => ?_⟩, fun _ n => ⟨List.nodup_range.filter _, fun c hc => ?_⟩, fun r hr ht => ?_⟩
  · simp only [sqW, reduceCtorEq, if_false]; split <;> simp <;> omega
  · simp only [sqW, reduceCtorEq, if_false, MeshView.nAll]; split <;> simp <;> omega
  · exact List.mem_range.1 (List.mem_filter.1 hc).1
  · simp only [List.mem_singleton] at hr; subst hr; cases ht

/-- the hypotheses of `point_region_cells_partial` are met by the same mesh -/
example : Fits sqG [sqPoint] sqW .CELL ∧ findRegion [sqPoint] "pt" = some sqPoint ∧ sqPoint.type = .POINT :=
  ⟨sq_fits, rfl, rfl⟩

example : ∀ k, k < (sqW.view .NODE).nAll →
    10 ^ 16 ≤ sqG.dist2 (sqG.nodeCoord k) ((10 : Rat) ^ 9, 0) := by decide +kernel

/-! ### C75: circular regions -/

/-- **C75, negation.** Logical regions that refer to each other in a circle: if every region of a family is logical
and its first component is again in the family, and no set of these names was made before, building the set never ends:
every recursion depth is exceeded. -/
theorem circular_regions_never_end (g : Geo P K) (gm : List (Region P)) (w : World) (kind : EntityKind) (b : Bool)
    (X : String → Prop)
    (hX : ∀ n, X n → findMeshset w n kind = none ∧ ∃ r c cs, findRegion gm n = some r ∧ r.type = .LOGICAL ∧
      r.comps = c :: cs ∧ X c) (n : String) (hn : X n) :
    ∀ d, build g gm d w n kind b = .error .tooDeep := by
  intro d
  induction d generalizing n with
  | zero =>
    obtain ⟨-, r, c, cs, hr, ht, hc, -⟩ := hX n hn
    rw [build]; simp only [hr, logical_none ht, ht, if_true]
  | succ d ih =>
    obtain ⟨-, r, c, cs, hr, ht, hc, hcX⟩ := hX n hn
    obtain ⟨hfm, rc, _, _, hrc, -⟩ := hX c hcX
    have : components g gm d w kind b r.comps = .error .tooDeep := by
      rw [hc, components_cons]
      simp only [hrc, hfm, ih c hcX]
    rw [build_succ]
    simp only [hr, logical_none ht, ht, if_true, this]

/-- two regions that refer to each other -/
def exLoop : List (Region Nat) := [exLog "A" .UNION ["B", "B"], exLog "B" .INTERSECT ["A"]]

example : ∀ n, (n = "A" ∨ n = "B") → findMeshset exW n .CELL = none ∧ ∃ r c cs, findRegion exLoop n = some r ∧
    r.type = .LOGICAL ∧ r.comps = c :: cs ∧ (c = "A" ∨ c = "B") := by
  rintro n (rfl | rfl)
  · exact ⟨rfl, _, "B", ["B"], rfl, rfl, rfl, Or.inr rfl⟩
  · exact ⟨rfl, _, "A", [], rfl, rfl, rfl, Or.inl rfl⟩

/-- **C75 (partial).** Where logical regions are nested without a circle (`Ready` with some nesting depth), building
the set ends, whatever larger depth is allowed. -/
theorem nested_regions_end_partial {g : Geo P K} {gm : List (Region P)} {w : World} {kind : EntityKind}
    {D : String → Nat → Prop} (hf : Fits g gm w kind) (hs : Sane gm w kind) (hm : Meaning g gm w kind D)
    (hi : InOrder gm w kind D) (d d' : Nat) (hd : d ≤ d') (n : String) (hr : Ready g gm w kind d n) (b : Bool) :
    ∃ a w', build g gm d' w n kind b = .ok (some a, w') := by
  have hmono : ∀ (d : Nat) (n : String), Ready g gm w kind d n → ∀ d', d ≤ d' → Ready g gm w kind d' n := by
    intro d n h
    induction h with
    | prim d n r l h1 h2 h3 => intro d' _; exact .prim d' n r l h1 h2 h3
    | logical d n r h1 h2 h3 h4 h5 _ ih =>
      intro d' hd'
      obtain ⟨e, rfl⟩ : ∃ e, d' = e + 1 := ⟨d' - 1, by omega⟩
      exact .logical e n r h1 h2 h3 h4 h5 fun c hc => ih c hc e (by omega)
  exact build_total (hmono d n hr d' hd) w rfl hf hs hm hi

example : ∃ a w', build exG exGm 10 exW "S" .CELL true = .ok (some a, w') :=
  nested_regions_end_partial exGm_fits exGm_sane exGm_meaning exGm_inOrder 2 10 (by decide) "S" exGm_ready true

/-! ### C76: initialisation of the sets from the geometric model -/

theorem labelKind_names {s : String} {k : EntityKind} : labelKind s = some k ↔ NamesKind s k := by
  unfold labelKind NamesKind
  constructor
  · intro h
    split at h
    · obtain rfl := Option.some.inj h; exact ⟨_, rfl, ‹_›⟩
    · split at h
      · obtain rfl := Option.some.inj h; exact ⟨_, rfl, ‹_›⟩
      · split at h
        · obtain rfl := Option.some.inj h; exact ⟨_, rfl, ‹_›⟩
        · split at h
          · obtain rfl := Option.some.inj h; exact ⟨_, rfl, ‹_›⟩
          · cases h
  · rintro ⟨n, hn, h⟩
    cases k <;> simp only [kindName, Option.some.injEq, reduceCtorEq] at hn <;> subst hn <;> rcases h with rfl | rfl <;> decide

theorem labeledKind_spec {gm : List (Region P)} {r : Region P} : ∀ {ns : List String} {o : Option EntityKind}, labeledKind gm ns = .ok o →
    match o with
    | none => ∀ n ∈ ns, ∃ c, findRegion gm n = some c ∧ c.type ≠ .LABELEDSET
    | some k => ∃ pre n post c, ns = pre ++ n :: post ∧ (∀ n ∈ pre, ∃ c, findRegion gm n = some c ∧ c.type ≠ .LABELEDSET) ∧
        findRegion gm n = some c ∧ c.type = .LABELEDSET ∧ NamesKind c.entityStr k := by
  intro ns
  induction ns with
  | nil => intro o h; simp only [labeledKind, Except.ok.injEq] at h; subst h; simp
  | cons n ns ih =>
    intro o h
    rw [labeledKind] at h
    split at h
    · cases h
    · rename_i c hc
      split at h
      · rename_i ht
        split at h
        · cases h
        · rename_i k hk
          obtain rfl := Except.ok.inj h
          exact ⟨[], n, ns, c, rfl, by simp, hc, ht, labelKind_names.1 hk⟩
      · rename_i ht
        have := ih h
        cases o with
        | none =>
          intro m hm
          rcases List.mem_cons.mp hm with rfl | hm
          · exact ⟨c, hc, ht⟩
          · exact this m hm
        | some k =>
          obtain ⟨pre, m, post, c', h1, h2, h3⟩ := this
          refine ⟨n :: pre, m, post, c', by rw [h1]; rfl, ?_, h3⟩
          intro x hx
          rcases List.mem_cons.mp hx with rfl | hx
          · exact ⟨c, hc, ht⟩
          · exact h2 x hx

theorem mem_defaultKinds {g : Geo P K} {gdim : Nat} {r : Region P} (k : EntityKind) : k ∈ defaultKinds g gdim r ↔ DefaultKind g gdim r k := by
  have e : (gdim - 1 ≤ r.dim) ↔ gdim ≤ r.dim + 1 := by omega
  unfold defaultKinds DefaultKind
  by_cases h1 : r.dim = gdim <;> by_cases h2 : g.facesRequested = true <;> by_cases h3 : gdim - 1 ≤ r.dim <;>
    simp [h1, h2, h3, ← e] <;> tauto

/-- the kinds a region is built for are those asked for -/
theorem kinds_asked_for {g : Geo P K} {gm : List (Region P)} {gdim : Nat} {req : String → Option (List EntityKind)} {r : Region P}
    {ks : List EntityKind} (h : kindsFor g gm gdim req r = .ok ks) : AskedFor g gm gdim req r ks := by
  have fin : NoLabel gm r r.comps → AskedFor g gm gdim req r ((req r.name).getD (defaultKinds g gdim r)) := by
    intro hn
    cases hr : req r.name with
    | none => exact .default _ hn hr fun k => mem_defaultKinds k
    | some ks => exact .caller ks hn hr
  unfold kindsFor at h
  split at h
  · rename_i hl
    split at h
    · cases h
    · rename_i k hk
      obtain rfl := Except.ok.inj h
      obtain ⟨pre, n, post, c, h1, h2, h3, h4, h5⟩ := labeledKind_spec (r := r) hk
      exact .labeled pre n post c k hl h1 (fun _ => h2) h3 h4 h5
    · rename_i hk
      obtain rfl := Except.ok.inj h
      exact fin fun _ => labeledKind_spec (r := r) hk
  · rename_i hl
    obtain rfl := Except.ok.inj h
    exact fin fun e => absurd e hl

/-- **C76 (partial).** After a successful `init_sets_from_geometric_model`:
* any set found under a region's name, of any kind, holds exactly the entities of that kind that belong to the region;
* sets that existed before are unchanged and still found;
* a labeled set region has its set of its own kind; any other region that is not temporary has either a CELL set, or
a set of every kind asked for (the kinds given by the caller, or the default kinds, or the kind of a labeled
component).
Missing against the full property: the other kinds of a region whose CELL set was there when its turn came (see
`init_skips_requested_kind`), and the conditions of C36. -/
theorem init_sets_partial {g : Geo P K} {gm : List (Region P)} (D : EntityKind → String → Nat → Prop) {w w' : World}
    (hf : ∀ k, Fits g gm w k) (hs : ∀ k, Sane gm w k) (hm : ∀ k, Meaning g gm w k (D k))
    (hi : ∀ k, InOrder gm w k (D k)) (depth gdim : Nat) (req : String → Option (List EntityKind))
    (h : initSets g gm depth gdim req w = .ok w') :
    (∀ n k a s r, findRegion gm n = some r → findMeshset w' n k = some a → w'.heap[a]? = some s →
      ∀ e, e ∈ entities s .ALL ↔ D k n e) ∧
    (w.heap <+: w'.heap ∧ ∀ n k a, findMeshset w n k = some a → findMeshset w' n k = some a) ∧
    (∀ r ∈ gm, r.type = .LABELEDSET → (∀ r', findRegion gm r.name = some r' → r'.type = .LOGICAL →
      r'.temporary = false) → ∃ k, NamesKind r.entityStr k ∧
        (k ≠ .EDGE → ∃ a, findMeshset w' r.name k = some a)) ∧
    (∀ r ∈ gm, r.type ≠ .LABELEDSET → (∀ r', findRegion gm r.name = some r' → r'.type = .LOGICAL →
      r'.temporary = false) → (∃ a, findMeshset w' r.name .CELL = some a) ∨
        ∃ ks, AskedFor g gm gdim req r ks ∧ ∀ k ∈ ks, k = .CELL ∨ k = .FACE ∨ k = .NODE →
          ∃ a, findMeshset w' r.name k = some a) := by
  obtain ⟨h1, h2, h3⟩ := Inv.regions gm ⟨hf, hs, hm, hi⟩ h
  refine ⟨?_, ⟨h2.heap, fun n k a ha => find_stable (hi .CELL).reg h2 ha⟩, ?_, ?_⟩
  · intro n k a s r hr ha hs'
    obtain ⟨hreg, s', hs'', hn, hk⟩ := findMeshset_some ha
    rw [hs'] at hs''
    injection hs'' with hs''
    subst hs''
    have := (h1.order k).holds a hreg s hs' hk ⟨r, by rw [hn]; exact hr⟩
    rw [hn] at this
    exact this
  · intro r hr hl ht
    have := h3 r hr ht
    rw [if_pos hl] at this
    obtain ⟨k, hk, hk'⟩ := this
    exact ⟨k, labelKind_names.1 hk, fun hne => Option.isSome_iff_exists.1 (hk' hne)⟩
  · intro r hr hl ht
    have := h3 r hr ht
    rw [if_neg hl] at this
    rcases this with this | ⟨ks, h4, h5⟩
    · exact Or.inl (Option.isSome_iff_exists.1 this)
    · exact Or.inr ⟨ks, kinds_asked_for h4, fun k hk hkk => Option.isSome_iff_exists.1 (h5 k hk hkk)⟩

theorem ok_of_check {x : Except Err World} {p : World → Prop} [DecidablePred p]
    (h : (match x with | .ok w => decide (p w) | .error _ => false) = true) : ∃ w, x = .ok w ∧ p w := by
  cases x with
  | error e => cases h
  | ok w => exact ⟨w, rfl, of_decide_eq_true h⟩

/-- regions of the examples below: boxes A, B and their union L -/
def exGm2 : List (Region Nat) := [exBox "A" 0 1, exBox "B" 1 2, exLog "L" .UNION ["A", "B"]]
/-- the same with the union first -/
def exGm3 : List (Region Nat) := [exLog "L" .UNION ["A", "B"], exBox "A" 0 1, exBox "B" 1 2]
/-- cells of L, cells and nodes of A -/
def exReq (n : String) : Option (List EntityKind) :=
  if n = "L" then some [.CELL] else if n = "A" then some [.CELL, .NODE] else none

/-- **C76, negation.** The result depends on the order of the regions: with L before its components, the set of nodes of
A that the caller asked for is not made, because the cell set of A was already made for L; with A first, it is. -/
theorem init_skips_requested_kind :
    (∃ w', initSets exG exGm3 5 3 exReq exW = .ok w' ∧ findMeshset w' "A" .NODE = none ∧
      (findMeshset w' "L" .CELL).isSome) ∧
    ∃ w', initSets exG exGm2 5 3 exReq exW = .ok w' ∧ (findMeshset w' "A" .NODE).isSome :=
  ⟨ok_of_check (by decide +kernel), ok_of_check (by decide +kernel)⟩

/-- **C76, negation.** In two dimensions no cell set is made for a logical region unless it is asked for by name:
the dimension of a logical region is always 3. -/
theorem no_cell_set_for_logical_in_2d (g : Geo P K) (gm : List (Region P)) (req : String → Option (List EntityKind))
    (r : Region P) (ht : r.type = .LOGICAL) (hd : r.dim = 3) (hreq : req r.name = none)
    (hl : labeledKind gm r.comps = .ok none) :
    ∃ ks, kindsFor g gm 2 req r = .ok ks ∧ EntityKind.CELL ∉ ks := by
  refine ⟨_, by simp only [kindsFor, ht, if_true, hl, hreq]; rfl, ?_⟩
  simp only [Option.getD_none, defaultKinds, hd]
  rw [if_neg (by decide)]
  split <;> simp

/-- two-dimensional boxes A and B and their union: after initialisation the cells of L are not found -/
def exGm4 : List (Region Nat) :=
  [{ exBox "A" 0 1 with dim := 2 }, { exBox "B" 1 2 with dim := 2 }, exLog "L" .UNION ["A", "B"]]

example : ∃ w', initSets exG exGm4 5 2 (fun _ => none) exW = .ok w' ∧ (findMeshset w' "A" .CELL).isSome ∧
    (findMeshset w' "L" .NODE).isSome ∧ findMeshset w' "L" .CELL = none :=
  ok_of_check (by decide +kernel)

/-- a plane region -/
def exGm5 : List (Region Nat) := [{ exBox "F" 0 1 with type := .PLANE, dim := 2 }]

/-- **C76, negation.** Calling it twice makes the sets of lower-dimensional regions twice: a plane region has no CELL
set, so nothing tells that its FACE and NODE sets are there. -/
theorem init_twice_duplicates :
    ∃ w1, initSets exG exGm5 5 3 (fun _ => none) exW = .ok w1 ∧ numSets w1 .ANY_KIND = 2 ∧
      match initSets exG exGm5 5 3 (fun _ => none) w1 with
      | .ok w2 => numSets w2 .ANY_KIND = 4
      | .error _ => False := by
  obtain ⟨w1, h1, h2, h3⟩ : ∃ w1, initSets exG exGm5 5 3 (fun _ => none) exW = .ok w1 ∧ numSets w1 .ANY_KIND = 2 ∧
      (match initSets exG exGm5 5 3 (fun _ => none) w1 with
      | .ok w2 => decide (numSets w2 .ANY_KIND = 4)
      | .error _ => false) = true := ok_of_check (by decide +kernel)
  refine ⟨w1, h1, h2, ?_⟩
  split <;> rename_i heq <;> rw [heq] at h3
  · exact of_decide_eq_true h3
  · cases h3

/-- hypotheses of `init_sets_partial` in a concrete case, with the regions of `exGm` -/
example : (∀ k, Fits exG exGm exW k) ∧ (∀ k, Sane exGm exW k) ∧ ∀ k, InOrder exGm exW k exD := by
  refine ⟨fun k => ⟨exV_ownedFirst, fun _ n => ?_, fun r hr ht => ?_⟩, fun k => ?_, fun k =>
    ⟨(fun a ha => by cases ha), (fun s hs => by cases hs), (fun a ha => by cases ha)⟩⟩
  · exact exGm_fits.nodeCells rfl n
  · exact exGm_fits.labeled r hr ht ∘ fun h => by
      simp only [exGm, List.mem_cons, List.not_mem_nil, or_false] at hr
      rcases hr with rfl | rfl | rfl | rfl <;> simp [exLog, exBox] at ht
  · exact ⟨exGm_sane.union, exGm_sane.diff, fun _ _ _ _ => rfl⟩

/-! ### C77: queries by region -/

/-- **C77.** A name is valid for a kind exactly if the region of that name (no two have the same) suits the kind. -/
theorem valid_iff_suits (mdim : Nat) (n : String) (k : EntityKind) (gm : List (Region P)) (hn : (gm.map (·.name)).Nodup) :
    validRegionName mdim n k gm = true ↔ ∃ r ∈ gm, r.name = n ∧ Suits mdim k r := by
  induction gm with
  | nil => simp [validRegionName]
  | cons r rs ih =>
    rw [List.map_cons, List.nodup_cons] at hn
    have ih := ih hn.2
    rw [validRegionName]
    by_cases h : r.name = n
    · rw [if_pos h]
      have hno : ¬ ∃ r' ∈ rs, r'.name = n ∧ Suits mdim k r' := by
        rintro ⟨r', hr', e, _⟩
        exact hn.1 (List.mem_map.mpr ⟨r', hr', by rw [e, h]⟩)
      have hv : validRegionName mdim n k rs = false := by
        rw [← Bool.not_eq_true, ih]; exact hno
      have key : (∃ r' ∈ r :: rs, r'.name = n ∧ Suits mdim k r') ↔ Suits mdim k r := by
        simp only [List.mem_cons, exists_eq_or_imp]
        constructor
        · rintro (⟨_, h⟩ | h)
          · exact h
          · exact absurd h hno
        · exact fun hs => .inl ⟨h, hs⟩
      rw [key, hv]
      unfold Suits
      have e : (mdim - 1 ≤ r.dim) ↔ mdim ≤ r.dim + 1 := by omega
      split
      · simp
      · split
        · cases k <;> simp [kindName, eq_comm]
        · rw [← e]
          cases k <;> simp
    · rw [if_neg h, ih]
      simp [h]

/-- **C77.** `find_meshset_from_region(name, kind, create)`: null if the name is not valid for the kind; else the
registered set of that name and kind; else, if asked to create, the set of the region. A valid name is the name of a
region of the geometric model. -/
theorem find_from_region (g : Geo P K) (gm : List (Region P)) (depth mdim : Nat) (w : World) (n : String)
    (k : EntityKind) (create : Bool) :
    (validRegionName mdim n k gm = false → findFromRegion g gm depth mdim w n k create = .ok (none, w)) ∧
    (validRegionName mdim n k gm = true → (∃ r ∈ gm, r.name = n) ∧
      (∀ a, findMeshset w n k = some a → findFromRegion g gm depth mdim w n k create = .ok (some a, w)) ∧
      (findMeshset w n k = none → findFromRegion g gm depth mdim w n k create =
        if create then build g gm depth w n k true else .ok (none, w))) := by
  refine ⟨fun h => by simp [findFromRegion, h], fun h => ⟨?_, fun a ha => by simp [findFromRegion, h, ha],
    fun ha => by simp [findFromRegion, h, ha]⟩⟩
  induction gm with
  | nil => cases h
  | cons r rs ih =>
    by_cases hn : r.name = n
    · exact ⟨r, by simp, hn⟩
    · rw [validRegionName, if_neg hn] at h
      obtain ⟨r', hr', hn'⟩ := ih h
      exact ⟨r', by simp [hr'], hn'⟩

/-- **C77, negation.** A labeled set region declared with the entity string "Entity_kind::CELL" gets its
set at initialisation (example below), but `find_meshset_from_region` does not find it, because the name is not valid. -/
theorem labeled_region_not_valid (mdim : Nat) (r : Region P) (h : r.type = .LABELEDSET)
    (hs : r.entityStr = "Entity_kind::CELL") (k : EntityKind) : validRegionName mdim r.name k [r] = false := by
  unfold validRegionName
  rw [if_pos rfl, if_neg (by rw [h]; decide), if_pos h, hs]
  cases k <;> decide

/-- cells 1 and 2 carry the label -/
def exGm6 : List (Region Nat) :=
  [{ exBox "F" 0 1 with type := .LABELEDSET, entityStr := "Entity_kind::CELL", labeled := ([1, 2], []) }]

example : ∃ w1, initSets exG exGm6 5 3 (fun _ => none) exW = .ok w1 ∧ (findMeshset w1 "F" .CELL).isSome ∧
    validRegionName 3 "F" .CELL exGm6 = false :=
  ok_of_check (by decide +kernel)

/-! ### C73: labeled sets -/

/-- **C73.** A labeled region answers for the kind its entity string names, and only for that kind: asked for cells,
faces or nodes, it yields its labeled entities when the string names that kind and an error otherwise. -/
theorem labeled_region_lists (g : Geo P K) (w : World) (kind : EntityKind) (r : Region P) (ht : r.type = .LABELEDSET)
    (hk : kind = .CELL ∨ kind = .FACE ∨ kind = .NODE) :
    (NamesKind r.entityStr kind → regionLists g w kind r = .ok (some r.labeled)) ∧
    (¬ NamesKind r.entityStr kind → regionLists g w kind r = .error .thrown) := by
  have key : ∀ n : String, kindName kind = some n →
      (NamesKind r.entityStr kind ↔ (r.entityStr = n ∨ r.entityStr = "Entity_kind::" ++ n)) := by
    intro n hn
    unfold NamesKind
    rw [hn]
    constructor
    · rintro ⟨m, hm, h⟩
      injection hm with hm
      rwa [hm]
    · exact fun h => ⟨n, rfl, h⟩
  rcases hk with rfl | rfl | rfl
  · rw [key "CELL" rfl]
    refine ⟨fun h => ?_, fun h => ?_⟩ <;> simp only [regionLists, cellLists, ht]
    · rw [if_neg]
      rintro ⟨h1, h2⟩
      exact h.elim h1 h2
    · rw [if_pos]
      exact ⟨fun h1 => h (.inl h1), fun h1 => h (.inr h1)⟩
  · rw [key "FACE" rfl]
    refine ⟨fun h => ?_, fun h => ?_⟩ <;> simp only [regionLists, faceLists, ht]
    · rw [if_neg]
      rintro ⟨h1, h2⟩
      exact h.elim h1 h2
    · rw [if_pos]
      exact ⟨fun h1 => h (.inl h1), fun h1 => h (.inr h1)⟩
  · rw [key "NODE" rfl]
    refine ⟨fun h => ?_, fun h => ?_⟩ <;> simp only [regionLists, nodeLists, ht]
    · rw [if_neg]
      rintro ⟨h1, h2⟩
      exact h.elim h1 h2
    · rw [if_pos]
      exact ⟨fun h1 => h (.inl h1), fun h1 => h (.inr h1)⟩

/-- **C73.** The set made for a labeled region whose entity string names the kind holds exactly the labeled entities,
each once, owned ones in OWNED and ghosts in GHOST; it is registered and nothing else changes. Of any other kind no set is
made and the call is an error. -/
theorem labeled_set_exact {g : Geo P K} {gm : List (Region P)} {w : World} {kind : EntityKind} {r : Region P}
    (hf : Fits g gm w kind) (n : String) (hr : findRegion gm n = some r) (ht : r.type = .LABELEDSET)
    (hk : kind = .CELL ∨ kind = .FACE ∨ kind = .NODE) (d : Nat) (b : Bool) :
    (NamesKind r.entityStr kind →
      ∃ w' s, build g gm d w n kind b = .ok (some w.heap.length, w') ∧
        w'.heap = w.heap ++ [s] ∧ w'.reg = w.reg ++ [w.heap.length] ∧ s.name = n ∧ s.kind = kind ∧
        entities s .PARALLEL_OWNED = r.labeled.1 ∧ entities s .PARALLEL_GHOST = r.labeled.2 ∧
        entities s .ALL = r.labeled.1 ++ r.labeled.2 ∧ (entities s .ALL).Nodup ∧ (b = true → IndexExact (w.view kind) s)) ∧
    (¬ NamesKind r.entityStr kind → build g gm d w n kind b = .error .thrown) := by
  refine ⟨fun h => ?_, fun h => ?_⟩
  · have hl := (labeled_region_lists g w kind r ht hk).1 h
    have hl' : regionLists g w kind r = .ok (some (r.labeled.1, r.labeled.2)) := hl
    obtain ⟨g1, g2, g3, g4⟩ := regionLists_good hf (findRegion_mem hr).1 hl'
    obtain ⟨s, hmk, m1, m2, m3, m4, m5, m6, m7⟩ := makeMeshset_ok (n := n) (b := b) g1 g2 g3 g4
    refine ⟨withSet w s false, s, ?_, withSet_heap _ _ _, rfl, m1, m2, m4, m5, ?_, m6.nodup, m7⟩
    · cases d <;> rw [build] <;> simp only [hr, hl', hmk]
    · rw [← m4, ← m5]; exact m6.all_eq
  · have hl := (labeled_region_lists g w kind r ht hk).2 h
    cases d <;> rw [build] <;> simp only [hr, hl]

/-- a labeled set of nodes 0 and 2 -/
def exLab : Region Nat := ⟨"L", .LABELEDSET, 3, false, fun _ => false, none, .NOBOOLEAN, [], "Entity_kind::NODE", ([0, 2], [])⟩

example : NamesKind exLab.entityStr .NODE ∧ ¬ NamesKind exLab.entityStr .CELL := by
  refine ⟨⟨"NODE", rfl, .inr rfl⟩, ?_⟩
  rintro ⟨n, hn, h⟩
  have hn' : n = "CELL" := by injection hn with hn; exact hn.symm
  rw [hn'] at h
  revert h
  decide

example : ∃ w' s, build exG [exLab] 0 exW "L" .NODE true = .ok (some 0, w') ∧ w'.heap = [s] ∧ entities s .ALL = [0, 2] :=
  ⟨_, _, rfl, rfl, rfl⟩

example : build exG [exLab] 0 exW "L" .CELL true = .error .thrown := rfl

end Jali.Reg
