import Mathlib.Logic.Relation
import Mathlib.Data.Int.Order.Basic
import Verif.Model.MstkFile
import Verif.Model.Factory
/-
C141–C144: reading a mesh from a file.
-/
namespace Jali.MstkFile

variable {α : Type}

/-! ### C141: the reader -/

/-- the name ends with this extension -/
def HasExt (ext name : String) : Prop := ∃ base : String, name = base ++ ext

theorem found_of_ext {ext name : String} (h : HasExt ext name) : found ext name = true := by
  obtain ⟨base, rfl⟩ := h
  unfold found
  rw [String.toList_append]
  exact decide_eq_true (List.suffix_append _ _).isInfix

/-- **C141** a file with the extension `.exo` is read as an Exodus file -/
theorem exo_read (name : String) (h : HasExt ".exo" name) (n : Nat) (layers : Int) (c : Bool) (p : PartitionerType) (r : Rank α) :
    ∃ calls ok, load name n layers c p r = some (.importExodus :: calls, ok) := by
  unfold load initFromFile
  rw [if_pos (found_of_ext h)]
  split
  · exact ⟨_, _, rfl⟩
  · exact ⟨_, _, rfl⟩

/-- **C141** a file with the extension `.par` is read as a Nemesis file, if `.exo` is not in its name -/
theorem par_read_partial (name : String) (h : HasExt ".par" name) (he : ¬ ".exo".toList <:+: name.toList) (n : Nat) (layers : Int) (c : Bool)
    (p : PartitionerType) (r : Rank α) : ∃ calls ok, load name n layers c p r = some (.importNemesis :: calls, ok) := by
  unfold load initFromFile
  rw [if_neg (by simpa [found] using he), if_pos (found_of_ext h)]
  exact ⟨_, _, rfl⟩

/-- **C141** a name without one of these is refused, and only such a name is -/
theorem other_refused (name : String) (n : Nat) (layers : Int) (c : Bool) (p : PartitionerType) (r : Rank α) :
    load name n layers c p r = none ↔ ¬ ".exo".toList <:+: name.toList ∧ ¬ ".par".toList <:+: name.toList := by
  unfold load initFromFile found
  by_cases h1 : ".exo".toList <:+: name.toList
  · rw [if_pos (by simpa using h1)]
    split
    · exact ⟨fun h => (by cases h), fun h => absurd h1 h.1⟩
    · exact ⟨fun h => (by cases h), fun h => absurd h1 h.1⟩
  · rw [if_neg (by simpa using h1)]
    by_cases h2 : ".par".toList <:+: name.toList
    · rw [if_pos (by simpa using h2)]; exact ⟨fun h => (by cases h), fun h => absurd h2 h.2⟩
    · rw [if_neg (by simpa using h2)]; exact ⟨fun _ => ⟨h1, h2⟩, fun _ => rfl⟩

example : HasExt ".par" "mesh.par" := ⟨"mesh", rfl⟩
example : ¬ ".exo".toList <:+: "mesh.par".toList := by decide

/-- **C141** is false: a file with the extension `.par` in a directory `run.exo` is given to the reader of Exodus files -/
theorem par_read_fails : HasExt ".par" "run.exo/mesh.par" ∧ ∀ (r : Rank Int) n layers c p,
    ∃ calls ok, load "run.exo/mesh.par" n layers c p r = some (.importExodus :: calls, ok) := by
  refine ⟨⟨"run.exo/mesh", rfl⟩, fun r n layers c p => ?_⟩
  unfold load initFromFile
  rw [if_pos (show found ".exo" "run.exo/mesh.par" = true by decide)]
  split
  · exact ⟨_, _, rfl⟩
  · exact ⟨_, _, rfl⟩

/-- **C141** is false: a file with another extension is not refused -/
theorem other_refused_fails : ¬ HasExt ".exo" "data.exo/notes.txt" ∧ ¬ HasExt ".par" "data.exo/notes.txt" ∧
    ∀ r : Rank Int, (load "data.exo/notes.txt" 1 1 false .METIS r).isSome = true := by
  have key : ∀ ext : String, ext.toList.length = 4 → ext.toList ≠ ".txt".toList → ¬ HasExt ext "data.exo/notes.txt" := by
    rintro ext h4 hne ⟨base, hb⟩
    have h1 := congrArg String.toList hb
    rw [String.toList_append] at h1
    have h2 : ext.toList = "data.exo/notes.txt".toList.drop ("data.exo/notes.txt".toList.length - 4) := by
      rw [h1, List.length_append, h4, Nat.add_sub_cancel, List.drop_left]
    rw [h2] at hne
    exact hne (by decide)
  refine ⟨key _ (by decide) (by decide), key _ (by decide) (by decide), fun r => ?_⟩
  unfold load initFromFile
  rw [if_pos (show found ".exo" "data.exo/notes.txt" = true by decide)]
  rfl

/-! ### C142: distribution -/

/-- **C142** a mesh from one file is distributed over several ranks with the ghost layers that were asked for, and its global ids are
renumbered exactly if that was asked for; the method is METIS -/
theorem distributed_partial (name : String) (h : HasExt ".exo" name) {n : Nat} (hn : 1 < n) (layers : Int) (c : Bool) (p : PartitionerType)
    (r : Rank α) : ∃ calls ok, load name n layers c p r = some (calls, ok) ∧
      (∀ d l m, Call.distribute d l m ∈ calls ↔ d = dimOf r.regionsRead ∧ l = layers ∧ m = PartitionerType.METIS.code - 2) ∧
      (Call.renumberGids ∈ calls ↔ c = true) ∧
      (p = .METIS → Call.distribute (dimOf r.regionsRead) layers (p.code - 2) ∈ calls) := by
  unfold load initFromFile
  rw [if_pos (found_of_ext h), if_pos hn]
  refine ⟨_, _, rfl, ?_, ?_, ?_⟩
  · intro d l m; cases c <;> simp
  · cases c <;> simp
  · rintro rfl; cases c <;> simp

/-- **C142** is false: a partitioner other than METIS is not used -/
theorem partitioner_ignored (name : String) (h : HasExt ".exo" name) {n : Nat} (hn : 1 < n) (layers : Int) (c : Bool) (p : PartitionerType)
    (hp : p ≠ .METIS) (r : Rank α) :
    ∃ calls ok, load name n layers c p r = some (calls, ok) ∧ ∀ d l, Call.distribute d l (p.code - 2) ∉ calls := by
  obtain ⟨calls, ok, h1, h2, _⟩ := distributed_partial name h hn layers c p r
  refine ⟨calls, ok, h1, fun d l hm => ?_⟩
  have := ((h2 d l _).mp hm).2.2
  cases p <;> simp [PartitionerType.code] at this hp

/-- **C142** a mesh on one rank is not distributed, a mesh in pieces is woven together with the ghost layers that were asked for -/
theorem not_distributed (name : String) (layers : Int) (c : Bool) (p : PartitionerType) (r : Rank α) {n : Nat} {calls : List Call} {ok : Bool}
    (h : load name n layers c p r = some (calls, ok)) :
    (n ≤ 1 → ∀ d l m, Call.distribute d l m ∉ calls) ∧
    (Call.importNemesis ∈ calls → ∀ d l, Call.weave d l ∈ calls ↔ d = dimOf r.regionsRead ∧ l = layers) := by
  unfold load initFromFile at h
  split at h
  · split at h
    · rename_i h1
      cases h
      exact ⟨fun h => absurd h1 (by omega), fun h => by cases c <;> simp at h⟩
    · cases h
      exact ⟨fun _ d l m => by simp, fun h => by simp at h⟩
  · split at h
    · cases h
      exact ⟨fun _ d l m => by cases c <;> simp, fun _ d l => by cases c <;> simp⟩
    · cases h

/-- the default of the factory is not METIS, against its documentation; it is not used either -/
example : Jali.Factory.new.partitioner = .INDEX := rfl

/-! ### C143: the space dimension -/

section space

variable [DecidableEq α]

theorem planarDim_eq {l : List α} {d : Int} (h : planarDim l = some d) : (d = 2 ∧ ∀ x ∈ l, ∀ y ∈ l, x = y) ∨ (d = 3 ∧ ∃ x ∈ l, ∃ y ∈ l, x ≠ y) := by
  cases l with
  | nil => cases h
  | cons z l =>
    have h := Option.some.inj h
    by_cases ha : (z :: l).all (· = z) = true
    · rw [if_pos ha] at h
      left
      rw [List.all_eq_true] at ha
      refine ⟨h.symm, fun x hx y hy => ?_⟩
      rw [of_decide_eq_true (ha x hx), of_decide_eq_true (ha y hy)]
    · rw [if_neg ha] at h
      right
      simp only [List.all_eq_true, decide_eq_true_eq, not_forall] at ha
      obtain ⟨x, hx, hxz⟩ := ha
      exact ⟨h.symm, x, hx, z, List.mem_cons_self .., hxz⟩

theorem foldl_max (l : List Int) (a : Int) : (a ≤ l.foldl max a ∧ ∀ x ∈ l, x ≤ l.foldl max a) ∧ (l.foldl max a = a ∨ l.foldl max a ∈ l) := by
  induction l generalizing a with
  | nil => exact ⟨⟨le_refl _, fun x h => by cases h⟩, .inl rfl⟩
  | cons b l ih =>
    obtain ⟨⟨h1, h2⟩, h3⟩ := ih (max a b)
    rw [List.foldl_cons]
    refine ⟨⟨le_trans (le_max_left _ _) h1, fun x hx => ?_⟩, ?_⟩
    · rcases List.mem_cons.mp hx with rfl | hx
      · exact le_trans (le_max_right _ _) h1
      · exact h2 x hx
    · rcases h3 with h3 | h3
      · have e : max a b = a ∨ max a b = b := by omega
        rcases e with e | e
        · left; rw [h3, e]
        · right; rw [h3, e]; exact List.mem_cons_self ..
      · exact .inr (List.mem_cons_of_mem _ h3)

/-- the loading succeeded on all ranks -/
def Loaded (name : String) (layers : Int) (c : Bool) (p : PartitionerType) (rs : List (Rank α)) : Prop :=
  ∀ r ∈ rs, ∃ calls, load name rs.length layers c p r = some (calls, true)

/-- what the constructor does after a successful loading -/
theorem construct_loaded {name : String} {layers : Int} {c : Bool} {p : PartitionerType} {rs : List (Rank α)} (h : Loaded name layers c p rs) :
    construct name layers c p rs =
      let max := (rs.map fun r => dimOf r.regions).foldl Max.max 0
      if max = 2 then
        if rs.any fun r => (planarDim r.zs).isNone then rs.map fun r => if (planarDim r.zs).isNone then .undefined else .waits
        else rs.map fun _ => .made 2 ((rs.map fun r => (planarDim r.zs).getD 0).foldl Max.max 0)
      else rs.map fun r => if dimOf r.regions ≠ max then .throws else .made max 3 := by
  unfold construct
  dsimp only
  rw [if_neg]
  rw [Bool.not_eq_true, List.any_eq_false]
  intro l hl
  obtain ⟨r, hr, rfl⟩ := List.mem_map.mp hl
  obtain ⟨calls, hc⟩ := h r hr
  rw [hc]
  simp

/-- the ranks have polygons and vertices -/
structure Surface (rs : List (Rank α)) : Prop where
  some : rs ≠ []
  polygons : ∀ r ∈ rs, r.regions = 0
  vertices : ∀ r ∈ rs, r.zs ≠ []

theorem surface_construct {name : String} {layers : Int} {c : Bool} {p : PartitionerType} {rs : List (Rank α)} (h : Loaded name layers c p rs)
    (hs : Surface rs) :
    construct name layers c p rs = rs.map fun _ => .made 2 ((rs.map fun r => (planarDim r.zs).getD 0).foldl Max.max 0) := by
  have h2 : (rs.map fun r => dimOf r.regions).foldl Max.max 0 = 2 := by
    obtain ⟨⟨_, h1⟩, h3⟩ := foldl_max (rs.map fun r => dimOf r.regions) 0
    have key : ∀ x ∈ rs.map fun r => dimOf r.regions, x = 2 := by
      intro x hx
      obtain ⟨r, hr, rfl⟩ := List.mem_map.mp hx
      unfold dimOf; rw [if_pos (hs.polygons r hr)]
    obtain ⟨r, hr⟩ := List.exists_mem_of_ne_nil _ hs.some
    rcases h3 with h3 | h3
    · have := h1 (dimOf r.regions) (List.mem_map.mpr ⟨r, hr, rfl⟩)
      rw [key _ (List.mem_map.mpr ⟨r, hr, rfl⟩), h3] at this
      omega
    · exact key _ h3
  rw [construct_loaded h]
  dsimp only
  rw [if_pos h2, if_neg]
  rw [Bool.not_eq_true, List.any_eq_false]
  intro r hr
  have := hs.vertices r hr
  cases hz : r.zs with
  | nil => exact absurd hz this
  | cons z l => simp [planarDim]

/-- **C143** the space dimension of a mesh of polygons is the same on all ranks; it is 2 exactly if on each rank all third coordinates
are the same, otherwise 3 -/
theorem space_dimension (name : String) (layers : Int) (c : Bool) (p : PartitionerType) (rs : List (Rank α)) (h : Loaded name layers c p rs)
    (hs : Surface rs) : ∃ d, (construct name layers c p rs = rs.map fun _ => .made 2 d) ∧ (d = 2 ∨ d = 3) ∧
      (d = 2 ↔ ∀ r ∈ rs, ∀ x ∈ r.zs, ∀ y ∈ r.zs, x = y) := by
  refine ⟨_, surface_construct h hs, ?_⟩
  obtain ⟨⟨_, h1⟩, h3⟩ := foldl_max (rs.map fun r => (planarDim r.zs).getD 0) 0
  generalize (rs.map fun r => (planarDim r.zs).getD 0).foldl max 0 = d at *
  have key : ∀ r ∈ rs, ((planarDim r.zs).getD 0 = 2 ∧ ∀ x ∈ r.zs, ∀ y ∈ r.zs, x = y) ∨
      ((planarDim r.zs).getD 0 = 3 ∧ ∃ x ∈ r.zs, ∃ y ∈ r.zs, x ≠ y) := by
    intro r hr
    cases hz : planarDim r.zs with
    | none =>
      have := hs.vertices r hr
      cases hl : r.zs with
      | nil => exact absurd hl this
      | cons z l => rw [hl] at hz; cases hz
    | some d => exact planarDim_eq hz
  obtain ⟨r0, hr0⟩ := List.exists_mem_of_ne_nil _ hs.some
  have h4 : ∀ r ∈ rs, (planarDim r.zs).getD 0 ≤ d := fun r hr => h1 _ (List.mem_map.mpr ⟨r, hr, rfl⟩)
  have h5 : ∃ r ∈ rs, (planarDim r.zs).getD 0 = d := by
    rcases h3 with h3 | h3
    · have := h4 r0 hr0
      rcases key r0 hr0 with ⟨e, _⟩ | ⟨e, _⟩ <;> rw [e] at this <;> omega
    · obtain ⟨r, hr, e⟩ := List.mem_map.mp h3
      exact ⟨r, hr, e⟩
  obtain ⟨r1, hr1, e1⟩ := h5
  refine ⟨by rcases key r1 hr1 with ⟨e, _⟩ | ⟨e, _⟩ <;> rw [e1] at e <;> [left; right] <;> exact e, ?_⟩
  constructor
  · intro hd r hr
    rcases key r hr with ⟨_, e⟩ | ⟨e, _⟩
    · exact e
    · have := h4 r hr; rw [e] at this; omega
  · intro ha
    rcases key r1 hr1 with ⟨e, _⟩ | ⟨_, x, hx, y, hy, e⟩
    · rw [← e1, e]
    · exact absurd (ha r1 hr1 x hx y hy) e

/-- two ranks have a node in common, hence a third coordinate -/
def Touch (r r' : Rank α) : Prop := ∃ z, z ∈ r.zs ∧ z ∈ r'.zs

/-- **C143** a mesh of polygons has space dimension 2 exactly if all its nodes have the same third coordinate, if the mesh is
connected: one gets from rank to rank over common nodes -/
theorem flat_iff_partial (name : String) (layers : Int) (c : Bool) (p : PartitionerType) (rs : List (Rank α)) (h : Loaded name layers c p rs)
    (hs : Surface rs) (hc : ∀ r ∈ rs, ∀ r' ∈ rs, Relation.ReflTransGen (fun a b => a ∈ rs ∧ b ∈ rs ∧ Touch a b) r r') :
    (construct name layers c p rs = rs.map fun _ => .made 2 2) ↔ ∀ r ∈ rs, ∀ r' ∈ rs, ∀ x ∈ r.zs, ∀ y ∈ r'.zs, x = y := by
  obtain ⟨d, h1, _, h3⟩ := space_dimension name layers c p rs h hs
  have h4 : (construct name layers c p rs = rs.map fun _ => .made 2 2) ↔ d = 2 := by
    rw [h1]
    obtain ⟨r, l, hrl⟩ := List.exists_cons_of_ne_nil hs.some
    constructor
    · intro e
      rw [hrl] at e
      have := (List.cons.inj e).1
      simpa using this
    · rintro rfl; rfl
  rw [h4, h3]
  constructor
  · intro ha r hr r' hr' x hx y hy
    have key : ∀ r', Relation.ReflTransGen (fun a b => a ∈ rs ∧ b ∈ rs ∧ Touch a b) r r' → r' ∈ rs → ∀ y ∈ r'.zs, x = y := by
      intro r' hw
      induction hw with
      | refl => exact fun _ y hy => ha r hr x hx y hy
      | tail _ hb ih =>
        obtain ⟨hb1, hb2, z, hz1, hz2⟩ := hb
        exact fun _ y hy => (ih hb1 z hz1).trans (ha _ hb2 z hz2 y hy)
    exact key r' (hc r hr r' hr') hr' y hy
  · intro ha r hr x hx y hy
    exact ha r hr r hr x hx y hy

end space

/-- a rank with two triangles at the third coordinate `z` -/
abbrev flatRank (z : Int) : Rank Int := ⟨true, true, true, true, 0, 0, [z, z, z, z]⟩

example : construct "mesh.exo" 1 true .METIS [flatRank 5, flatRank 5] = [.made 2 2, .made 2 2] := by decide
example : Loaded "mesh.exo" 1 true .METIS [flatRank 5, flatRank 5] := by
  intro r hr
  have : r = flatRank 5 := by simpa using hr
  subst this
  exact ⟨_, rfl⟩
example : Surface [flatRank 5, flatRank 5] := ⟨by simp, by simp, by simp⟩

/-- **C143** is false: two separate pieces, each in a plane of its own, are taken for a mesh in one plane -/
theorem flat_iff_fails : construct "mesh.exo" 1 true .METIS [flatRank 0, flatRank 1] = [.made 2 2, .made 2 2] := by decide

/-! ### C144: all ranks alike -/

/-- **C144** if the name is refused, it is on all ranks -/
theorem refused_everywhere [DecidableEq α] (name : String) (h1 : ¬ ".exo".toList <:+: name.toList) (h2 : ¬ ".par".toList <:+: name.toList)
    (layers : Int) (c : Bool) (p : PartitionerType) (rs : List (Rank α)) : construct name layers c p rs = rs.map fun _ => .throws := by
  have h : ∀ r : Rank α, load name rs.length layers c p r = none := fun r => (other_refused name _ layers c p r).mpr ⟨h1, h2⟩
  unfold construct
  dsimp only
  cases rs with
  | nil => rfl
  | cons r l =>
    rw [if_pos (by rw [List.map_cons, List.any_cons, h r]; rfl), List.map_map]
    refine List.map_congr_left fun r' hr => ?_
    show (if (load name (r :: l).length layers c p _).any _ then _ else _) = _
    rw [h]
    rfl

/-- **C144** a mesh of polyhedra that has cells on all ranks is made on all ranks, with space dimension 3 -/
theorem solids_everywhere_partial [DecidableEq α] (name : String) (layers : Int) (c : Bool) (p : PartitionerType) (rs : List (Rank α))
    (h : Loaded name layers c p rs) (hr : ∀ r ∈ rs, r.regions ≠ 0) : construct name layers c p rs = rs.map fun _ => .made 3 3 := by
  cases hn : rs with
  | nil => rfl
  | cons r0 l0 =>
    rw [← hn]
    have key : ∀ r ∈ rs, dimOf r.regions = 3 := fun r h => if_neg (hr r h)
    have h3 : (rs.map fun r => dimOf r.regions).foldl Max.max 0 = 3 := by
      obtain ⟨⟨_, h1⟩, h3⟩ := foldl_max (rs.map fun r => dimOf r.regions) 0
      have h0 : r0 ∈ rs := by rw [hn]; exact List.mem_cons_self ..
      have h4 := h1 _ (List.mem_map.mpr ⟨r0, h0, rfl⟩)
      rw [key r0 h0] at h4
      rcases h3 with h3 | h3
      · rw [h3] at h4; omega
      · obtain ⟨r, hr, e⟩ := List.mem_map.mp h3
        rw [← e, key r hr]
    rw [construct_loaded h]
    dsimp only
    rw [h3, if_neg (by decide)]
    refine List.map_congr_left fun r hr => ?_
    rw [if_neg (by simpa using key r hr)]

/-- a call of MSTK succeeds on a rank -/
def Rank.succeeds (r : Rank α) : Call → Prop
  | .importExodus => r.importOk = true
  | .importNemesis => r.importOk = true
  | .distribute .. => r.distributeOk = true
  | .weave .. => r.weaveOk = true
  | .renumberGids => r.gidsOk = true
  | _ => True

/-- **C144** the loading succeeds exactly if all calls of MSTK do -/
theorem failures_noticed (name : String) (layers : Int) (c : Bool) (p : PartitionerType) (r : Rank α) {n : Nat} {calls : List Call} {ok : Bool}
    (h : load name n layers c p r = some (calls, ok)) : ok = true ↔ ∀ a ∈ calls, r.succeeds a := by
  unfold load initFromFile at h
  split at h
  · split at h
    · cases h; cases c <;> simp [Rank.succeeds, and_assoc]
    · cases h; simp [Rank.succeeds]
  · split at h
    · cases h; cases c <;> simp [Rank.succeeds, and_assoc]
    · cases h

/-- **C144** there is a mesh on no rank, if a call of MSTK fails on some rank -/
theorem no_mesh_after_failure [DecidableEq α] (name : String) (layers : Int) (c : Bool) (p : PartitionerType) (rs : List (Rank α))
    {r : Rank α} (hr : r ∈ rs) {calls : List Call} {ok : Bool} (h : load name rs.length layers c p r = some (calls, ok)) {a : Call}
    (ha : a ∈ calls) (hf : ¬ r.succeeds a) : ∀ x ∈ construct name layers c p rs, x = .throws ∨ x = .waits := by
  have hok : ok = false := by
    cases ok with
    | false => rfl
    | true => exact absurd ((failures_noticed name layers c p r h).mp rfl a ha) hf
  unfold construct
  dsimp only
  rw [if_pos]
  · intro x hx
    obtain ⟨l, _, rfl⟩ := List.mem_map.mp hx
    split
    · exact .inr rfl
    · exact .inl rfl
  · rw [List.any_eq_true]
    exact ⟨_, List.mem_map.mpr ⟨r, hr, rfl⟩, by rw [h, hok]; rfl⟩

/-- two ranks with tetrahedra -/
abbrev solidRank : Rank Int := ⟨true, true, true, true, 2, 1, [0, 0, 0, 1]⟩
example : construct "mesh.exo" 1 false .METIS [solidRank, solidRank] = [.made 3 3, .made 3 3] := by decide

/-- **C144** is false: if there are more ranks than cells, the ranks without cells throw and the others do not -/
theorem ranks_differ : construct "mesh.exo" 1 false .METIS [solidRank, { solidRank with regions := 0, zs := [] }] = [.made 3 3, .throws] := by
  decide

/-- **C144** is false: if MSTK fails on one rank only, the others wait for it -/
theorem rank_waits : construct "mesh.par" 1 false .METIS [solidRank, { solidRank with importOk := false }] = [.waits, .throws] := by
  decide

/-- **C144** is false: on a mesh of polygons a rank without cells reads a null pointer -/
theorem rank_without_vertices : construct "mesh.exo" 1 false .METIS [flatRank 0, { flatRank 0 with zs := [] }] = [.waits, .undefined] := by
  decide

end Jali.MstkFile
