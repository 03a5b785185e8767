import Verif.Spec.Lifetime
/-! Property theorems C167: which objects exist, and which questions use memory of objects that are gone. -/
namespace Jali.Life

/-- states hold vectors, vectors hold meshes and tiles, meshes hold tiles and sets: no circles of `shared_ptr`s -/
def Obj.rank : Obj → Nat
  | .state _ => 3
  | .vector _ => 2
  | .mesh _ _ => 1
  | _ => 0

def World.rank (w : World) (i : Nat) : Nat := ((w.objs[i]?).map Obj.rank).getD 0

structure World.Inv (w : World) : Prop where
  bound : ∀ i ∈ w.alive, i < w.objs.length
  down : ∀ p ∈ w.owned, w.rank p.2 < w.rank p.1
  obound : ∀ p ∈ w.owned, p.1 < w.objs.length ∧ p.2 < w.objs.length
  fix : ∀ i ∈ w.alive, i ∈ w.handles ∨ ∃ a ∈ w.alive, (a, i) ∈ w.owned
  have_ : ∀ i ∈ w.handles, i ∈ w.alive
  hold : ∀ p ∈ w.owned, p.1 ∈ w.alive → p.2 ∈ w.alive
  state : ∀ (i m : Nat), w.objs[i]? = some (.state m) → (i, m) ∈ w.owned ∧ ∃ g q, w.objs[m]? = some (.mesh g q)
  vector : ∀ (i d : Nat), w.objs[i]? = some (.vector d) → (i, d) ∈ w.owned ∧
    ((∃ g q, w.objs[d]? = some (.mesh g q)) ∨ ∃ m, w.objs[d]? = some (.tile m))
  tile : ∀ (i m : Nat), w.objs[i]? = some (.tile m) → (m, i) ∈ w.owned ∧ ∃ g q, w.objs[m]? = some (.mesh g q)
  mset : ∀ (i m : Nat), w.objs[i]? = some (.mset m) → ∃ g q, w.objs[m]? = some (.mesh g q)
  gm : ∀ (i g : Nat) q, w.objs[i]? = some (.mesh (some g) q) → w.objs[g]? = some .model
  par : ∀ (i : Nat) g (q : Nat), w.objs[i]? = some (.mesh g (some q)) → q < i ∧ ∃ q', w.objs[q]? = some (.mesh g q')

/-! ### destruction -/

theorem counted_iff (w : World) (a : List Nat) (i : Nat) :
    w.counted a i = true ↔ i ∈ w.handles ∨ ∃ x ∈ a, (x, i) ∈ w.owned := by
  unfold World.counted
  simp only [Bool.or_eq_true, List.contains_iff_mem, List.any_eq_true, Bool.and_eq_true, beq_iff_eq]
  constructor
  · rintro (h | ⟨⟨x, y⟩, h1, h2, h3⟩)
    · exact .inl h
    · obtain rfl : y = i := h2
      exact .inr ⟨x, h3, h1⟩
  · rintro (h | ⟨x, h1, h2⟩)
    · exact .inl h
    · exact .inr ⟨(x, i), h2, rfl, h1⟩

theorem settle_sub (w : World) (a : List Nat) : ∀ i ∈ w.settle a, i ∈ a := by
  unfold World.settle
  split
  · intro i hi
    exact (List.mem_filter.mp (settle_sub w (w.sweep a) i hi)).1
  · exact fun i h => h
termination_by a.length

/-- after the destructions every use count is positive -/
theorem settle_fix (w : World) (a : List Nat) : ∀ i ∈ w.settle a, w.counted (w.settle a) i = true := by
  unfold World.settle
  split
  · exact settle_fix w (w.sweep a)
  · rename_i h
    have hl : (w.sweep a).length = a.length := Nat.le_antisymm (List.length_filter_le _ _) (by omega)
    have := List.length_filter_eq_length_iff.mp hl
    exact this
termination_by a.length

/-- objects that hold one another up stay -/
theorem settle_keep (w : World) (a : List Nat) (S : Nat → Prop) (hS : ∀ i, S i → i ∈ a)
    (hc : ∀ i, S i → i ∈ w.handles ∨ ∃ x, S x ∧ (x, i) ∈ w.owned) : ∀ i, S i → i ∈ w.settle a := by
  unfold World.settle
  split
  · apply settle_keep w (w.sweep a) S _ hc
    intro i hi
    refine List.mem_filter.mpr ⟨hS i hi, (counted_iff ..).mpr ?_⟩
    rcases hc i hi with h | ⟨x, hx, ho⟩
    · exact .inl h
    · exact .inr ⟨x, hS x hx, ho⟩
  · exact hS
termination_by a.length

/-- what is reached by handles exists, from what existed before -/
theorem kept_settle (w : World) (hk : ∀ i, w.Kept i → i ∈ w.alive) : ∀ i, w.Kept i → i ∈ w.settle w.alive := by
  apply settle_keep w w.alive w.Kept hk
  intro i h
  cases h with
  | handle h => exact .inl h
  | held h1 h2 => exact .inr ⟨_, h1, h2⟩

theorem alive_kept {w : World} (down : ∀ p ∈ w.owned, w.rank p.2 < w.rank p.1)
    (fix : ∀ i ∈ w.alive, i ∈ w.handles ∨ ∃ a ∈ w.alive, (a, i) ∈ w.owned) :
    ∀ (n i : Nat), 4 - w.rank i ≤ n → w.rank i ≤ 3 → i ∈ w.alive → w.Kept i := by
  intro n
  induction n with
  | zero => intro i h1 h2; omega
  | succ n ih =>
    intro i h1 h2 hi
    rcases fix i hi with h | ⟨a, ha, ho⟩
    · exact .handle h
    · have := down _ ho
      have hr : w.rank a ≤ 3 := by
        unfold World.rank
        cases w.objs[a]? with
        | none => simp
        | some o => cases o <;> simp [Obj.rank]
      exact .held (ih a (by simp only at this; omega) hr ha) ho

theorem World.rank_le (w : World) (i : Nat) : w.rank i ≤ 3 := by
  unfold World.rank
  cases w.objs[i]? with
  | none => simp
  | some o => cases o <;> simp [Obj.rank]

theorem World.Inv.exists_iff {w : World} (h : w.Inv) (i : Nat) : w.Exists i ↔ w.Kept i := by
  constructor
  · exact alive_kept h.down h.fix 4 i (by omega) (w.rank_le i)
  · intro hk
    induction hk with
    | handle hh => exact h.have_ _ hh
    | held _ ho ih => exact h.hold _ ho ih

/-- removing handles or `shared_ptr`s, then destroying -/
theorem inv_release {w w' : World} (h : w.Inv) (ho : w'.objs = w.objs) (ha : w'.alive = w.alive)
    (hh : ∀ i ∈ w'.handles, i ∈ w.handles) (hw : ∀ p ∈ w'.owned, p ∈ w.owned)
    (hs : ∀ (i m : Nat), w.objs[i]? = some (.state m) → (i, m) ∈ w'.owned) (hv : ∀ (i m : Nat), w.objs[i]? = some (.vector m) → (i, m) ∈ w'.owned)
    (ht : ∀ (i m : Nat), w.objs[i]? = some (.tile m) → (m, i) ∈ w'.owned) : w'.release.Inv := by
  have hk : ∀ i, w'.Kept i → i ∈ w'.alive := by
    intro i hi
    rw [ha]
    induction hi with
    | handle hx => exact h.have_ _ (hh _ hx)
    | held _ hx ih => exact h.hold _ (hw _ hx) ih
  have hrank : ∀ i, w'.release.rank i = w.rank i := by
    intro i
    show ((w'.objs[i]?).map Obj.rank).getD 0 = _
    rw [ho]; rfl
  have fix : ∀ i ∈ w'.release.alive, i ∈ w'.release.handles ∨ ∃ a ∈ w'.release.alive, (a, i) ∈ w'.release.owned :=
    fun i hi => (counted_iff ..).mp (settle_fix w' w'.alive i hi)
  have down : ∀ p ∈ w'.release.owned, w'.release.rank p.2 < w'.release.rank p.1 := by
    intro p hp
    rw [hrank, hrank]
    exact h.down p (hw p hp)
  have keep : ∀ i, w'.release.Kept i → i ∈ w'.release.alive := by
    intro i hi
    apply kept_settle w' hk
    induction hi with
    | handle hx => exact .handle hx
    | held _ hx ih => exact .held ih hx
  constructor
  · intro i hi
    have := settle_sub w' w'.alive i hi
    rw [ha] at this
    show i < w'.objs.length
    rw [ho]
    exact h.bound i this
  · exact down
  · intro p hp
    show p.1 < w'.objs.length ∧ p.2 < w'.objs.length
    rw [ho]
    exact h.obound p (hw p hp)
  · exact fix
  · exact fun i hi => keep i (.handle hi)
  · intro p hp h1
    exact keep p.2 (.held (alive_kept down fix 4 p.1 (by omega) (World.rank_le ..) h1) hp)
  all_goals (show ∀ i, _)
  · intro i m hi
    replace hi : w'.objs[i]? = _ := hi
    rw [ho] at hi
    refine ⟨hs i m hi, ?_⟩
    show ∃ g q, w'.objs[m]? = _
    rw [ho]; exact (h.state i m hi).2
  · intro i m hi
    replace hi : w'.objs[i]? = _ := hi
    rw [ho] at hi
    refine ⟨hv i m hi, ?_⟩
    show (∃ g q, w'.objs[m]? = _) ∨ ∃ m', w'.objs[m]? = _
    rw [ho]; exact (h.vector i m hi).2
  · intro i m hi
    replace hi : w'.objs[i]? = _ := hi
    rw [ho] at hi
    refine ⟨ht i m hi, ?_⟩
    show ∃ g q, w'.objs[m]? = _
    rw [ho]; exact (h.tile i m hi).2
  · intro i m hi
    replace hi : w'.objs[i]? = _ := hi
    rw [ho] at hi
    show ∃ g q, w'.objs[m]? = _
    rw [ho]; exact h.mset i m hi
  · intro i g q hi
    replace hi : w'.objs[i]? = _ := hi
    rw [ho] at hi
    show w'.objs[g]? = _
    rw [ho]; exact h.gm i g q hi
  · intro i g q hi
    replace hi : w'.objs[i]? = _ := hi
    rw [ho] at hi
    refine ⟨(h.par i g q hi).1, ?_⟩
    show ∃ q', w'.objs[q]? = _
    rw [ho]; exact (h.par i g q hi).2

/-! ### creation -/

/-- what a new object may be, and who holds whom -/
def Fits (w : World) (holds holders : List Nat) : Obj → Prop
  | .model => holds = [] ∧ holders = []
  | .mesh g q => holds = [] ∧ holders = [] ∧ (∀ x : Nat, g = some x → w.objs[x]? = some .model) ∧
      (∀ x : Nat, q = some x → ∃ q', w.objs[x]? = some (.mesh g q'))
  | .tile m => holds = [] ∧ holders = [m] ∧ ∃ g q, w.objs[m]? = some (.mesh g q)
  | .mset m => holds = [] ∧ (holders = [m] ∨ holders = []) ∧ ∃ g q, w.objs[m]? = some (.mesh g q)
  | .state m => holds = [m] ∧ holders = [] ∧ ∃ g q, w.objs[m]? = some (.mesh g q)
  | .vector d => holds = [d] ∧ (holders = [] ∨ ∃ (s m : Nat), holders = [s] ∧ w.objs[s]? = some (.state m)) ∧
      ((∃ g q, w.objs[d]? = some (.mesh g q)) ∨ ∃ m, w.objs[d]? = some (.tile m))

theorem inv_make {w : World} (h : w.Inv) (o : Obj) (holds holders : List Nat) (given : Bool) (hf : Fits w holds holders o)
    (hx : ∀ x ∈ holds ++ holders, x ∈ w.alive) (hg : given = true ∨ holders ≠ []) : (w.make o holds holders given).Inv := by
  have old : ∀ i : Nat, i < w.objs.length → (w.objs ++ [o])[i]? = w.objs[i]? := fun i hi => List.getElem?_append_left hi
  have new : (w.objs ++ [o])[w.objs.length]? = some o := by simp
  have lt : ∀ {i : Nat} {x : Obj}, w.objs[i]? = some x → i < w.objs.length := fun hh => (List.getElem?_eq_some_iff.mp hh).1
  have up : ∀ {i : Nat} {x : Obj}, w.objs[i]? = some x → (w.objs ++ [o])[i]? = some x := fun hh => by rw [old _ (lt hh)]; exact hh
  have split : ∀ {i : Nat} {x : Obj}, (w.objs ++ [o])[i]? = some x → w.objs[i]? = some x ∨ (i = w.objs.length ∧ x = o) := by
    intro i x hh
    by_cases hi : i < w.objs.length
    · rw [old i hi] at hh; exact .inl hh
    · have hb := (List.getElem?_eq_some_iff.mp hh).1
      rw [List.length_append, List.length_singleton] at hb
      obtain rfl : i = w.objs.length := by omega
      rw [new] at hh
      exact .inr ⟨rfl, (Option.some.inj hh).symm⟩
  have rold : ∀ i, i < w.objs.length → (w.make o holds holders given).rank i = w.rank i := by
    intro i hi
    show (((w.objs ++ [o])[i]?).map Obj.rank).getD 0 = _
    rw [old i hi]; rfl
  have rnew : (w.make o holds holders given).rank w.objs.length = o.rank := by
    show (((w.objs ++ [o])[w.objs.length]?).map Obj.rank).getD 0 = _
    rw [new]; rfl
  have own : ∀ p, p ∈ (w.make o holds holders given).owned ↔ p ∈ w.owned ∨ (p.1 = w.objs.length ∧ p.2 ∈ holds) ∨ (p.1 ∈ holders ∧ p.2 = w.objs.length) := by
    rintro ⟨a, b⟩
    show (a, b) ∈ w.owned ++ holds.map _ ++ holders.map _ ↔ _
    simp only [List.mem_append, List.mem_map, Prod.mk.injEq]
    constructor
    · rintro ((h1 | ⟨x, h1, h2, h3⟩) | ⟨x, h1, h2, h3⟩)
      · exact .inl h1
      · exact .inr (.inl ⟨h2.symm, h3 ▸ h1⟩)
      · exact .inr (.inr ⟨h2 ▸ h1, h3.symm⟩)
    · rintro (h1 | ⟨h1, h2⟩ | ⟨h1, h2⟩)
      · exact .inl (.inl h1)
      · exact .inl (.inr ⟨b, h2, h1.symm, rfl⟩)
      · exact .inr ⟨a, h1, rfl, h2.symm⟩
  have al : ∀ i, i ∈ (w.make o holds holders given).alive ↔ i ∈ w.alive ∨ i = w.objs.length := by
    intro i; show i ∈ w.alive ++ [w.objs.length] ↔ _; simp
  have hb : ∀ x ∈ holds ++ holders, x < w.objs.length := fun x hh => h.bound x (hx x hh)
  have hn : w.objs.length ∉ w.alive := fun hh => by have := h.bound _ hh; omega
  constructor
  · intro i hi
    show i < (w.objs ++ [o]).length
    rw [List.length_append, List.length_singleton]
    rcases (al i).mp hi with hh | hh
    · have := h.bound i hh; omega
    · omega
  · intro p hp
    rcases (own p).mp hp with h1 | ⟨h1, h2⟩ | ⟨h1, h2⟩
    · obtain ⟨b1, b2⟩ := h.obound p h1
      rw [rold _ b1, rold _ b2]
      exact h.down p h1
    · rw [h1, rnew, rold _ (hb _ (List.mem_append_left _ h2))]
      revert hf
      cases o with
      | model => rintro ⟨rfl, _⟩; simp at h2
      | mesh g q => rintro ⟨rfl, _⟩; simp at h2
      | tile m => rintro ⟨rfl, _⟩; simp at h2
      | mset m => rintro ⟨rfl, _⟩; simp at h2
      | state m =>
        rintro ⟨rfl, _, g, q, hm⟩
        rw [List.mem_singleton] at h2
        rw [h2]; unfold World.rank; rw [hm]; simp [Obj.rank]
      | vector d =>
        rintro ⟨rfl, _, hd⟩
        rw [List.mem_singleton] at h2
        rw [h2]; unfold World.rank
        rcases hd with ⟨g, q, hm⟩ | ⟨m, hm⟩ <;> (rw [hm]; simp [Obj.rank])
    · rw [h2, rnew, rold _ (hb _ (List.mem_append_right _ h1))]
      revert hf
      cases o with
      | model => rintro ⟨_, rfl⟩; simp at h1
      | mesh g q => rintro ⟨_, rfl, _⟩; simp at h1
      | tile m =>
        rintro ⟨_, rfl, g, q, hm⟩
        rw [List.mem_singleton] at h1
        rw [h1]; unfold World.rank; rw [hm]; simp [Obj.rank]
      | mset m =>
        rintro ⟨_, h3, g, q, hm⟩
        rcases h3 with rfl | rfl
        · rw [List.mem_singleton] at h1
          rw [h1]; unfold World.rank; rw [hm]; simp [Obj.rank]
        · simp at h1
      | state m => rintro ⟨_, rfl, _⟩; simp at h1
      | vector d =>
        rintro ⟨_, h3, _⟩
        rcases h3 with rfl | ⟨s, m, rfl, hs⟩
        · simp at h1
        · rw [List.mem_singleton] at h1
          rw [h1]; unfold World.rank; rw [hs]; simp [Obj.rank]
  · intro p hp
    show p.1 < (w.objs ++ [o]).length ∧ p.2 < (w.objs ++ [o]).length
    rw [List.length_append, List.length_singleton]
    rcases (own p).mp hp with h1 | ⟨h1, h2⟩ | ⟨h1, h2⟩
    · have := h.obound p h1; omega
    · have := hb _ (List.mem_append_left _ h2); omega
    · have := hb _ (List.mem_append_right _ h1); omega
  · intro i hi
    rcases (al i).mp hi with hh | hh
    · rcases h.fix i hh with h1 | ⟨a, h1, h2⟩
      · left
        show i ∈ (if given then _ else _)
        split
        · exact List.mem_cons_of_mem _ h1
        · exact h1
      · exact .inr ⟨a, (al a).mpr (.inl h1), (own _).mpr (.inl h2)⟩
    · subst hh
      cases given with
      | true => exact .inl (List.mem_cons_self ..)
      | false =>
        rcases hg with hg | hg
        · simp at hg
        · obtain ⟨x, hxx⟩ := List.exists_mem_of_ne_nil _ hg
          exact .inr ⟨x, (al x).mpr (.inl (hx x (List.mem_append_right _ hxx))), (own _).mpr (.inr (.inr ⟨hxx, rfl⟩))⟩
  · intro i hi
    replace hi : i ∈ (if given then w.objs.length :: w.handles else w.handles) := hi
    refine (al i).mpr ?_
    split at hi
    · rcases List.mem_cons.mp hi with hh | hh
      · exact .inr hh
      · exact .inl (h.have_ i hh)
    · exact .inl (h.have_ i hi)
  · intro p hp h1
    refine (al _).mpr ?_
    rcases (own p).mp hp with h2 | ⟨_, h2⟩ | ⟨_, h2⟩
    · rcases (al _).mp h1 with h3 | h3
      · exact .inl (h.hold p h2 h3)
      · have := h.obound p h2; omega
    · exact .inl (hx _ (List.mem_append_left _ h2))
    · exact .inr h2
  · intro i m hi
    rcases split hi with h1 | ⟨h1, h2⟩
    · obtain ⟨h3, g, q, h4⟩ := h.state i m h1
      exact ⟨(own _).mpr (.inl h3), g, q, up h4⟩
    · subst h1; subst h2
      obtain ⟨rfl, _, g, q, h4⟩ := hf
      exact ⟨(own _).mpr (.inr (.inl ⟨rfl, List.mem_singleton.mpr rfl⟩)), g, q, up h4⟩
  · intro i m hi
    rcases split hi with h1 | ⟨h1, h2⟩
    · obtain ⟨h3, h4⟩ := h.vector i m h1
      refine ⟨(own _).mpr (.inl h3), ?_⟩
      rcases h4 with ⟨g, q, h4⟩ | ⟨m', h4⟩
      · exact .inl ⟨g, q, up h4⟩
      · exact .inr ⟨m', up h4⟩
    · subst h1; subst h2
      obtain ⟨rfl, _, h4⟩ := hf
      refine ⟨(own _).mpr (.inr (.inl ⟨rfl, List.mem_singleton.mpr rfl⟩)), ?_⟩
      rcases h4 with ⟨g, q, h4⟩ | ⟨m', h4⟩
      · exact .inl ⟨g, q, up h4⟩
      · exact .inr ⟨m', up h4⟩
  · intro i m hi
    rcases split hi with h1 | ⟨h1, h2⟩
    · obtain ⟨h3, g, q, h4⟩ := h.tile i m h1
      exact ⟨(own _).mpr (.inl h3), g, q, up h4⟩
    · subst h1; subst h2
      obtain ⟨_, rfl, g, q, h4⟩ := hf
      exact ⟨(own _).mpr (.inr (.inr ⟨List.mem_singleton.mpr rfl, rfl⟩)), g, q, up h4⟩
  · intro i m hi
    rcases split hi with h1 | ⟨h1, h2⟩
    · obtain ⟨g, q, h4⟩ := h.mset i m h1
      exact ⟨g, q, up h4⟩
    · subst h1; subst h2
      obtain ⟨_, _, g, q, h4⟩ := hf
      exact ⟨g, q, up h4⟩
  · intro i g q hi
    rcases split hi with h1 | ⟨h1, h2⟩
    · exact up (h.gm i g q h1)
    · subst h1; subst h2
      obtain ⟨_, _, h3, _⟩ := hf
      exact up (h3 g rfl)
  · intro i g q hi
    rcases split hi with h1 | ⟨h1, h2⟩
    · obtain ⟨h3, q', h4⟩ := h.par i g q h1
      exact ⟨h3, q', up h4⟩
    · subst h1; subst h2
      obtain ⟨_, _, _, h3⟩ := hf
      obtain ⟨q', h4⟩ := h3 q rfl
      exact ⟨lt h4, q', up h4⟩

theorem isMesh_iff {w : World} {i : Nat} : w.isMesh i = true ↔ i ∈ w.alive ∧ ∃ g q, w.objs[i]? = some (.mesh g q) := by
  unfold World.isMesh
  rw [Bool.and_eq_true, List.contains_iff_mem]
  refine and_congr Iff.rfl ?_
  split <;> simp_all

theorem isDomain_iff {w : World} {i : Nat} : w.isDomain i = true ↔
    i ∈ w.alive ∧ ((∃ g q, w.objs[i]? = some (.mesh g q)) ∨ ∃ m, w.objs[i]? = some (.tile m)) := by
  unfold World.isDomain
  rw [Bool.and_eq_true, List.contains_iff_mem]
  refine and_congr Iff.rfl ?_
  split <;> simp_all

theorem isState_iff {w : World} {i : Nat} : w.isState i = true ↔ i ∈ w.alive ∧ ∃ m, w.objs[i]? = some (.state m) := by
  unfold World.isState
  rw [Bool.and_eq_true, List.contains_iff_mem]
  refine and_congr Iff.rfl ?_
  split <;> simp_all

theorem isSet_iff {w : World} {i : Nat} : w.isSet i = true ↔ i ∈ w.alive ∧ ∃ m, w.objs[i]? = some (.mset m) := by
  unfold World.isSet
  rw [Bool.and_eq_true, List.contains_iff_mem]
  refine and_congr Iff.rfl ?_
  split <;> simp_all

theorem isModel_some {w : World} {g : Nat} (h : w.isModel (some g) = true) : w.objs[g]? = some .model := by
  unfold World.isModel at h
  rw [Bool.and_eq_true] at h
  have h2 := h.2
  split at h2
  · assumption
  · simp at h2

theorem inv_step {w w' : World} (h : w.Inv) (op : Op) (hs : w.step op = some w') : w'.Inv := by
  cases op with
  | newModel =>
    cases hs
    exact inv_make h _ _ _ _ ⟨rfl, rfl⟩ (by simp) (.inl rfl)
  | newMesh gm =>
    simp only [World.step] at hs
    split at hs
    · rename_i hg
      cases hs
      refine inv_make h _ _ _ _ ⟨rfl, rfl, ?_, by simp⟩ (by simp) (.inl rfl)
      rintro x rfl
      exact isModel_some hg
    · cases hs
  | extract p =>
    simp only [World.step] at hs
    split at hs
    · split at hs
      · rename_i gm q ho
        cases hs
        refine inv_make h _ _ _ _ ⟨rfl, rfl, ?_, ?_⟩ (by simp) (.inl rfl)
        · rintro x rfl; exact h.gm p x q ho
        · rintro x ⟨⟩; exact ⟨q, ho⟩
      · cases hs
    · cases hs
  | newTile m =>
    simp only [World.step] at hs
    split at hs
    · rename_i hm
      cases hs
      have := isMesh_iff.mp hm
      exact inv_make h _ _ _ _ ⟨rfl, rfl, this.2⟩ (by simpa using this.1) (.inr (by simp))
    · cases hs
  | newSet m =>
    simp only [World.step] at hs
    split at hs
    · rename_i hm
      cases hs
      have := isMesh_iff.mp hm
      exact inv_make h _ _ _ _ ⟨rfl, .inl rfl, this.2⟩ (by simpa using this.1) (.inl rfl)
    · cases hs
  | newTempSet m =>
    simp only [World.step] at hs
    split at hs
    · rename_i hm
      cases hs
      have := isMesh_iff.mp hm
      exact inv_make h _ _ _ _ ⟨rfl, .inr rfl, this.2⟩ (by simp) (.inl rfl)
    · cases hs
  | newState m =>
    simp only [World.step] at hs
    split at hs
    · rename_i hm
      cases hs
      have := isMesh_iff.mp hm
      exact inv_make h _ _ _ _ ⟨rfl, rfl, this.2⟩ (by simpa using this.1) (.inl rfl)
    · cases hs
  | addVector s d =>
    simp only [World.step] at hs
    split at hs
    · rename_i hm
      cases hs
      rw [Bool.and_eq_true] at hm
      have h1 := isState_iff.mp hm.1
      have h2 := isDomain_iff.mp hm.2
      obtain ⟨m, h3⟩ := h1.2
      exact inv_make h _ _ _ _ ⟨rfl, .inr ⟨s, m, rfl, h3⟩, h2.2⟩ (by simpa using ⟨h2.1, h1.1⟩) (.inr (by simp))
    · cases hs
  | newVector d =>
    simp only [World.step] at hs
    split at hs
    · rename_i hm
      cases hs
      have h2 := isDomain_iff.mp hm
      exact inv_make h _ _ _ _ ⟨rfl, .inl rfl, h2.2⟩ (by simpa using h2.1) (.inl rfl)
    · cases hs
  | useSet s t =>
    simp only [World.step] at hs
    split at hs
    · rename_i hm
      cases hs
      rw [Bool.and_eq_true] at hm
      obtain ⟨a1, m1, b1⟩ := isState_iff.mp hm.1
      obtain ⟨a2, m2, b2⟩ := isSet_iff.mp hm.2
      have mem : ∀ p, p ∈ w.owned ++ [(s, t)] ↔ p ∈ w.owned ∨ p = (s, t) := by simp
      constructor
      · exact h.bound
      · intro p hp
        rcases (mem p).mp hp with h1 | rfl
        · exact h.down p h1
        · show w.rank t < w.rank s
          unfold World.rank
          rw [b1, b2]; simp [Obj.rank]
      · intro p hp
        rcases (mem p).mp hp with h1 | rfl
        · exact h.obound p h1
        · exact ⟨h.bound _ a1, h.bound _ a2⟩
      · intro i hi
        rcases h.fix i hi with h1 | ⟨a, h1, h2⟩
        · exact .inl h1
        · exact .inr ⟨a, h1, (mem _).mpr (.inl h2)⟩
      · exact h.have_
      · intro p hp h1
        rcases (mem p).mp hp with h2 | rfl
        · exact h.hold p h2 h1
        · exact a2
      · exact fun i m hi => ⟨(mem _).mpr (.inl (h.state i m hi).1), (h.state i m hi).2⟩
      · exact fun i m hi => ⟨(mem _).mpr (.inl (h.vector i m hi).1), (h.vector i m hi).2⟩
      · exact fun i m hi => ⟨(mem _).mpr (.inl (h.tile i m hi).1), (h.tile i m hi).2⟩
      · exact h.mset
      · exact h.gm
      · exact h.par
    · cases hs
  | forget s t =>
    simp only [World.step] at hs
    split at hs
    · rename_i hm
      cases hs
      rw [Bool.and_eq_true] at hm
      obtain ⟨_, m1, b1⟩ := isState_iff.mp hm.1
      obtain ⟨_, m2, b2⟩ := isSet_iff.mp hm.2
      refine inv_release h rfl rfl (fun _ h => h) (fun p hp => (List.mem_filter.mp hp).1) ?_ ?_ ?_
      · intro i m hi
        refine List.mem_filter.mpr ⟨(h.state i m hi).1, ?_⟩
        obtain ⟨_, g, q, h4⟩ := h.state i m hi
        simp only [bne_iff_ne, ne_eq, Prod.mk.injEq]
        rintro ⟨rfl, rfl⟩
        rw [b2] at h4; cases h4
      · intro i m hi
        refine List.mem_filter.mpr ⟨(h.vector i m hi).1, ?_⟩
        simp only [bne_iff_ne, ne_eq, Prod.mk.injEq]
        rintro ⟨rfl, rfl⟩
        rw [b1] at hi; cases hi
      · intro i m hi
        refine List.mem_filter.mpr ⟨(h.tile i m hi).1, ?_⟩
        simp only [bne_iff_ne, ne_eq, Prod.mk.injEq]
        rintro ⟨rfl, rfl⟩
        rw [b2] at hi; cases hi
    · cases hs
  | take i =>
    simp only [World.step] at hs
    split at hs
    · rename_i hi
      rw [List.contains_iff_mem] at hi
      have key : World.Inv { w with handles := i :: w.handles } := by
        constructor
        · exact h.bound
        · exact h.down
        · exact h.obound
        · intro x hx
          rcases h.fix x hx with h1 | h1
          · exact .inl (List.mem_cons_of_mem _ h1)
          · exact .inr h1
        · intro x hx
          rcases List.mem_cons.mp hx with rfl | h1
          · exact hi
          · exact h.have_ x h1
        · exact h.hold
        · exact h.state
        · exact h.vector
        · exact h.tile
        · exact h.mset
        · exact h.gm
        · exact h.par
      split at hs
      · cases hs
      · cases hs; exact key
    · cases hs
  | drop i =>
    simp only [World.step] at hs
    split at hs
    · cases hs
      exact inv_release h rfl rfl (fun _ h => List.mem_of_mem_erase h) (fun _ h => h) (fun i m hi => (h.state i m hi).1)
        (fun i m hi => (h.vector i m hi).1) (fun i m hi => (h.tile i m hi).1)
    · cases hs

theorem inv_run (ops : List Op) : ∀ {w w' : World}, w.Inv → w.run ops = some w' → w'.Inv := by
  induction ops with
  | nil => intro w w' h hr; cases hr; exact h
  | cons o os ih =>
    intro w w' h hr
    unfold World.run at hr
    rw [List.foldlM_cons] at hr
    obtain ⟨v, h1, h2⟩ := Option.bind_eq_some_iff.mp hr
    exact ih (inv_step h o h1) h2

theorem World.Reached.inv {w : World} (h : w.Reached) : w.Inv := by
  obtain ⟨ops, hr⟩ := h
  refine inv_run ops ?_ hr
  constructor <;> simp [World.empty]

/-! ### the properties -/

/-- **C167** in every history an object exists exactly as long as the program can get at it by `shared_ptr`s: nothing the program
holds is ever destroyed, and nothing is left when nothing is held -/
theorem exists_iff_kept {w : World} (h : w.Reached) :
    (∀ i, w.Exists i ↔ w.Kept i) ∧ (w.handles = [] → ∀ i, ¬ w.Exists i) := by
  refine ⟨h.inv.exists_iff, ?_⟩
  intro hn i hi
  have hk := (h.inv.exists_iff i).mp hi
  clear hi
  induction hk with
  | handle hh => rw [hn] at hh; simp at hh
  | held _ _ ih => exact ih

/-- **C167** giving up one pointer leaves all other pointers of the program, also further ones to the same object; so an object the
program has two pointers to survives -/
theorem drop_one {w w' : World} (h : w.Reached) (i : Nat) (hs : w.step (.drop i) = some w') :
    w'.Reached ∧ w'.objs = w.objs ∧ (∀ x, w'.handles.count x + (if x = i then 1 else 0) = w.handles.count x) ∧
    (2 ≤ w.handles.count i → w'.Exists i) := by
  have hr : w'.Reached := by
    obtain ⟨ops, ho⟩ := h
    refine ⟨ops ++ [.drop i], ?_⟩
    unfold World.run at ho ⊢
    rw [List.foldlM_append, ho]
    simpa using hs
  simp only [World.step] at hs
  split at hs
  · rename_i hm
    rw [List.contains_iff_mem] at hm
    have hc : ∀ x, w'.handles.count x + (if x = i then 1 else 0) = w.handles.count x := by
      cases hs
      intro x
      show (w.handles.erase i).count x + _ = _
      have := List.count_pos_iff.mpr hm
      rw [List.count_erase]
      by_cases hx : x = i
      · subst hx; simp; omega
      · rw [if_neg hx, if_neg (by simpa using fun h => hx h.symm)]; rfl
    refine ⟨hr, by cases hs; rfl, hc, fun h2 => ?_⟩
    have := hc i
    rw [if_pos rfl] at this
    exact ((exists_iff_kept hr).1 i).mpr (.handle (List.count_pos_iff.mp (by omega)))
  · cases hs

example : ∃ w : World, w.Reached ∧ ∃ w' : World, w.step (.drop 0) = some w' ∧ 2 ≤ w.handles.count 0 :=
  ⟨_, ⟨[.newMesh none, .take 0], rfl⟩, _, rfl, by decide⟩

/-- the answer uses existing objects only -/
theorem safe_iff {w : World} {i : Nat} {q : Ask} : w.safe i q = true ↔ ∀ x ∈ w.uses i q, w.Exists x := by
  unfold World.safe World.Exists
  simp [List.all_eq_true]

/-- **C167** what an existing object stores can always be asked, and the mesh can be asked through any state manager and any
vector on the mesh, even when the program has given up its own pointer to the mesh (and the manager); with the mesh, its tiles exist -/
theorem answers {w : World} (h : w.Reached) (i : Nat) (hi : w.Exists i) :
    w.safe i .own = true ∧
    (∀ m, w.objs[i]? = some (.state m) → w.safe i .mesh = true) ∧
    (∀ (d : Nat) g q, w.objs[i]? = some (.vector d) → w.objs[d]? = some (.mesh g q) → w.safe i .mesh = true) ∧
    (∀ t : Nat, w.objs[t]? = some (.tile i) → w.Exists t ∧ w.safe t .mesh = true) := by
  have I := h.inv
  refine ⟨?_, ?_, ?_, ?_⟩
  · rw [safe_iff]; simpa [World.uses] using hi
  · intro m hm
    rw [safe_iff]
    simp only [World.uses, hm, List.mem_cons, List.not_mem_nil, or_false]
    rintro x (rfl | rfl)
    · exact hi
    · exact I.hold _ (I.state i _ hm).1 hi
  · intro d g q hd hm
    rw [safe_iff]
    simp only [World.uses, hd, hm, List.mem_cons, List.not_mem_nil, or_false]
    rintro x (rfl | rfl)
    · exact hi
    · exact I.hold _ (I.vector i _ hd).1 hi
  · intro t ht
    have h1 : w.Exists t := I.hold _ (I.tile t i ht).1 hi
    refine ⟨h1, ?_⟩
    rw [safe_iff]
    simp only [World.uses, ht, List.mem_cons, List.not_mem_nil, or_false]
    rintro x (rfl | rfl)
    · exact h1
    · exact hi

/-- **C167** the questions that use another object without keeping it: for an existing tile or set (also a temporary one) and a
vector on a tile the mesh must exist, for regions the geometric model, for parents the mesh extracted from -/
theorem answers_iff {w : World} (h : w.Reached) (i : Nat) (hi : w.Exists i) :
    (∀ m : Nat, w.objs[i]? = some (.tile m) ∨ w.objs[i]? = some (.mset m) → (w.safe i .mesh = true ↔ w.Exists m)) ∧
    (∀ d m : Nat, w.objs[i]? = some (.vector d) → w.objs[d]? = some (.tile m) → (w.safe i .mesh = true ↔ w.Exists m)) ∧
    (∀ (g : Nat) q, w.objs[i]? = some (.mesh (some g) q) → (w.safe i .region = true ↔ w.Exists g)) ∧
    (∀ g (q : Nat), w.objs[i]? = some (.mesh g (some q)) → (w.safe i .parent = true ↔ w.Exists q)) := by
  have I := h.inv
  refine ⟨?_, ?_, ?_, ?_⟩
  · intro m hm
    rw [safe_iff]
    have : w.uses i .mesh = [i, m] := by rcases hm with hm | hm <;> simp only [World.uses, hm]
    rw [this]; simpa using fun _ => hi
  · intro d m hd hm
    rw [safe_iff]
    have hd' : w.Exists d := I.hold _ (I.vector i _ hd).1 hi
    simp only [World.uses, hd, hm]
    simpa [hi, hd'] using fun _ => ⟨hi, hd'⟩
  · intro g q hm
    rw [safe_iff]
    simp only [World.uses, hm]
    simpa using fun _ => hi
  · intro g q hm
    rw [safe_iff]
    simp only [World.uses, hm]
    simpa using fun _ => hi

/-- **C167** a program that keeps every mesh and every geometric model it made may ask anything of any object it can get at -/
theorem kept_all_safe {w : World} (h : w.Reached)
    (hk : ∀ (i : Nat) g q, w.objs[i]? = some (.mesh g q) → w.Kept i) (hg : ∀ i : Nat, w.objs[i]? = some .model → w.Kept i)
    (i : Nat) (hi : w.Kept i) (q : Ask) : w.safe i q = true := by
  have I := h.inv
  have ex := I.exists_iff
  have E := (ex i).mpr hi
  obtain ⟨a1, a2, a3, a4⟩ := answers h i E
  obtain ⟨b1, b2, b3, b4⟩ := answers_iff h i E
  have triv : ∀ q, w.uses i q = [i] → w.safe i q = true := by
    intro q hq; rw [safe_iff, hq]; simpa using E
  cases ho : w.objs[i]? with
  | none => cases q <;> exact triv _ (by simp only [World.uses, ho])
  | some o =>
    cases q with
    | own => exact a1
    | mesh =>
      cases o with
      | model => exact triv _ (by simp only [World.uses, ho])
      | mesh g q => exact triv _ (by simp only [World.uses, ho])
      | tile m =>
        obtain ⟨g, q, hm⟩ := (I.tile i m ho).2
        exact (b1 m (.inl ho)).mpr ((ex m).mpr (hk m g q hm))
      | mset m =>
        obtain ⟨g, q, hm⟩ := I.mset i m ho
        exact (b1 m (.inr ho)).mpr ((ex m).mpr (hk m g q hm))
      | state m => exact a2 m ho
      | vector d =>
        rcases (I.vector i d ho).2 with ⟨g, q, hm⟩ | ⟨m, hm⟩
        · exact a3 d g q ho hm
        · obtain ⟨g, q, hm'⟩ := (I.tile d m hm).2
          exact (b2 d m ho hm).mpr ((ex m).mpr (hk m g q hm'))
    | region =>
      cases o with
      | mesh g q =>
        cases g with
        | none => exact triv _ (by simp only [World.uses, ho])
        | some g => exact (b3 g q ho).mpr ((ex g).mpr (hg g (I.gm i g q ho)))
      | _ => exact triv _ (by simp only [World.uses, ho])
    | parent =>
      cases o with
      | mesh g q =>
        cases q with
        | none => exact triv _ (by simp only [World.uses, ho])
        | some q =>
          obtain ⟨_, q', hq⟩ := I.par i g q ho
          exact (b4 g q ho).mpr ((ex q).mpr (hk q g q' hq))
      | _ => exact triv _ (by simp only [World.uses, ho])

/-- the full claim - what the program holds can be asked anything - fails in four ways: a tile, a vector on a tile, a region, a parent -/
theorem answers_false :
    (∃ w : World, w.Reached ∧ ∃ i m : Nat, i ∈ w.handles ∧ w.objs[i]? = some (.tile m) ∧ w.safe i .mesh = false) ∧
    (∃ w : World, w.Reached ∧ ∃ i d : Nat, i ∈ w.handles ∧ w.objs[i]? = some (.vector d) ∧ w.safe i .mesh = false) ∧
    (∃ w : World, w.Reached ∧ ∃ (i : Nat) (g q : Option Nat), i ∈ w.handles ∧ w.objs[i]? = some (.mesh g q) ∧ w.safe i .region = false) ∧
    (∃ w : World, w.Reached ∧ ∃ (i : Nat) (g q : Option Nat), i ∈ w.handles ∧ w.objs[i]? = some (.mesh g q) ∧ w.safe i .parent = false) := by
  refine ⟨⟨_, ⟨[.newMesh none, .newTile 0, .take 1, .drop 0], rfl⟩, 1, 0, ?_⟩,
    ⟨_, ⟨[.newMesh none, .newTile 0, .newState 0, .addVector 2 1, .take 3, .drop 0, .drop 2], rfl⟩, 3, 1, ?_⟩,
    ⟨_, ⟨[.newModel, .newMesh (some 0), .drop 0], rfl⟩, 1, some 0, none, ?_⟩,
    ⟨_, ⟨[.newMesh none, .extract 0, .drop 0], rfl⟩, 1, none, some 0, ?_⟩⟩ <;> decide +kernel

/-- a mesh with a tile, a state manager with a vector on the mesh; only the vector is kept: the mesh and its tile exist, the manager
does not -/
example : ∃ w : World, w.Reached ∧ w.handles = [3] ∧ w.Exists 0 ∧ w.Exists 1 ∧ ¬ w.Exists 2 ∧ w.safe 3 .mesh = true :=
  ⟨_, ⟨[.newMesh none, .newTile 0, .newState 0, .addVector 2 0, .take 3, .drop 0, .drop 2], rfl⟩, by
    simp only [World.Exists]; decide +kernel⟩

/-- everything is kept: a model, a mesh, a tile of it, an extracted mesh; the hypotheses of `kept_all_safe` are met -/
example : ∃ w : World, w.Reached ∧ w.objs = [.model, .mesh (some 0) none, .tile 1, .mesh (some 0) (some 1)] ∧
    w.safe 3 .parent = true ∧ w.safe 3 .region = true ∧ w.safe 2 .mesh = true := by
  have hr : (⟨[.model, .mesh (some 0) none, .tile 1, .mesh (some 0) (some 1)], [(1, 2)], [3, 1, 0], [0, 1, 2, 3]⟩ : World).Reached :=
    ⟨[.newModel, .newMesh (some 0), .newTile 1, .extract 1], by decide +kernel⟩
  have key := kept_all_safe hr
    (fun i g q h => by
      match i, h with
      | 1, _ => exact .handle (by decide)
      | 3, _ => exact .handle (by decide))
    (fun i h => by
      match i, h with
      | 0, _ => exact .handle (by decide)
      | 1, h => simp at h
      | 2, h => simp at h
      | 3, h => simp at h
      | n + 4, h => simp at h)
  exact ⟨_, hr, rfl, key 3 (.handle (by decide)) _, key 3 (.handle (by decide)) _,
    key 2 (.held (.handle (i := 1) (by decide)) (by decide)) _⟩

end Jali.Life
