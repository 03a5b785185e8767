import Verif.Model.MstkExtract
import Verif.Proof.MstkQueries
import Mathlib.Data.List.Forall2
/- Lemmas about extraction: the copy under construction. -/
namespace Jali.Mstk

/-! ### Loops -/

theorem mapS_spec {σ α β : Type} {f : σ → α → σ × β} {P : σ → Prop} {le : σ → σ → Prop} {Q : σ → α → β → Prop}
    (rfl' : ∀ s, le s s) (trans' : ∀ {s t u}, le s t → le t u → le s u)
    (mono : ∀ {s t a b}, le s t → Q s a b → Q t a b) : ∀ (l : List α)
    (_ : ∀ s a, a ∈ l → P s → P (f s a).1 ∧ le s (f s a).1 ∧ Q (f s a).1 a (f s a).2) (s : σ), P s →
    P (mapS f s l).1 ∧ le s (mapS f s l).1 ∧ List.Forall₂ (Q (mapS f s l).1) l (mapS f s l).2 := by
  intro l
  induction l with
  | nil => intro _ s hs; exact ⟨hs, rfl' s, List.Forall₂.nil⟩
  | cons a l ih =>
    intro step s hs
    obtain ⟨h1, h2, h3⟩ := step s a List.mem_cons_self hs
    obtain ⟨k1, k2, k3⟩ := ih (fun s b hb => step s b (List.mem_cons_of_mem _ hb)) (f s a).1 h1
    exact ⟨k1, trans' h2 k2, List.Forall₂.cons (mono k2 h3) k3⟩

theorem prefix_get {α : Type} {l l' : List α} (h : l <+: l') {k : Nat} {x : α} (hk : l[k]? = some x) : l'[k]? = some x := by
  obtain ⟨t, rfl⟩ := h
  rw [List.getElem?_append_left]
  · exact hk
  · exact (List.getElem?_eq_some_iff.mp hk).1

variable {m : MMesh} {α : Type}

/-- the copy only grows -/
structure Copy.Le (s t : Copy m α) : Prop where
  vs : s.vs <+: t.vs
  es : s.es <+: t.es
  fs : s.fs <+: t.fs
  rs : s.rs <+: t.rs

theorem Copy.Le.refl (s : Copy m α) : s.Le s := ⟨List.prefix_refl _, List.prefix_refl _, List.prefix_refl _, List.prefix_refl _⟩

theorem Copy.Le.trans {s t u : Copy m α} (h : s.Le t) (h' : t.Le u) : s.Le u :=
  ⟨h.vs.trans h'.vs, h.es.trans h'.es, h.fs.trans h'.fs, h.rs.trans h'.rs⟩

/-- `k` is the copy of vertex `v` -/
def Copy.VRel (s : Copy m α) (v : Fin m.nv) (k : Nat) : Prop := s.vs[k]?.map Prod.fst = some v
def Copy.ERel (s : Copy m α) (e : Fin m.ne) (k : Nat) : Prop := s.es[k]?.map Prod.snd = some (some e)
def Copy.FRel (s : Copy m α) (f : Fin m.nf) (k : Nat) : Prop := s.fs[k]?.map Prod.snd = some f
/-- the edge used in a direction runs from `a` to `b` -/
def Copy.Use (s : Copy m α) (q : Nat × Nat) (p : Nat × Bool) : Prop :=
  s.es[p.1]?.map Prod.fst = some (if p.2 then q else (q.2, q.1))

theorem prefix_map_get {β γ : Type} {l l' : List β} (h : l <+: l') {g : β → γ} {k : Nat} {x : γ} (hk : l[k]?.map g = some x) :
    l'[k]?.map g = some x := by
  rw [Option.map_eq_some_iff] at hk ⊢
  obtain ⟨a, ha, e⟩ := hk
  exact ⟨a, prefix_get h ha, e⟩

theorem map_get_lt {β γ : Type} {l : List β} {g : β → γ} {k : Nat} {x : γ} (hk : l[k]?.map g = some x) : k < l.length := by
  rw [Option.map_eq_some_iff] at hk
  obtain ⟨a, ha, _⟩ := hk
  exact (List.getElem?_eq_some_iff.mp ha).1

theorem Copy.VRel.mono {s t : Copy m α} (h : s.Le t) {v k} (hv : s.VRel v k) : t.VRel v k := prefix_map_get h.vs hv
theorem Copy.ERel.mono {s t : Copy m α} (h : s.Le t) {v k} (hv : s.ERel v k) : t.ERel v k := prefix_map_get h.es hv
theorem Copy.FRel.mono {s t : Copy m α} (h : s.Le t) {v k} (hv : s.FRel v k) : t.FRel v k := prefix_map_get h.fs hv
theorem Copy.Use.mono {s t : Copy m α} (h : s.Le t) {q p} (hv : s.Use q p) : t.Use q p := prefix_map_get h.es hv

theorem Copy.VRel.lt {s : Copy m α} {v k} (h : s.VRel v k) : k < s.vs.length := map_get_lt h
theorem Copy.ERel.lt {s : Copy m α} {v k} (h : s.ERel v k) : k < s.es.length := map_get_lt h
theorem Copy.FRel.lt {s : Copy m α} {v k} (h : s.FRel v k) : k < s.fs.length := map_get_lt h
theorem Copy.Use.lt {s : Copy m α} {q p} (h : s.Use q p) : p.1 < s.es.length := map_get_lt h

/-- the coordinates a copy of `v` gets -/
def newXyz [Zero α] (xyz : Fin m.nv → Xyz α) (flatten : Bool) (v : Fin m.nv) : Xyz α :=
  if flatten then { xyz v with z := 0 } else xyz v

/-- the vertices of a copy -/
structure Copy.VInv [Zero α] (xyz : Fin m.nv → Xyz α) (flatten : Bool) (s : Copy m α) : Prop where
  cv : ∀ v k, s.cv v = some k ↔ s.VRel v k
  xyz : ∀ (k : Nat) (v : Fin m.nv) (p : Xyz α), s.vs[k]? = some (v, p) → p = newXyz xyz flatten v

/-- an entry appended to a list of copies -/
theorem snoc_iff {β γ : Type} {g : β → γ} {l : List β} {x : β} {v : γ} {k : Nat} :
    (l ++ [x])[k]?.map g = some v ↔ l[k]?.map g = some v ∨ (k = l.length ∧ v = g x) := by
  rcases Nat.lt_trichotomy k l.length with h | h | h
  · rw [List.getElem?_append_left h]
    constructor
    · exact Or.inl
    · rintro (h' | ⟨h', _⟩)
      · exact h'
      · omega
  · subst h
    simp
    constructor
    · rintro rfl; rfl
    · rintro rfl; rfl
  · have : (l ++ [x])[k]? = none := by rw [List.getElem?_eq_none_iff]; simp; omega
    have h2 : l[k]? = none := by rw [List.getElem?_eq_none_iff]; omega
    rw [this, h2]
    simp; omega

/-- an entry in the memo and an entry in the list -/
theorem memo_snoc {n : Nat} {β γ : Type} {g : β → γ} {i : Fin n → γ} (hi : Function.Injective i) {c : Fin n → Option Nat}
    {l : List β} (h : ∀ v k, c v = some k ↔ l[k]?.map g = some (i v)) {x : Fin n} {y : β} (hy : g y = i x) (hx : c x = none)
    (v : Fin n) (k : Nat) :
    Function.update c x (some l.length) v = some k ↔ (l ++ [y])[k]?.map g = some (i v) := by
  rw [snoc_iff, ← h, hy]
  by_cases e : v = x
  · subst e
    rw [Function.update_self, hx]
    constructor
    · intro h; exact Or.inr ⟨(Option.some.inj h).symm, rfl⟩
    · rintro (h | ⟨h, _⟩)
      · cases h
      · rw [h]
  · rw [Function.update_of_ne e]
    constructor
    · exact Or.inl
    · rintro (h | ⟨_, h⟩)
      · exact h
      · exact absurd (hi h) e

theorem copyVertex_spec [Zero α] {xyz : Fin m.nv → Xyz α} {flatten : Bool} {s : Copy m α} (h : s.VInv xyz flatten) (v : Fin m.nv) :
    (copyVertex xyz flatten s v).1.VInv xyz flatten ∧ s.Le (copyVertex xyz flatten s v).1 ∧
    (copyVertex xyz flatten s v).1.VRel v (copyVertex xyz flatten s v).2 ∧
    ((copyVertex xyz flatten s v).1.es = s.es ∧ (copyVertex xyz flatten s v).1.fs = s.fs ∧
    (copyVertex xyz flatten s v).1.rs = s.rs ∧ (copyVertex xyz flatten s v).1.ce = s.ce ∧
    (copyVertex xyz flatten s v).1.cf = s.cf ∧ (copyVertex xyz flatten s v).1.cr = s.cr) := by
  unfold copyVertex
  cases hc : s.cv v with
  | some k => exact ⟨h, .refl s, (h.cv v k).mp hc, rfl, rfl, rfl, rfl, rfl, rfl⟩
  | none =>
    refine ⟨⟨?_, ?_⟩, ⟨List.prefix_append _ _, List.prefix_refl _, List.prefix_refl _, List.prefix_refl _⟩, ?_,
      rfl, rfl, rfl, rfl, rfl, rfl⟩
    · intro w k; exact memo_snoc (i := id) Function.injective_id h.cv (x := v) rfl hc w k
    · intro k w p hp
      rcases Nat.lt_trichotomy k s.vs.length with hk | hk | hk
      · rw [List.getElem?_append_left hk] at hp; exact h.xyz k w p hp
      · subst hk
        rw [List.getElem?_concat_length] at hp
        obtain ⟨rfl, rfl⟩ := Prod.mk.inj (Option.some.inj hp)
        rfl
      · have : (s.vs ++ [(v, if flatten then { xyz v with z := 0 } else xyz v)])[k]? = none := by
          rw [List.getElem?_eq_none_iff]; simp; omega
        rw [this] at hp; cases hp
    · exact snoc_iff.mpr (Or.inr ⟨rfl, rfl⟩)

/-- two copies of the same vertex are the same -/
theorem Copy.VInv.inj [Zero α] {xyz : Fin m.nv → Xyz α} {flatten : Bool} {s : Copy m α} (h : s.VInv xyz flatten) {v k k'}
    (h1 : s.VRel v k) (h2 : s.VRel v k') : k = k' :=
  Option.some.inj (((h.cv v k).mpr h1).symm.trans ((h.cv v k').mpr h2))

/-- two vertices with the same copy are the same -/
theorem Copy.VRel.inj {s : Copy m α} {v w k} (h1 : s.VRel v k) (h2 : s.VRel w k) : v = w := by
  exact Option.some.inj (h1.symm.trans h2)

/-- everything but the vertices is unchanged -/
def Copy.SameRest (s t : Copy m α) : Prop :=
  t.es = s.es ∧ t.fs = s.fs ∧ t.rs = s.rs ∧ t.ce = s.ce ∧ t.cf = s.cf ∧ t.cr = s.cr

theorem Copy.SameRest.trans {s t u : Copy m α} (h : s.SameRest t) (h' : t.SameRest u) : s.SameRest u :=
  ⟨h'.1.trans h.1, h'.2.1.trans h.2.1, h'.2.2.1.trans h.2.2.1, h'.2.2.2.1.trans h.2.2.2.1, h'.2.2.2.2.1.trans h.2.2.2.2.1,
    h'.2.2.2.2.2.trans h.2.2.2.2.2⟩

theorem copyVertices_spec [Zero α] {xyz : Fin m.nv → Xyz α} {flatten : Bool} (l : List (Fin m.nv)) {s : Copy m α}
    (h : s.VInv xyz flatten) :
    (mapS (copyVertex xyz flatten) s l).1.VInv xyz flatten ∧
    (s.Le (mapS (copyVertex xyz flatten) s l).1 ∧ s.SameRest (mapS (copyVertex xyz flatten) s l).1) ∧
    List.Forall₂ (mapS (copyVertex xyz flatten) s l).1.VRel l (mapS (copyVertex xyz flatten) s l).2 := by
  refine mapS_spec (P := Copy.VInv xyz flatten) (le := fun s t : Copy m α => s.Le t ∧ s.SameRest t)
    (Q := fun (s : Copy m α) v k => s.VRel v k) (fun s => ⟨.refl s, rfl, rfl, rfl, rfl, rfl, rfl⟩)
    (fun h h' => ⟨h.1.trans h'.1, h.2.trans h'.2⟩) (fun h h' => h'.mono h.1) l ?_ s h
  intro s v _ hs
  obtain ⟨a, b, c, d⟩ := copyVertex_spec hs v
  exact ⟨a, ⟨b, d⟩, c⟩

end Jali.Mstk
