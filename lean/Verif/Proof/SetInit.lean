import Verif.Proof.SetRegistry3
namespace Jali.Reg
open Jali.MSet

variable {P K : Type} [Field K] [LinearOrder K]

/-- old sets stay where and as they are, whatever the kinds of the new ones -/
structure Ext (w w' : World) : Prop where
  view : w'.view = w.view
  heap : w.heap <+: w'.heap
  reg : w.reg <+: w'.reg

theorem Ext.refl (w : World) : Ext w w := ⟨rfl, List.prefix_rfl, List.prefix_rfl⟩
theorem Ext.trans {a b c : World} (h : Ext a b) (h' : Ext b c) : Ext a c :=
  ⟨h'.view.trans h.view, h.heap.trans h'.heap, h.reg.trans h'.reg⟩
theorem Grows.ext {k : EntityKind} {w w' : World} (h : Grows k w w') : Ext w w' := ⟨h.view, h.heap, h.reg⟩

theorem Ext.get {w w' : World} (h : Ext w w') {a : Nat} {s : Obj} (hs : w.heap[a]? = some s) :
    w'.heap[a]? = some s := by
  obtain ⟨t, ht⟩ := h.heap
  rw [← ht, List.getElem?_append_left (by rw [List.getElem?_eq_some_iff] at hs; exact hs.1)]
  exact hs

theorem find_congr {α : Type} {p q : α → Bool} : ∀ {l : List α}, (∀ x ∈ l, p x = q x) → l.find? p = l.find? q := by
  intro l
  induction l with
  | nil => intro _; rfl
  | cons x xs ih =>
    intro h
    rw [List.find?_cons, List.find?_cons, h x (by simp), ih fun y hy => h y (by simp [hy])]

theorem find_stable {w w' : World} (hr : ∀ a ∈ w.reg, a < w.heap.length) (h : Ext w w') {n : String}
    {k : EntityKind} {a : Nat} (hf : findMeshset w n k = some a) : findMeshset w' n k = some a := by
  obtain ⟨t, ht⟩ := h.reg
  have heq : w.reg.find? (fun a => nameKind w' a n k) = w.reg.find? (fun a => nameKind w a n k) := by
    apply find_congr
    intro x hx
    have hlt := hr x hx
    have := h.get (List.getElem?_eq_getElem hlt)
    simp only [nameKind, this, List.getElem?_eq_getElem hlt]
  unfold findMeshset at hf ⊢
  rw [← ht, List.find?_append, heq, hf]
  rfl

theorem build_none {g : Geo P K} {gm : List (Region P)} {d : Nat} {w w' : World} {n : String} {k : EntityKind}
    {b : Bool} (h : build g gm d w n k b = .ok (none, w')) :
    w' = w ∧ (k ≠ .CELL ∧ k ≠ .FACE ∧ k ≠ .NODE) := by
  have key : ∀ {r : Region P}, regionLists g w k r = .ok none → r.type ≠ .LOGICAL →
      (k ≠ .CELL ∧ k ≠ .FACE ∧ k ≠ .NODE) := by
    intro r hl ht
    refine ⟨?_, ?_, ?_⟩ <;> rintro rfl <;> cases hty : r.type <;>
      simp only [regionLists, cellLists, faceLists, nodeLists, hty] at hl <;> try (exact absurd hty ht) <;> try cases hl
    all_goals try (split at hl <;> try cases hl)
    all_goals try (unfold pointCells at hl; split at hl <;> try cases hl)
    all_goals first | cases hl | exact ht hty
  cases d with
  | zero =>
    rw [build] at h
    split at h
    · cases h
    · rename_i r hr
      split at h
      · cases h
      · split at h <;> cases h
      · rename_i hl
        split at h
        · cases h
        · rename_i ht
          injection h with h; injection h with h1 h2
          exact ⟨h2.symm, key hl ht⟩
  | succ d =>
    rw [build_succ] at h
    split at h
    · cases h
    · rename_i r hr
      split at h
      · cases h
      · split at h <;> cases h
      · rename_i hl
        split at h
        · split at h
          · cases h
          · split at h <;> cases h
        · rename_i ht
          injection h with h; injection h with h1 h2
          exact ⟨h2.symm, key hl ht⟩

/-- everything the loop over the regions needs to know -/
structure Inv (g : Geo P K) (gm : List (Region P)) (D : EntityKind → String → Nat → Prop) (w : World) : Prop where
  fits : ∀ k, Fits g gm w k
  sane : ∀ k, Sane gm w k
  meaning : ∀ k, Meaning g gm w k (D k)
  order : ∀ k, InOrder gm w k (D k)

theorem Inv.step {g : Geo P K} {gm : List (Region P)} {D : EntityKind → String → Nat → Prop} {w w' : World}
    (hi : Inv g gm D w) {d : Nat} {n : String} {k : EntityKind} {b : Bool} {x : Option Nat}
    (h : build g gm d w n k b = .ok (x, w')) :
    Inv g gm D w' ∧ Ext w w' ∧
    (k = .CELL ∨ k = .FACE ∨ k = .NODE → (∀ r, findRegion gm n = some r → r.type = .LOGICAL → r.temporary = false) →
      (findMeshset w' n k).isSome) := by
  cases x with
  | none =>
    obtain ⟨rfl, h1⟩ := build_none h
    exact ⟨hi, Ext.refl _, fun hk => absurd hk (by tauto)⟩
  | some a =>
    obtain ⟨j1, j2, s, j3, j4, j5, j6, j7, j8, r, j9, j10⟩ :=
      build_ok d w n a w' (hi.fits k) (hi.sane k) (hi.meaning k) (hi.order k) h
    refine ⟨⟨fun k' => (hi.fits k').of_view j1.view, fun k' => (hi.sane k').of_view j1.view,
      fun k' => (hi.meaning k').of_view j1.view, fun k' => ?_⟩, j1.ext, fun _ ht => ?_⟩
    · by_cases hk : k' = k
      · subst hk; exact j2
      · exact InOrder.other (hi.order k') j2 j1 hk
    · have ha : a ∈ w'.reg := by
        rw [j10]
        by_cases hl : r.type = .LOGICAL
        · exact Or.inr (ht r j9 hl)
        · exact Or.inl hl
      cases hfm : findMeshset w' n k with
      | some _ => rfl
      | none =>
        have := List.find?_eq_none.1 hfm a ha
        simp [nameKind, j3, j4, j5] at this

theorem Inv.kinds {g : Geo P K} {gm : List (Region P)} {D : EntityKind → String → Nat → Prop} {d : Nat} {n : String} :
    ∀ (ks : List EntityKind) {w w' : World}, Inv g gm D w → buildKinds g gm d n ks w = .ok w' →
    Inv g gm D w' ∧ Ext w w' ∧ ∀ k ∈ ks, k = .CELL ∨ k = .FACE ∨ k = .NODE →
      (∀ r, findRegion gm n = some r → r.type = .LOGICAL → r.temporary = false) → (findMeshset w' n k).isSome := by
  intro ks
  induction ks with
  | nil =>
    intro w w' hi h
    injection h with h; subst h
    exact ⟨hi, Ext.refl _, by simp⟩
  | cons k ks ih =>
    intro w w' hi h
    simp only [buildKinds] at h
    split at h
    · cases h
    · rename_i x w1 hb
      obtain ⟨h1, h2, h3⟩ := hi.step hb
      obtain ⟨k1, k2, k3⟩ := ih h1 h
      refine ⟨k1, h2.trans k2, fun k' hk' hkind ht => ?_⟩
      rcases List.mem_cons.1 hk' with rfl | hk'
      · obtain ⟨a, ha⟩ := Option.isSome_iff_exists.1 (h3 hkind ht)
        rw [find_stable (h1.order k').reg k2 ha]; rfl
      · exact k3 k' hk' hkind ht

/-- what the loop guarantees for region `r` -/
def Served (g : Geo P K) (gm : List (Region P)) (gdim : Nat) (req : String → Option (List EntityKind)) (w' : World)
    (r : Region P) : Prop :=
  (∀ r', findRegion gm r.name = some r' → r'.type = .LOGICAL → r'.temporary = false) →
  if r.type = .LABELEDSET then
    ∃ k, labelKind r.entityStr = some k ∧ (k ≠ .EDGE → (findMeshset w' r.name k).isSome)
  else (findMeshset w' r.name .CELL).isSome ∨
    ∃ ks, kindsFor g gm gdim req r = .ok ks ∧
      ∀ k ∈ ks, k = .CELL ∨ k = .FACE ∨ k = .NODE → (findMeshset w' r.name k).isSome

theorem Served.mono {g : Geo P K} {gm : List (Region P)} {gdim : Nat} {req : String → Option (List EntityKind)}
    {w w' : World} {r : Region P} (hr : ∀ a ∈ w.reg, a < w.heap.length) (he : Ext w w')
    (h : Served g gm gdim req w r) : Served g gm gdim req w' r := by
  have hst : ∀ n k, (findMeshset w n k).isSome → (findMeshset w' n k).isSome := by
    intro n k hk
    obtain ⟨a, ha⟩ := Option.isSome_iff_exists.1 hk
    rw [find_stable hr he ha]; rfl
  intro ht
  have h := h ht
  by_cases hl : r.type = .LABELEDSET
  · rw [if_pos hl] at h ⊢
    obtain ⟨k, hk, hk'⟩ := h
    exact ⟨k, hk, fun hne => hst _ _ (hk' hne)⟩
  · rw [if_neg hl] at h ⊢
    rcases h with h | ⟨ks, h1, h2⟩
    · exact Or.inl (hst _ _ h)
    · exact Or.inr ⟨ks, h1, fun k hk hkk => hst _ _ (h2 k hk hkk)⟩

theorem labelKind_cases {s : String} {k : EntityKind} (h : labelKind s = some k) :
    k = .CELL ∨ k = .FACE ∨ k = .EDGE ∨ k = .NODE := by
  unfold labelKind at h
  repeat' split at h
  all_goals first | (injection h with h; subst h; simp) | cases h

theorem Inv.region {g : Geo P K} {gm : List (Region P)} {D : EntityKind → String → Nat → Prop} {d gdim : Nat}
    {req : String → Option (List EntityKind)} {r : Region P} {w w' : World} (hi : Inv g gm D w)
    (h : initRegion g gm d gdim req r w = .ok w') :
    Inv g gm D w' ∧ Ext w w' ∧ Served g gm gdim req w' r := by
  unfold initRegion at h
  split at h
  · rename_i hl
    split at h
    · cases h
    · rename_i k hk
      split at h
      · rename_i hsome
        injection h with h; subst h
        refine ⟨hi, Ext.refl _, fun _ => ?_⟩
        rw [if_pos hl]
        exact ⟨k, hk, fun _ => hsome⟩
      · obtain ⟨h1, h2, h3⟩ := hi.kinds [k] h
        refine ⟨h1, h2, fun ht => ?_⟩
        rw [if_pos hl]
        refine ⟨k, hk, fun hne => h3 k (by simp) ?_ ht⟩
        rcases labelKind_cases hk with h | h | h | h
        · exact Or.inl h
        · exact Or.inr (Or.inl h)
        · exact absurd h hne
        · exact Or.inr (Or.inr h)
  · rename_i hl
    split at h
    · rename_i hsome
      injection h with h; subst h
      refine ⟨hi, Ext.refl _, fun _ => ?_⟩
      rw [if_neg hl]
      exact Or.inl hsome
    · split at h
      · cases h
      · rename_i ks hks
        obtain ⟨h1, h2, h3⟩ := hi.kinds ks h
        refine ⟨h1, h2, fun ht => ?_⟩
        rw [if_neg hl]
        exact Or.inr ⟨ks, hks, fun k hk hkk => h3 k hk hkk ht⟩

theorem Inv.regions {g : Geo P K} {gm : List (Region P)} {D : EntityKind → String → Nat → Prop} {d gdim : Nat}
    {req : String → Option (List EntityKind)} : ∀ (rs : List (Region P)) {w w' : World}, Inv g gm D w →
    initRegions g gm d gdim req rs w = .ok w' →
    Inv g gm D w' ∧ Ext w w' ∧ ∀ r ∈ rs, Served g gm gdim req w' r := by
  intro rs
  induction rs with
  | nil =>
    intro w w' hi h
    injection h with h; subst h
    exact ⟨hi, Ext.refl _, by simp⟩
  | cons r rs ih =>
    intro w w' hi h
    simp only [initRegions] at h
    split at h
    · cases h
    · rename_i w1 hr
      obtain ⟨h1, h2, h3⟩ := hi.region hr
      obtain ⟨k1, k2, k3⟩ := ih h1 h
      refine ⟨k1, h2.trans k2, fun r' hr' => ?_⟩
      rcases List.mem_cons.1 hr' with rfl | hr'
      · exact h3.mono (h1.order .CELL).reg k2
      · exact k3 r' hr'

end Jali.Reg
