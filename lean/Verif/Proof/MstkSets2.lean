import Verif.Proof.MstkSets
import Verif.Proof.MstkParent2
import Verif.Spec.MstkSets
/- Lemmas about inherited sets. -/
namespace Jali.Mstk

variable {α : Type}

theorem setByName_name {m : MMesh} {sets : List (MstkSet m)} {n : String} {t : MstkSet m} (h : byName sets n = some t) :
    t ∈ sets ∧ t.name = n :=
  ⟨List.mem_of_find?_eq_some h, by simpa using List.find?_some h⟩

theorem setByName_none {m : MMesh} {sets : List (MstkSet m)} {n : String} : byName sets n = none ↔ NoSet sets n := by
  unfold byName NoSet
  rw [List.find?_eq_none]
  simp

theorem inheritSet_name {m : MMesh} {s : Copy m α} {b : Built m α} {diff : Bool} {srcEnts : List (Ent m)} {sets : List (MstkSet m)}
    {n : String} {t : MstkSet b.mesh} (h : inheritSet s b diff srcEnts sets n = some t) : t.name = n := by
  unfold inheritSet at h
  obtain ⟨t', _, h⟩ := Option.bind_eq_some_iff.mp h
  split at h
  · cases h
  · split at h
    · rw [← Option.some.inj h]
    · rw [← Option.some.inj h]

/-- a set of the new mesh with the name of a region -/
theorem byName_inherit {m : MMesh} {s : Copy m α} {b : Built m α} {diff : Bool} {srcEnts : List (Ent m)} {sets : List (MstkSet m)}
    (n : String) : ∀ (gm : List Rgn), byName (inheritSets s b diff srcEnts sets gm) n =
      if ∃ r ∈ gm, inheritName r = some n then inheritSet s b diff srcEnts sets n else none := by
  intro gm
  induction gm with
  | nil => rw [if_neg (by simp)]; rfl
  | cons r gm ih =>
    unfold inheritSets at *
    rw [List.filterMap_cons]
    cases hr : inheritName r with
    | none =>
      rw [Option.bind_none]
      dsimp only
      rw [ih]
      congr 1
      simp [hr]
    | some k =>
      rw [Option.bind_some]
      cases hk : inheritSet s b diff srcEnts sets k with
      | none =>
        dsimp only
        rw [ih]
        by_cases hkn : k = n
        · subst hkn
          rw [hk]; simp
        · congr 1
          simp [hr, hkn]
      | some t =>
        dsimp only
        have ht := inheritSet_name hk
        by_cases hkn : k = n
        · subst hkn
          rw [if_pos ⟨r, List.mem_cons_self, hr⟩, hk]
          unfold byName
          rw [List.find?_cons_of_pos (by simp [ht])]
        · unfold byName at *
          rw [List.find?_cons_of_neg (by simp [ht, hkn]), ih]
          congr 1
          simp [hr, hkn]

/-! ### Names -/

theorem prefix_ne {a b : String} (c d : Char) (l l' : List Char) (h1 : a.toList = c :: l) (h2 : b.toList = d :: l') (hcd : c ≠ d) : a ≠ b := by
  rintro rfl
  rw [h1] at h2
  exact hcd (List.cons.inj h2).1

theorem inheritName_long {r : Rgn} {k : EntityKind} {label : String} (h : r.Long k label) : inheritName r = some (internalName r k) := by
  unfold inheritName
  rcases h with ⟨rfl, h⟩ | ⟨rfl, h⟩ | ⟨rfl, h⟩ <;> rw [h] <;> simp

theorem internalName_eq {r : Rgn} {str label : String} (h : r.labeled = some (str, label)) :
    internalName r .CELL = "matset_" ++ label ∧ internalName r .FACE = "sideset_" ++ label ∧
    internalName r .NODE = "nodeset_" ++ label ∧ otherInternalName r .CELL = "elemset_" ++ label := by
  unfold otherInternalName internalName
  rw [h]
  exact ⟨rfl, rfl, rfl, rfl⟩

/-- what an inherited set is called -/
theorem inheritName_cases {r : Rgn} {n : String} (h : inheritName r = some n) :
    n = "" ∨ ∃ k label, r.Long k label ∧ n = internalName r k := by
  unfold inheritName at h
  cases hl : r.labeled with
  | none => rw [hl] at h; cases h
  | some p =>
    obtain ⟨str, label⟩ := p
    rw [hl, Option.map_some] at h
    replace h := Option.some.inj h
    dsimp only at h
    split at h
    · rename_i hs; subst hs; exact Or.inr ⟨.CELL, label, Or.inl ⟨rfl, hl⟩, h.symm⟩
    · split at h
      · rename_i hs; subst hs; exact Or.inr ⟨.FACE, label, Or.inr (Or.inl ⟨rfl, hl⟩), h.symm⟩
      · split at h
        · rename_i hs; subst hs; exact Or.inr ⟨.NODE, label, Or.inr (Or.inr ⟨rfl, hl⟩), h.symm⟩
        · exact Or.inl h.symm

/-! ### The query -/

theorem mem_split {s : Source α} {t : MstkSet s.j.m} {i : Nat} :
    (i ∈ (s.split t).1 ∨ i ∈ (s.split t).2) ↔ ∃ e ∈ t.ents, s.entId e - 1 = i := by
  unfold Source.split
  simp only [List.mem_map, List.mem_filter, decide_eq_true_eq]
  constructor
  · rintro (⟨e, ⟨h1, _⟩, h3⟩ | ⟨e, ⟨h1, _⟩, h3⟩)
    · exact ⟨e, h1, h3⟩
    · exact ⟨e, h1, h3⟩
  · rintro ⟨e, h1, h3⟩
    by_cases hp : e.ptype = .ghost
    · exact Or.inr ⟨e, ⟨h1, hp⟩, h3⟩
    · exact Or.inl ⟨e, ⟨h1, hp⟩, h3⟩

theorem mem_splitOr {s : Source α} {o : Option (MstkSet s.j.m)} {i : Nat} :
    (i ∈ (s.splitOr o).1 ∨ i ∈ (s.splitOr o).2) ↔ ∃ t, o = some t ∧ ∃ e ∈ t.ents, s.entId e - 1 = i := by
  cases o with
  | none =>
    unfold Source.splitOr
    simp
  | some t =>
    refine mem_split.trans ?_
    simp

theorem Rgn.Asked.labeled {r : Rgn} {k : EntityKind} {label : String} (h : r.Asked k label) : ∃ str, r.labeled = some (str, label) := by
  rcases h with (⟨_, h⟩ | ⟨_, h⟩ | ⟨_, h⟩) | (⟨_, h⟩ | ⟨_, h⟩ | ⟨_, h⟩) <;> exact ⟨_, h⟩

theorem Rgn.Asked.kind {r : Rgn} {k : EntityKind} {label : String} (h : r.Asked k label) : k = .CELL ∨ k = .FACE ∨ k = .NODE := by
  rcases h with (⟨h, _⟩ | ⟨h, _⟩ | ⟨h, _⟩) | (⟨h, _⟩ | ⟨h, _⟩ | ⟨h, _⟩) <;> simp [h]

/-- the answer, if there is no element set of that name -/
theorem labeledEntities_eq {s : Source α} {sets : List (MstkSet s.j.m)} {r : Rgn} {k : EntityKind} {label : String} (h : r.Asked k label)
    (he : k = .CELL → NoSet sets ("elemset_" ++ label)) :
    s.labeledEntities sets r k = .made (s.splitOr (byName sets (internalName r k))) := by
  have he' := fun hk => setByName_none.mpr (he hk)
  unfold Source.labeledEntities
  rcases h with (⟨rfl, h⟩ | ⟨rfl, h⟩ | ⟨rfl, h⟩) | (⟨rfl, h⟩ | ⟨rfl, h⟩ | ⟨rfl, h⟩) <;> rw [h] <;> simp
  · rw [(internalName_eq h).2.2.2, he' rfl]
    cases byName sets (internalName r .CELL) <;> rfl
  · rw [(internalName_eq h).2.2.2, he' rfl]
    cases byName sets (internalName r .CELL) <;> rfl

theorem inSet_iff {s : Source α} {sets : List (MstkSet s.j.m)} {r : Rgn} {k : EntityKind} {label : String} (h : r.Asked k label)
    (he : k = .CELL → NoSet sets ("elemset_" ++ label)) (i : Nat) :
    s.InSet sets r k i ↔ ∃ t, byName sets (internalName r k) = some t ∧ ∃ e ∈ t.ents, s.entId e - 1 = i := by
  unfold Source.InSet
  rw [labeledEntities_eq h he, ← mem_splitOr]
  constructor
  · rintro ⟨own, gh, h1, h2⟩
    rw [Outcome.made.inj h1]
    exact h2
  · intro h
    exact ⟨_, _, rfl, h⟩

end Jali.Mstk
