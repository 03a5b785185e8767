import Verif.Model.MstkDirs
import Verif.Spec.MstkWorld
import Verif.Proof.MstkOrient
/- Lemmas about the flags of ghosts. -/
namespace Jali.Mstk

theorem foldlM_flips {n : Nat} (id : Fin n → Nat) (hinj : ∀ v w, id v - 1 = id w - 1 → v = w) (hlt : ∀ v, id v - 1 < n)
    (test : Fin n → Option Bool) (gs : List (Fin n)) : ∀ (fl0 : List Bool), fl0.length = n →
    ((∀ g ∈ gs, ∃ b, test g = some b) →
      ∃ fl, gs.foldlM (fun fl g => (test g).map fun b => if b then fl.set (id g - 1) true else fl) fl0 = some fl) ∧
    ∀ fl, gs.foldlM (fun fl g => (test g).map fun b => if b then fl.set (id g - 1) true else fl) fl0 = some fl →
      fl.length = n ∧ (∀ g ∈ gs, ∃ b, test g = some b) ∧
      ∀ v, fl[id v - 1]? = if v ∈ gs ∧ test v = some true then some true else fl0[id v - 1]? := by
  induction gs with
  | nil =>
    intro fl0 h0
    refine ⟨fun _ => ⟨fl0, rfl⟩, ?_⟩
    intro fl hfl
    have : fl0 = fl := Option.some.inj hfl
    subst this
    exact ⟨h0, by simp, by simp⟩
  | cons g gs ih =>
    intro fl0 h0
    constructor
    · intro hall
      obtain ⟨b, hb⟩ := hall g List.mem_cons_self
      rw [List.foldlM_cons, hb, Option.map_some]
      refine (ih _ ?_).1 fun x hx => hall x (List.mem_cons_of_mem _ hx)
      split <;> simp [h0]
    · intro fl hfl
      rw [List.foldlM_cons] at hfl
      cases hb : test g with
      | none => rw [hb] at hfl; cases hfl
      | some b =>
        rw [hb, Option.map_some] at hfl
        obtain ⟨h1, h2, h3⟩ := (ih (if b then fl0.set (id g - 1) true else fl0) (by split <;> simp [h0])).2 fl hfl
        refine ⟨h1, ?_, ?_⟩
        · intro x hx
          rcases List.mem_cons.mp hx with rfl | hx
          · exact ⟨b, hb⟩
          · exact h2 x hx
        · intro v
          rw [h3 v]
          by_cases hv : v = g
          · subst hv
            by_cases hm : v ∈ gs ∧ test v = some true
            · rw [if_pos hm, if_pos ⟨List.mem_cons_self, hm.2⟩]
            · rw [if_neg hm]
              cases b with
              | true =>
                have c : v ∈ v :: gs ∧ test v = some true := ⟨List.mem_cons_self, hb⟩
                rw [if_pos c, if_pos rfl, List.getElem?_set_self (by rw [h0]; exact hlt v)]
              | false =>
                have c : ¬(v ∈ v :: gs ∧ test v = some true) := by rw [hb]; simp
                rw [if_neg c]
                rfl
          · have hne : id g - 1 ≠ id v - 1 := fun e => hv (hinj _ _ e).symm
            have e1 : (if b then fl0.set (id g - 1) true else fl0)[id v - 1]? = fl0[id v - 1]? := by
              split
              · exact List.getElem?_set_ne hne
              · rfl
            rw [e1]
            simp [List.mem_cons, hv]

/-- the flags: true exactly on the ghosts that passed the test -/
theorem setFlips_get {n : Nat} {im : IdMap n} {L : List (Fin n)} (h : Numbered im L) (pt : Fin n → PType)
    (test : Fin n → Option Bool) :
    ((∀ v, pt v = .ghost → ∃ b, test v = some b) → ∃ fl, setFlips (ghostList pt) im.id test = some fl) ∧
    ∀ fl, setFlips (ghostList pt) im.id test = some fl → fl.length = n ∧
      ∀ v, fl[im.id v - 1]? = some (decide (pt v = .ghost ∧ test v = some true)) := by
  have key := foldlM_flips im.id (fun v w => h.id_inj) (fun v => h.id_lt v) test (ghostList pt)
    (List.replicate n false) (by simp)
  have hm : ∀ v, v ∈ ghostList pt ↔ pt v = .ghost := by intro v; simp [ghostList]
  constructor
  · intro hall; exact key.1 fun g hg => hall g ((hm g).mp hg)
  · intro fl hfl
    obtain ⟨h1, _, h3⟩ := key.2 fl hfl
    refine ⟨h1, fun v => ?_⟩
    rw [h3 v]
    by_cases c : pt v = .ghost ∧ test v = some true
    · rw [if_pos ⟨(hm v).mpr c.1, c.2⟩]; simp [c]
    · rw [if_neg fun c' => c ⟨(hm v).mp c'.1, c'.2⟩, List.getElem?_replicate, if_pos (h.id_lt v)]
      simp [c]

theorem mem_sentEdges (w : List MMesh) (attr : ∀ m : MMesh, Fin m.ne → Nat × Nat) (g : Nat) (a : Nat × Nat) :
    (g, a) ∈ sentEdges w attr ↔ ∃ m ∈ w, ∃ e, (m.edge e).ptype = .overlap ∧ (m.edge e).gid = g ∧ attr m e = a := by
  unfold sentEdges
  rw [List.mem_flatMap]
  constructor
  · rintro ⟨m, hm, h⟩
    rw [List.mem_map] at h
    obtain ⟨e, he, h⟩ := h
    simp only [Prod.mk.injEq] at h
    exact ⟨m, hm, e, by simpa using he, h.1, h.2⟩
  · rintro ⟨m, hm, e, h1, h2, h3⟩
    refine ⟨m, hm, List.mem_map.mpr ⟨e, by simpa using h1, by rw [h2, h3]⟩⟩

theorem mem_sentFaces (w : List MMesh) (attr : ∀ m : MMesh, Fin m.nf → Nat × Nat) (g : Nat) (a : Nat × Nat) :
    (g, a) ∈ sentFaces w attr ↔ ∃ m ∈ w, ∃ e, (m.face e).ptype = .overlap ∧ (m.face e).gid = g ∧ attr m e = a := by
  unfold sentFaces
  rw [List.mem_flatMap]
  constructor
  · rintro ⟨m, hm, h⟩
    rw [List.mem_map] at h
    obtain ⟨e, he, h⟩ := h
    simp only [Prod.mk.injEq] at h
    exact ⟨m, hm, e, by simpa using he, h.1, h.2⟩
  · rintro ⟨m, hm, e, h1, h2, h3⟩
    refine ⟨m, hm, List.mem_map.mpr ⟨e, by simpa using h1, by rw [h2, h3]⟩⟩

/-- what is received was sent by someone, if anyone sent something for this id -/
theorem received_mem (sent : List (Nat × (Nat × Nat))) (g : Nat) (own : Nat × Nat) (h : ∃ a, (g, a) ∈ sent) :
    (g, received sent g own) ∈ sent := by
  obtain ⟨a, ha⟩ := h
  unfold received
  cases hf : sent.find? fun p => p.1 = g with
  | none =>
    rw [List.find?_eq_none] at hf
    have := hf _ ha
    simp at this
  | some p =>
    have h1 := List.mem_of_find?_eq_some hf
    have h2 : p.1 = g := by simpa using List.find?_some hf
    rw [Option.map_some, Option.getD_some, ← h2]
    exact h1

/-- the ends of an edge on its owner -/
theorem received_ends {w : List MMesh} (hw : EdgesMatch w) {m : MMesh} (hm : m ∈ w) {e : Fin m.ne}
    (hg : (m.edge e).ptype = .ghost) : ∃ m' ∈ w, ∃ e' : Fin m'.ne, (m'.edge e').ptype = .overlap ∧
      (m'.edge e').gid = (m.edge e).gid ∧
      received (sentEdges w MMesh.edgeAtt) (m.edge e).gid (m.edgeAtt e) = m'.ends e' := by
  obtain ⟨m1, hm1, e1, ho1, hg1⟩ := hw.owner m hm e hg
  have := received_mem (sentEdges w MMesh.edgeAtt) (m.edge e).gid (m.edgeAtt e)
    ⟨_, (mem_sentEdges _ _ _ _).mpr ⟨m1, hm1, e1, ho1, hg1, rfl⟩⟩
  obtain ⟨m', hm', e', h1, h2, h3⟩ := (mem_sentEdges _ _ _ _).mp this
  exact ⟨m', hm', e', h1, h2, h3.symm⟩

theorem flipTest_ends {r l : Nat × Nat} (hr : r.1 ≠ r.2) (h : l = r ∨ l = r.swap) :
    flipTest r l = some (decide (l ≠ r)) ∧ flipTest2 r l = some (decide (l ≠ r)) := by
  obtain ⟨a, b⟩ := r
  have hr : a ≠ b := hr
  have hr' : b ≠ a := fun e => hr e.symm
  rcases h with rfl | rfl
  · unfold flipTest flipTest2; simp [hr, hr']
  · unfold flipTest flipTest2; simp [Prod.swap, hr, hr']

/-- the edge as shown to the user: turned round if flipped -/
def shown (fl : Bool) (p : Nat × Nat) : Nat × Nat := if fl then p.swap else p

/-- the flag of an edge makes its ends those of the owner -/
theorem flips_edges {w : List MMesh} (hw : EdgesMatch w) {m : MMesh} (hm : m ∈ w) (test : Nat × Nat → Nat × Nat → Option Bool)
    (ht : ∀ r l : Nat × Nat, r.1 ≠ r.2 → (l = r ∨ l = r.swap) → test r l = some (decide (l ≠ r))) :
    ∃ fl, setFlips (ghostList fun e => (m.edge e).ptype) m.emap.id (fun e =>
      test (received (sentEdges w MMesh.edgeAtt) (m.edge e).gid (m.edgeAtt e)) (m.edgeAtt e)) = some fl ∧ fl.length = m.ne ∧
      ∀ e, ∃ b, fl[m.emap.id e - 1]? = some b ∧ ∃ m' ∈ w, ∃ e' : Fin m'.ne, (m'.edge e').ptype ≠ .ghost ∧
        (m'.edge e').gid = (m.edge e).gid ∧ shown b (m.ends e) = m'.ends e' := by
  have T : ∀ e, (m.edge e).ptype = .ghost → ∃ m' ∈ w, ∃ e' : Fin m'.ne, (m'.edge e').ptype = .overlap ∧
      (m'.edge e').gid = (m.edge e).gid ∧ test (received (sentEdges w MMesh.edgeAtt) (m.edge e).gid (m.edgeAtt e)) (m.edgeAtt e) =
        some (decide (m.ends e ≠ m'.ends e')) := by
    intro e he
    obtain ⟨m', hm', e', h1, h2, h3⟩ := received_ends hw hm he
    refine ⟨m', hm', e', h1, h2, ?_⟩
    rw [h3]
    refine ht _ _ (hw.two m' hm' e') ?_
    exact hw.same m' hm' m hm e' e h2
  have key := setFlips_get m.enum (fun e => (m.edge e).ptype) fun e =>
      test (received (sentEdges w MMesh.edgeAtt) (m.edge e).gid (m.edgeAtt e)) (m.edgeAtt e)
  obtain ⟨fl, hfl⟩ := key.1 (by
    intro v hv
    obtain ⟨_, _, _, _, _, h⟩ := T v hv
    exact ⟨_, h⟩)
  obtain ⟨hlen, hget⟩ := key.2 fl hfl
  refine ⟨fl, hfl, hlen, fun e => ⟨_, hget e, ?_⟩⟩
  by_cases he : (m.edge e).ptype = .ghost
  · obtain ⟨m', hm', e', h1, h2, h3⟩ := T e he
    refine ⟨m', hm', e', by rw [h1]; decide, h2, ?_⟩
    rw [h3]
    rcases hw.same m' hm' m hm e' e h2 with h | h
    · simp [h, shown]
    · have hne := hw.two m' hm' e'
      have : m.ends e ≠ m'.ends e' := by
        rw [h]; intro hh
        exact hne (congrArg Prod.fst hh).symm
      simp [he, this, shown]
      rw [h]; simp
  · exact ⟨m, hm, e, he, rfl, by simp [he, shown]⟩

/-! ### Faces -/

theorem mfRegion_iff (m : MMesh) (hr : m.Regions) (f : Fin m.nf) (side : Bool) (r : Fin m.nr) :
    m.mfRegion f side = some r ↔ (f, !side) ∈ (m.region r).faces := by
  unfold MMesh.mfRegion
  constructor
  · intro h
    have := List.find?_some h
    simpa using this
  · intro h
    cases hf : (List.finRange m.nr).find? fun r => (f, !side) ∈ (m.region r).faces with
    | none =>
      rw [List.find?_eq_none] at hf
      exact absurd h (by simpa using hf r (List.mem_finRange r))
    | some r' =>
      have := List.find?_some hf
      rw [hr.sides f (!side) r r' h (by simpa using this)]

theorem sideGid_iff (m : MMesh) (hr : m.Regions) (f : Fin m.nf) (side : Bool) (g : Nat) (hg : g ≠ 0) :
    m.sideGid f side = g ↔ m.Uses g f (!side) := by
  unfold MMesh.sideGid MMesh.Uses
  constructor
  · intro h
    cases hf : m.mfRegion f side with
    | none => rw [hf] at h; exact absurd h.symm hg
    | some r => rw [hf] at h; exact ⟨r, h, (mfRegion_iff m hr f side r).mp hf⟩
  · rintro ⟨r, h1, h2⟩
    rw [(mfRegion_iff m hr f side r).mpr h2]
    exact h1

end Jali.Mstk
