import Verif.Spec.MstkFields
import Verif.Proof.MstkMesh
/-
Lemmas on fields and on numbering in order.
-/
namespace Jali.Mstk
variable {D : Type}

/-! ### Numbering in the order of the mesh -/

theorem three_sorted {α : Type} (c : α → Nat) (l : List α) (h : l.Pairwise fun a b => c a ≤ c b) (hc : ∀ a ∈ l, c a ≤ 2) :
    (l.filter fun a => c a = 0) ++ (l.filter fun a => c a = 1) ++ (l.filter fun a => c a = 2) = l := by
  induction l with
  | nil => rfl
  | cons a l ih =>
    rw [List.pairwise_cons] at h
    have ih := ih h.2 fun b hb => hc b (List.mem_cons_of_mem _ hb)
    have ha := hc a List.mem_cons_self
    have e : c a = 0 ∨ c a = 1 ∨ c a = 2 := by omega
    rcases e with e | e | e
    · simp only [List.filter_cons, e]
      simpa using ih
    · have h0 : (l.filter fun a => c a = 0) = [] := by
        rw [List.filter_eq_nil_iff]; intro b hb; have := h.1 b hb; simp; omega
      rw [h0] at ih
      simp only [List.filter_cons, e, h0]
      simpa using ih
    · have h0 : (l.filter fun a => c a = 0) = [] := by
        rw [List.filter_eq_nil_iff]; intro b hb; have := h.1 b hb; simp; omega
      have h1 : (l.filter fun a => c a = 1) = [] := by
        rw [List.filter_eq_nil_iff]; intro b hb; have := h.1 b hb; simp; omega
      rw [h0, h1] at ih
      simp only [List.filter_cons, e, h0, h1]
      simpa using ih

theorem sorted_three {α : Type} (c : α → Nat) (l : List α) :
    ((l.filter fun a => c a = 0) ++ (l.filter fun a => c a = 1) ++ (l.filter fun a => c a = 2)).Pairwise
      fun a b => c a ≤ c b := by
  have key : ∀ k, (l.filter fun a => c a = k).Pairwise fun a b => c a ≤ c b := by
    intro k
    refine List.Pairwise.imp_of_mem (R := fun _ _ => True) ?_ (List.pairwise_of_forall (fun _ _ => trivial))
    intro a b ha hb _
    have ha := (List.mem_filter.mp ha).2
    have hb := (List.mem_filter.mp hb).2
    simp only [decide_eq_true_eq] at ha hb
    omega
  rw [List.pairwise_append, List.pairwise_append]
  refine ⟨⟨key 0, key 1, ?_⟩, key 2, ?_⟩
  · intro a ha b hb
    have ha := (List.mem_filter.mp ha).2
    have hb := (List.mem_filter.mp hb).2
    simp only [decide_eq_true_eq] at ha hb
    omega
  · intro a ha b hb
    have hb := (List.mem_filter.mp hb).2
    simp only [decide_eq_true_eq] at hb
    rw [List.mem_append] at ha
    rcases ha with ha | ha <;>
    · have ha := (List.mem_filter.mp ha).2
      simp only [decide_eq_true_eq] at ha
      omega

/-- a numbering by the list `L` follows the order of the mesh iff `L` does -/
theorem inOrder_list {n : Nat} {im : IdMap n} {L : List (Fin n)} (h : Numbered im L) :
    (∀ i v, im.at i = some v → v.val = i) ↔ L = List.finRange n := by
  constructor
  · intro hh
    apply List.ext_getElem
    · rw [h.length]; simp
    · intro i h1 h2
      have := hh i L[i] (by rw [h.at_eq]; exact List.getElem?_eq_getElem h1)
      rw [List.getElem_finRange]
      exact Fin.ext this
  · rintro rfl i v hv
    rw [h.at_eq, List.getElem?_eq_some_iff] at hv
    obtain ⟨hi, rfl⟩ := hv
    rw [List.getElem_finRange]
    rfl

theorem finRange_pairwise {n : Nat} (c : Fin n → Nat) :
    ((List.finRange n).Pairwise fun a b => c a ≤ c b) ↔ ∀ a b : Fin n, a < b → c a ≤ c b := by
  rw [List.pairwise_iff_getElem]
  constructor
  · intro h a b hab
    have := h a.val b.val (by simp) (by simp) hab
    simpa using this
  · intro h i j hi hj hij
    apply h
    simp only [List.getElem_finRange]
    exact hij

theorem list_three {n : Nat} (bg : Bool) (pt : Fin n → PType) (mk : Fin n → Bool) :
    ownedCells bg pt mk ++ ghostList pt ++ bndryCells bg pt mk =
      ((List.finRange n).filter fun a => group bg (pt a) (mk a) = 0) ++
      ((List.finRange n).filter fun a => group bg (pt a) (mk a) = 1) ++
      ((List.finRange n).filter fun a => group bg (pt a) (mk a) = 2) := by
  unfold ownedCells ghostList bndryCells
  congr 1
  · congr 1
    · apply List.filter_congr
      intro a _
      unfold group
      by_cases h : pt a = .ghost
      · simp [h]
      · cases hb : bg && mk a <;> simp [h, hb]
    · apply List.filter_congr
      intro a _
      unfold group
      by_cases h : pt a = .ghost
      · simp [h]
      · cases hb : bg && mk a <;> simp [h, hb]
  · apply List.filter_congr
    intro a _
    unfold group
    by_cases h : pt a = .ghost
    · simp [h]
    · cases hb : bg && mk a <;> simp [h, hb]

theorem group_le (bg : Bool) (p : PType) (mk : Bool) : group bg p mk ≤ 2 := by
  unfold group; split
  · omega
  · split <;> omega

theorem inOrder_three {n : Nat} (bg : Bool) (pt : Fin n → PType) (mk : Fin n → Bool) :
    (∀ i v, (idMap3 bg (ownedCells bg pt mk) (ghostList pt) (bndryCells bg pt mk)).at i = some v → v.val = i) ↔
    ∀ a b : Fin n, a < b → group bg (pt a) (mk a) ≤ group bg (pt b) (mk b) := by
  rw [inOrder_list (numbered_three bg pt mk), list_three]
  rw [← finRange_pairwise fun a => group bg (pt a) (mk a)]
  constructor
  · intro h; rw [← h]; exact sorted_three (fun a => group bg (pt a) (mk a)) _
  · intro h; exact three_sorted (fun a => group bg (pt a) (mk a)) _ h fun a _ => group_le _ _ _

theorem inOrder_two {n : Nat} (pt : Fin n → PType) :
    (∀ i v, (idMap2 (ownedList pt) (ghostList pt)).at i = some v → v.val = i) ↔
    ∀ a b : Fin n, a < b → pt a = .ghost → pt b = .ghost := by
  have h := inOrder_three false pt fun _ => false
  have e : idMap3 false (ownedCells false pt fun _ => false) (ghostList pt) (bndryCells false pt fun _ => false) =
      idMap2 (ownedList pt) (ghostList pt) := by
    unfold idMap3 idMap2
    have : (ownedCells false pt fun _ => false) = ownedList pt := by unfold ownedCells ownedList; simp
    rw [this]; rfl
  rw [e] at h
  rw [h]
  constructor
  · intro hh a b hab ha
    have := hh a b hab
    unfold group at this
    rw [if_pos ha] at this
    by_contra hb
    rw [if_neg hb] at this
    simp at this
  · intro hh a b hab
    unfold group
    by_cases ha : pt a = .ghost
    · rw [if_pos ha, if_pos (hh a b hab ha)]
    · rw [if_neg ha]; simp

/-! ### Fields -/

theorem toMtype_some (fm : FMesh D) (hd : fm.Dim) {k : EntityKind} (hk : FieldKind k) : ∃ t, fm.toMtype k = some t := by
  unfold FMesh.toMtype
  rcases hd with h | h <;> rw [h] <;> rcases hk with rfl | rfl | rfl | rfl <;> exact ⟨_, rfl⟩

theorem toMtype_none (fm : FMesh D) {k : EntityKind} (hk : ¬FieldKind k) : fm.toMtype k = none := by
  unfold FMesh.toMtype
  have key : ∀ r ∈ kind2mtype, r.length = 4 := by decide
  have big : 4 ≤ k.code.toNat → (kind2mtype[fm.mdim]?).bind (fun row => row[k.code.toNat]?) = none := by
    intro hb
    cases hr : kind2mtype[fm.mdim]? with
    | none => rfl
    | some r =>
      rw [Option.bind_some, List.getElem?_eq_none]
      rw [key r (List.mem_of_getElem? hr)]; exact hb
  cases k
  case NODE => exact absurd (Or.inl rfl) hk
  case EDGE => exact absurd (Or.inr (Or.inl rfl)) hk
  case FACE => exact absurd (Or.inr (Or.inr (Or.inl rfl))) hk
  case CELL => exact absurd (Or.inr (Or.inr (Or.inr rfl))) hk
  case ALL_KIND => rfl
  case ANY_KIND => rfl
  case UNKNOWN_KIND => rfl
  all_goals
    rw [if_neg (by decide)]; exact big (by decide)

theorem entity_lt (fm : FMesh D) (hd : fm.Dim) {k : EntityKind} (hk : FieldKind k) {t : MType} (ht : fm.toMtype k = some t)
    {id : Nat} (hid : id < fm.nent t) : ∃ h, fm.entity k id = some h ∧ h < fm.nent t := by
  have key : ∀ {n : Nat} {im : IdMap n} {L : List (Fin n)}, Numbered im L → id < n →
      ∃ h, (im.at id).map Fin.val = some h ∧ h < n := by
    intro n im L hn hlt
    obtain ⟨v, hv⟩ := hn.at_some hlt
    exact ⟨v.val, by rw [hv]; rfl, v.isLt⟩
  unfold FMesh.toMtype at ht
  unfold FMesh.entity
  rcases hd with h | h <;> rw [h] at ht <;> rcases hk with rfl | rfl | rfl | rfl <;> cases ht <;> try rw [h]
  · exact key fm.j.m.vnum hid
  · exact key fm.j.m.enum hid
  · exact key fm.j.m.enum hid
  · exact key (fm.j.m.cnum _) hid
  · exact key fm.j.m.vnum hid
  · exact key fm.j.m.enum hid
  · exact key fm.j.m.fnum hid
  · exact key (fm.j.m.rnum _) hid

theorem put_j (fm : FMesh D) (a : Attr D) : (fm.put a).j = fm.j ∧ (fm.put a).mdim = fm.mdim ∧ (fm.put a).sdim = fm.sdim := by
  unfold FMesh.put; split <;> exact ⟨rfl, rfl, rfl⟩

theorem put_nent (fm : FMesh D) (a : Attr D) (t : MType) : (fm.put a).nent t = fm.nent t := by
  unfold FMesh.nent; rw [(put_j fm a).1]

theorem put_toMtype (fm : FMesh D) (a : Attr D) (k : EntityKind) : (fm.put a).toMtype k = fm.toMtype k := by
  unfold FMesh.toMtype; rw [(put_j fm a).2.1]

theorem put_entity (fm : FMesh D) (a : Attr D) (k : EntityKind) (i : Nat) : (fm.put a).entity k i = fm.entity k i := by
  unfold FMesh.entity; rw [(put_j fm a).1, (put_j fm a).2.1]

theorem find_set {α : Type} (p : α → Bool) (b : α) : ∀ (l : List α) (i : Nat), l.findIdx? p = some i → p b = true →
    (l.set i b).find? p = some b := by
  intro l
  induction l with
  | nil => intro i h; cases h
  | cons a l ih =>
    intro i h hb
    rw [List.findIdx?_cons] at h
    by_cases ha : p a = true
    · rw [if_pos ha] at h; cases h; simp [hb]
    · rw [if_neg ha, Option.map_eq_some_iff] at h
      obtain ⟨j, hj, rfl⟩ := h
      rw [List.set_cons_succ, List.find?_cons_of_neg ha]
      exact ih j hj hb

theorem find_set_other {α : Type} (p q : α → Bool) (b : α) : ∀ (l : List α) (i : Nat), l.findIdx? p = some i →
    q b = false → (∀ x, p x = true → q x = false) → (l.set i b).find? q = l.find? q := by
  intro l
  induction l with
  | nil => intro i h; cases h
  | cons a l ih =>
    intro i h hb hpq
    rw [List.findIdx?_cons] at h
    by_cases ha : p a = true
    · rw [if_pos ha] at h; cases h; simp [hb, hpq a ha]
    · rw [if_neg ha, Option.map_eq_some_iff] at h
      obtain ⟨j, hj, rfl⟩ := h
      rw [List.set_cons_succ, List.find?_cons, List.find?_cons, ih j hj hb hpq]

theorem put_byName (fm : FMesh D) (a : Attr D) : (fm.put a).byName a.name = some a := by
  unfold FMesh.put FMesh.byName
  cases h : fm.atts.findIdx? fun b => b.name = a.name with
  | some i => exact find_set _ a _ i h (by simp)
  | none =>
    dsimp only
    rw [List.findIdx?_eq_none_iff] at h
    rw [List.find?_append, List.find?_eq_none.mpr (by intro x hx; simpa using h x hx)]
    simp

theorem put_byName_other (fm : FMesh D) (a : Attr D) (name : String) (hn : name ≠ a.name) :
    (fm.put a).byName name = fm.byName name := by
  unfold FMesh.put FMesh.byName
  cases h : fm.atts.findIdx? fun b => b.name = a.name with
  | some i =>
    refine find_set_other _ _ a _ i h ?_ ?_
    · simpa using fun e => hn e.symm
    · intro x hx
      simp only [decide_eq_true_eq] at hx
      rw [hx]; simpa using fun e => hn e.symm
  | none =>
    dsimp only
    have : ¬(a.name = name) := fun e => hn e.symm
    rw [List.find?_append]
    simp [this]

theorem byName_name {fm : FMesh D} {name : String} {a : Attr D} (h : fm.byName name = some a) : a.name = name := by
  have := List.find?_some h
  simpa using this

theorem range_write (a : Attr D) (n : Nat) (data : List (Val D)) (h : n ≤ data.length) :
    (List.range n).map (a.write n data).val = data.take n := by
  apply List.ext_getElem
  · simp [h]
  · intro i h1 h2
    have hi : i < n := by simpa using h1
    simp only [List.getElem_map, List.getElem_range, List.getElem_take, Attr.write, if_pos hi]
    rw [List.getD_eq_getElem?_getD, List.getElem?_eq_getElem (by omega)]; rfl

end Jali.Mstk
