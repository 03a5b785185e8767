import Verif.Model.MstkMesh
import Mathlib.Data.List.Perm.Basic
import Mathlib.Data.List.NodupEquivFin
/- Lemmas about the numbering of entities of `Mesh_MSTK`. -/
namespace Jali.Mstk

variable {n : Nat}

theorem assign_foldl (l : List (Fin n)) (hl : l.Nodup) : ∀ (s : IdMap n) (k : Nat), 1 ≤ k →
    (k - 1) + l.length ≤ s.handle.length →
    (l.foldl assignOne (s, k)).2 = k + l.length ∧
    (l.foldl assignOne (s, k)).1.handle = s.handle.take (k - 1) ++ l.map some ++ s.handle.drop (k - 1 + l.length) ∧
    (∀ v, v ∉ l → (l.foldl assignOne (s, k)).1.id v = s.id v) ∧
    (∀ (i : Nat) (hi : i < l.length), (l.foldl assignOne (s, k)).1.id l[i] = k + i) := by
  induction l with
  | nil => intro s k hk _; simp
  | cons a l ih =>
    intro s k hk hlen
    have hl' := List.nodup_cons.mp hl
    simp only [List.length_cons] at hlen
    have hlen' : (k + 1 - 1) + l.length ≤ (s.handle.set (k - 1) (some a)).length := by simp; omega
    obtain ⟨h1, h2, h3, h4⟩ := ih hl'.2 ⟨Function.update s.id a k, s.handle.set (k - 1) (some a)⟩ (k + 1) (by omega) hlen'
    refine ⟨?_, ?_, ?_, ?_⟩
    · rw [List.foldl_cons]; show (l.foldl assignOne (_, k + 1)).2 = _
      rw [h1]; simp; omega
    · rw [List.foldl_cons]; show (l.foldl assignOne (_, k + 1)).1.handle = _
      rw [h2]; dsimp only
      have e : k + 1 - 1 = (k - 1) + 1 := by omega
      rw [e]
      have hk1 : k - 1 < s.handle.length := by omega
      have t1 : (s.handle.set (k - 1) (some a)).take (k - 1 + 1) = s.handle.take (k - 1) ++ [some a] := by
        rw [List.take_succ_eq_append_getElem (by simpa using hk1)]
        simp [List.take_set_of_le]
      have t2 : (s.handle.set (k - 1) (some a)).drop (k - 1 + 1 + l.length) = s.handle.drop (k - 1 + 1 + l.length) := by
        rw [List.drop_set_of_lt]; omega
      rw [t1, t2]
      simp [List.append_assoc]; congr 1; omega
    · intro v hv
      simp only [List.mem_cons, not_or] at hv
      rw [List.foldl_cons]; show (l.foldl assignOne (_, k + 1)).1.id v = _
      rw [h3 v hv.2]; simp [Function.update, hv.1]
    · intro i hi
      rw [List.foldl_cons]; show (l.foldl assignOne (_, k + 1)).1.id _ = _
      cases i with
      | zero =>
        simp only [List.getElem_cons_zero]
        rw [h3 a hl'.1]; simp
      | succ i =>
        simp only [List.getElem_cons_succ]
        rw [h4 i (by simpa using hi)]; omega

/-- the numbering given by a list of all entities -/
structure Numbered (im : IdMap n) (L : List (Fin n)) : Prop where
  perm : L.Perm (List.finRange n)
  handle : im.handle = L.map some
  id : ∀ (i : Nat) (hi : i < L.length), im.id L[i] = i + 1

theorem numbered_foldl (L : List (Fin n)) (hp : L.Perm (List.finRange n)) :
    Numbered (L.foldl assignOne (freshIds n, 1)).1 L := by
  have hnd : L.Nodup := hp.nodup_iff.mpr (List.nodup_finRange n)
  have hlen : L.length = n := by rw [hp.length_eq]; simp
  obtain ⟨_, h2, _, h4⟩ := assign_foldl L hnd (freshIds n) 1 (le_refl 1) (by simp [freshIds, hlen])
  refine ⟨hp, ?_, ?_⟩
  · rw [h2]; simp [freshIds, hlen]
  · intro i hi; rw [h4 i hi]; omega

namespace Numbered
variable {im : IdMap n} {L : List (Fin n)} (h : Numbered im L)
include h

theorem length : L.length = n := by rw [h.perm.length_eq]; simp

theorem nodup : L.Nodup := h.perm.nodup_iff.mpr (List.nodup_finRange n)

theorem at_eq (i : Nat) : im.at i = L[i]? := by
  unfold IdMap.at
  rw [h.handle, List.getElem?_map]
  cases L[i]? <;> rfl

theorem id_of_at {i : Nat} {v : Fin n} (hv : im.at i = some v) : im.id v = i + 1 := by
  rw [h.at_eq, List.getElem?_eq_some_iff] at hv
  obtain ⟨hi, rfl⟩ := hv
  exact h.id i hi

theorem at_id (v : Fin n) : im.at (im.id v - 1) = some v := by
  have hm : v ∈ L := h.perm.mem_iff.mpr (List.mem_finRange v)
  obtain ⟨i, hi, rfl⟩ := List.mem_iff_getElem.mp hm
  rw [h.id i hi, h.at_eq]
  simp

theorem id_pos (v : Fin n) : 1 ≤ im.id v := by
  have hm : v ∈ L := h.perm.mem_iff.mpr (List.mem_finRange v)
  obtain ⟨i, hi, rfl⟩ := List.mem_iff_getElem.mp hm
  rw [h.id i hi]; omega

theorem id_le (v : Fin n) : im.id v ≤ n := by
  have hm : v ∈ L := h.perm.mem_iff.mpr (List.mem_finRange v)
  obtain ⟨i, hi, rfl⟩ := List.mem_iff_getElem.mp hm
  rw [h.id i hi]; have := h.length; omega

theorem at_some {i : Nat} (hi : i < n) : ∃ v : Fin n, im.at i = some v := by
  rw [h.at_eq]
  have : i < L.length := by rw [h.length]; exact hi
  exact ⟨L[i], List.getElem?_eq_getElem this⟩

theorem lt_of_at {i : Nat} {v : Fin n} (hv : im.at i = some v) : i < n := by
  rw [h.at_eq, List.getElem?_eq_some_iff] at hv
  obtain ⟨hi, _⟩ := hv
  rw [h.length] at hi; exact hi

/-- ids minus one determine the entity -/
theorem id_inj {v w : Fin n} (e : im.id v - 1 = im.id w - 1) : v = w := by
  have hv := h.at_id v
  rw [e, h.at_id w] at hv
  exact (Option.some.inj hv).symm

theorem at_iff {i : Nat} {v : Fin n} : im.at i = some v ↔ im.id v - 1 = i := by
  constructor
  · intro hv; rw [h.id_of_at hv]; rfl
  · rintro rfl; exact h.at_id v

/-- the ids of a part of the list are consecutive -/
theorem map_part (A B C : List (Fin n)) (e : L = A ++ B ++ C) :
    (B.map fun v => im.id v - 1) = List.range' A.length B.length := by
  apply List.ext_getElem
  · simp
  · intro i h1 h2
    simp only [List.length_map] at h1
    have hi : A.length + i < L.length := by rw [e]; simp; omega
    have : L[A.length + i] = B[i] := by
      subst e
      rw [List.getElem_append_left (by simp; omega), List.getElem_append_right (by omega)]
      simp
    simp only [List.getElem_map, List.getElem_range']
    rw [← this, h.id _ hi]; omega

end Numbered

theorem perm_two (pt : Fin n → PType) : (ownedList pt ++ ghostList pt).Perm (List.finRange n) := by
  have := List.filter_append_perm (fun i => decide (pt i ≠ .ghost)) (List.finRange n)
  refine List.Perm.trans ?_ this
  unfold ownedList ghostList
  apply List.Perm.append_left
  apply List.Perm.of_eq
  congr 1; funext i; simp

theorem perm_three (bg : Bool) (pt : Fin n → PType) (mk : Fin n → Bool) :
    (ownedCells bg pt mk ++ ghostList pt ++ bndryCells bg pt mk).Perm (List.finRange n) := by
  have h1 := perm_two pt
  have h2 := List.filter_append_perm (fun i => decide (¬(bg && mk i) = true)) (ownedList pt)
  refine List.Perm.trans ?_ h1
  have e1 : ownedCells bg pt mk = (ownedList pt).filter (fun i => decide (¬(bg && mk i) = true)) := by
    unfold ownedCells ownedList; rw [List.filter_filter]; congr 1; funext i
    cases bg <;> cases mk i <;> cases pt i <;> rfl
  have e2 : bndryCells bg pt mk = (ownedList pt).filter (fun i => !decide (¬(bg && mk i) = true)) := by
    unfold bndryCells ownedList; rw [List.filter_filter]; congr 1; funext i
    cases bg <;> cases mk i <;> cases pt i <;> rfl
  rw [e1, e2]
  refine List.Perm.trans ?_ (List.Perm.append_right (ghostList pt) h2)
  rw [List.append_assoc, List.append_assoc]
  exact List.Perm.append_left _ List.perm_append_comm

theorem bndryCells_false (pt : Fin n → PType) (mk : Fin n → Bool) : bndryCells false pt mk = [] := by
  unfold bndryCells; simp

theorem numbered_two (pt : Fin n → PType) :
    Numbered (idMap2 (ownedList pt) (ghostList pt)) (ownedList pt ++ ghostList pt) := by
  have := numbered_foldl _ (perm_two pt)
  rwa [List.foldl_append] at this

theorem numbered_three (bg : Bool) (pt : Fin n → PType) (mk : Fin n → Bool) :
    Numbered (idMap3 bg (ownedCells bg pt mk) (ghostList pt) (bndryCells bg pt mk))
      (ownedCells bg pt mk ++ ghostList pt ++ bndryCells bg pt mk) := by
  have := numbered_foldl _ (perm_three bg pt mk)
  rw [List.foldl_append, List.foldl_append] at this
  unfold idMap3
  cases bg with
  | true => exact this
  | false => rw [bndryCells_false] at this ⊢; exact this

theorem MMesh.vnum (m : MMesh) : Numbered m.vmap
    ((ownedList fun i => (m.vtx i).ptype) ++ ghostList fun i => (m.vtx i).ptype) := numbered_two _
theorem MMesh.enum (m : MMesh) : Numbered m.emap
    ((ownedList fun i => (m.edge i).ptype) ++ ghostList fun i => (m.edge i).ptype) := numbered_two _
theorem MMesh.fnum (m : MMesh) : Numbered m.fmap
    ((ownedList fun i => (m.face i).ptype) ++ ghostList fun i => (m.face i).ptype) := numbered_two _
theorem MMesh.rnum (m : MMesh) (bg : Bool) : Numbered (m.rmap bg)
    (ownedCells bg (fun i => (m.region i).ptype) (fun i => (m.region i).bndryGhost) ++
      (ghostList fun i => (m.region i).ptype) ++
      bndryCells bg (fun i => (m.region i).ptype) fun i => (m.region i).bndryGhost) := numbered_three bg _ _
theorem MMesh.cnum (m : MMesh) (bg : Bool) : Numbered (m.cmap bg)
    (ownedCells bg (fun i => (m.face i).ptype) (fun i => (m.face i).bndryGhost) ++
      (ghostList fun i => (m.face i).ptype) ++
      bndryCells bg (fun i => (m.face i).ptype) fun i => (m.face i).bndryGhost) := numbered_three bg _ _

end Jali.Mstk
