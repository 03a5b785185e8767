import Verif.Spec.StateSites
import Verif.Proof.Materials2
import Verif.Proof.SetRegistry
/-! Several state managers on one mesh: what one does is not seen by another. -/
namespace Jali.St
open Jali.MSet
variable {V : Type}

/-- The worlds of the interleaved and of the solitary run agree on the cell sets whose names are not in `N`. -/
structure WorldRel (N : String → Prop) (w w0 : Reg.World) : Prop where
  view : w.view = w0.view
  ok : RegOk w
  ok0 : RegOk w0
  sets : ∀ n, ¬ N n →
    (Reg.findMeshset w n .CELL = none ∧ Reg.findMeshset w0 n .CELL = none) ∨
    ∃ a a0 o, Reg.findMeshset w n .CELL = some a ∧ Reg.findMeshset w0 n .CELL = some a0 ∧
      w.heap[a]? = some o ∧ w0.heap[a0]? = some o

/-- a step that leaves sets with names outside `N` alone -/
structure Quiet (N : String → Prop) (w w' : Reg.World) : Prop where
  view : w'.view = w.view
  ok : RegOk w → RegOk w'
  find : RegOk w → ∀ n, ¬ N n → Reg.findMeshset w' n .CELL = Reg.findMeshset w n .CELL
  same : ∀ (a : Nat) (o : Obj), w.heap[a]? = some o → ¬ N o.name → w'.heap[a]? = some o

/-- sets keep their names -/
def KeepsNames (w w' : Reg.World) : Prop :=
  ∀ (a : Nat) (o : Obj), w.heap[a]? = some o → ∃ o' : Obj, w'.heap[a]? = some o' ∧ o'.name = o.name

/-- all materials have names in `N` -/
def NamesIn (N : String → Prop) (w : Reg.World) (mats : List Nat) : Prop :=
  ∀ a ∈ mats, ∃ o : Obj, w.heap[a]? = some o ∧ N o.name

theorem Quiet.refl (N : String → Prop) (w : Reg.World) : Quiet N w w :=
  ⟨rfl, id, fun _ _ _ => rfl, fun _ _ h _ => h⟩

theorem Quiet.trans {N : String → Prop} {a b c : Reg.World} (h : Quiet N a b) (h' : Quiet N b c) : Quiet N a c :=
  ⟨h'.view.trans h.view, fun x => h'.ok (h.ok x), fun x n hn => (h'.find (h.ok x) n hn).trans (h.find x n hn),
    fun x o ho hn => h'.same x o (h.same x o ho hn) hn⟩

theorem KeepsNames.refl (w : Reg.World) : KeepsNames w w := fun _ o h => ⟨o, h, rfl⟩

theorem KeepsNames.trans {a b c : Reg.World} (h : KeepsNames a b) (h' : KeepsNames b c) : KeepsNames a c := by
  intro x o ho
  obtain ⟨o1, h1, e1⟩ := h x o ho
  obtain ⟨o2, h2, e2⟩ := h' x o1 h1
  exact ⟨o2, h2, e2.trans e1⟩

theorem NamesIn.keeps {N : String → Prop} {w w' : Reg.World} {mats : List Nat} (h : NamesIn N w mats)
    (hk : KeepsNames w w') : NamesIn N w' mats := by
  intro a ha
  obtain ⟨o, ho, hn⟩ := h a ha
  obtain ⟨o', ho', e⟩ := hk a o ho
  exact ⟨o', ho', by rw [e]; exact hn⟩

theorem WorldRel.quiet {N : String → Prop} {w w' w0 : Reg.World} (h : WorldRel N w w0) (hq : Quiet N w w') :
    WorldRel N w' w0 := by
  refine ⟨hq.view.trans h.view, hq.ok h.ok, h.ok0, fun n hn => ?_⟩
  rw [hq.find h.ok n hn]
  rcases h.sets n hn with h1 | ⟨a, a0, o, h1, h2, h3, h4⟩
  · exact Or.inl h1
  · refine Or.inr ⟨a, a0, o, h1, h2, hq.same a o h3 ?_, h4⟩
    obtain ⟨-, s, hs, hsn, -⟩ := Reg.findMeshset_some h1
    rw [h3] at hs; injection hs with hs
    rw [hs, hsn]; exact hn

/-! ### growing a set -/

theorem growSet_eq {w w' : Reg.World} {a : Nat} {cs : List Nat} (h : growSet w a cs = .ok w') :
    ∃ o o', w.heap[a]? = some o ∧ addEntities (w.view .CELL) o cs = .ok o' ∧ SameId o o' ∧
      w' = { w with heap := w.heap.set a o' } := by
  unfold growSet at h
  split at h
  · cases h
  · rename_i o ho
    split at h
    · cases h
    · rename_i o' ho'
      cases h
      exact ⟨o, o', ho, ho', addEntities_id ho', rfl⟩

theorem growSet_keeps {w w' : Reg.World} {a : Nat} {cs : List Nat} (h : growSet w a cs = .ok w') : KeepsNames w w' := by
  obtain ⟨o, o', ho, -, hid, rfl⟩ := growSet_eq h
  intro b p hp
  dsimp only
  by_cases hab : a = b
  · subst hab
    rw [ho] at hp; cases hp
    exact ⟨o', List.getElem?_set_self (List.getElem?_eq_some_iff.1 ho).1, hid.name⟩
  · exact ⟨p, by rw [List.getElem?_set_ne hab]; exact hp, rfl⟩

theorem growSet_quiet {N : String → Prop} {w w' : Reg.World} {a : Nat} {cs : List Nat} (h : growSet w a cs = .ok w')
    (hn : ∃ o : Obj, w.heap[a]? = some o ∧ N o.name) : Quiet N w w' := by
  obtain ⟨o, o', ho, -, hid, rfl⟩ := growSet_eq h
  obtain ⟨o1, ho1, hN⟩ := hn
  rw [ho] at ho1; cases ho1
  refine ⟨rfl, fun hw b hb => ?_, fun _ n _ => growSet_find ho hid n .CELL, fun b p hp hq => ?_⟩
  · show b < (w.heap.set a o').length
    rw [List.length_set]; exact hw b hb
  · show (w.heap.set a o')[b]? = some p
    by_cases hab : a = b
    · subst hab; rw [ho] at hp; cases hp; exact absurd hN hq
    · rw [List.getElem?_set_ne hab]; exact hp

theorem growSet_rel {N : String → Prop} {w w0 w1 : Reg.World} {a a0 : Nat} {n : String} {cs : List Nat}
    (h : WorldRel N w w0) (hn : ¬ N n) (ha : Reg.findMeshset w n .CELL = some a)
    (ha0 : Reg.findMeshset w0 n .CELL = some a0) (hg : growSet w a cs = .ok w1) :
    ∃ w01, growSet w0 a0 cs = .ok w01 ∧ WorldRel N w1 w01 ∧
      (∀ n', Reg.findMeshset w1 n' .CELL = Reg.findMeshset w n' .CELL) ∧
      (∀ n', Reg.findMeshset w01 n' .CELL = Reg.findMeshset w0 n' .CELL) := by
  obtain ⟨o, o', ho, hadd, hid, rfl⟩ := growSet_eq hg
  have ho0 : w0.heap[a0]? = some o := by
    rcases h.sets n hn with ⟨h1, -⟩ | ⟨b, b0, p, h1, h2, h3, h4⟩
    · rw [ha] at h1; cases h1
    · rw [ha] at h1; rw [ha0] at h2; cases h1; cases h2
      rw [ho] at h3; cases h3; exact h4
  have hal := (List.getElem?_eq_some_iff.1 ho).1
  have hal0 := (List.getElem?_eq_some_iff.1 ho0).1
  refine ⟨{ w0 with heap := w0.heap.set a0 o' }, ?_, ⟨h.view, ?_, ?_, ?_⟩, fun n' => growSet_find ho hid n' .CELL,
    fun n' => growSet_find ho0 hid n' .CELL⟩
  · unfold growSet
    rw [ho0]; dsimp only; rw [← h.view, hadd]
  · intro b hb
    show b < (w.heap.set a o').length
    rw [List.length_set]; exact h.ok b hb
  · intro b hb
    show b < (w0.heap.set a0 o').length
    rw [List.length_set]; exact h.ok0 b hb
  · intro n' hn'
    rw [growSet_find ho hid n' .CELL, growSet_find ho0 hid n' .CELL]
    rcases h.sets n' hn' with h1 | ⟨b, b0, p, h1, h2, h3, h4⟩
    · exact Or.inl h1
    · right
      by_cases hnn : n' = n
      · subst hnn
        rw [ha] at h1; rw [ha0] at h2; cases h1; cases h2
        exact ⟨a, a0, o', ha, ha0, List.getElem?_set_self hal, List.getElem?_set_self hal0⟩
      · refine ⟨b, b0, p, h1, h2, ?_, ?_⟩
        · show (w.heap.set a o')[b]? = some p
          rw [List.getElem?_set_ne, h3]
          rintro rfl
          obtain ⟨-, q, hq, hqn, -⟩ := Reg.findMeshset_some ha
          obtain ⟨-, q', hq', hqn', -⟩ := Reg.findMeshset_some h1
          rw [hq] at hq'; cases hq'
          exact hnn (hqn'.symm.trans hqn)
        · show (w0.heap.set a0 o')[b0]? = some p
          rw [List.getElem?_set_ne, h4]
          rintro rfl
          obtain ⟨-, q, hq, hqn, -⟩ := Reg.findMeshset_some ha0
          obtain ⟨-, q', hq', hqn', -⟩ := Reg.findMeshset_some h2
          rw [hq] at hq'; cases hq'
          exact hnn (hqn'.symm.trans hqn)

/-! ### the set of a new material -/

theorem find_withSet {w : Reg.World} {p : Obj} (hw : RegOk w) {n : String} {k : EntityKind} :
    Reg.findMeshset (Reg.withSet w p false) n k =
      (Reg.findMeshset w n k).or (if p.name = n ∧ p.kind = k then some w.heap.length else none) := by
  have hreg : (Reg.withSet w p false).reg = w.reg ++ [w.heap.length] := rfl
  have hheap : (Reg.withSet w p false).heap = w.heap ++ [p] := rfl
  unfold Reg.findMeshset
  rw [hreg, List.find?_append]
  congr 1
  · have : ∀ l : List Nat, (∀ a ∈ l, a < w.heap.length) →
        l.find? (fun a => Reg.nameKind (Reg.withSet w p false) a n k) = l.find? (fun a => Reg.nameKind w a n k) := by
      intro l
      induction l with
      | nil => intro _; rfl
      | cons a l ih =>
        intro h
        have ha : Reg.nameKind (Reg.withSet w p false) a n k = Reg.nameKind w a n k := by
          unfold Reg.nameKind
          rw [hheap, List.getElem?_append_left (h a (by simp))]
        rw [List.find?_cons, List.find?_cons, ha, ih (fun b hb => h b (by simp [hb]))]
    exact this _ hw
  · have : Reg.nameKind (Reg.withSet w p false) w.heap.length n k = decide (p.name = n ∧ p.kind = k) := by
      unfold Reg.nameKind
      rw [hheap, List.getElem?_concat_length]
      simp
    rw [List.find?_cons, this]
    by_cases hc : p.name = n ∧ p.kind = k
    · simp [hc]
    · simp [hc]

theorem withSet_ok {w : Reg.World} {p : Obj} (hw : RegOk w) : RegOk (Reg.withSet w p false) := by
  intro b hb
  have hreg : (Reg.withSet w p false).reg = w.reg ++ [w.heap.length] := rfl
  have hheap : (Reg.withSet w p false).heap = w.heap ++ [p] := rfl
  rw [hreg, List.mem_append, List.mem_singleton] at hb
  rw [hheap, List.length_append, List.length_singleton]
  rcases hb with hb | hb
  · have := hw b hb; omega
  · omega

theorem materialSetFor_eq {w w' : Reg.World} {n : String} {a : Nat} (h : materialSetFor w n = .ok (a, w')) :
    (Reg.findMeshset w n .CELL = some a ∧ w' = w) ∨
    (Reg.findMeshset w n .CELL = none ∧ ∃ p : Obj, p.name = n ∧ p.kind = .CELL ∧
      construct (w.view .CELL) n 0 .CELL [] [] true = .ok p ∧ a = w.heap.length ∧ w' = Reg.withSet w p false) := by
  unfold materialSetFor at h
  split at h
  · rename_i b hb
    cases h; exact Or.inl ⟨hb, rfl⟩
  · rename_i hb
    right
    split at h
    · rename_i r hr
      cases h
      unfold Reg.makeMeshset at hr
      split at hr
      · cases hr
      · rename_i p hp
        cases hr
        have hf := construct_fields hp
        exact ⟨hb, p, hf.2.2.2.2.2, hf.1, hp, rfl, rfl⟩
    · cases h

theorem materialSetFor_keeps {w w' : Reg.World} {n : String} {a : Nat} (h : materialSetFor w n = .ok (a, w')) :
    KeepsNames w w' ∧ ∃ o : Obj, w'.heap[a]? = some o ∧ o.name = n := by
  rcases materialSetFor_eq h with ⟨h1, rfl⟩ | ⟨-, p, hpn, -, -, rfl, rfl⟩
  · obtain ⟨-, o, ho, hn, -⟩ := Reg.findMeshset_some h1
    exact ⟨.refl _, o, ho, hn⟩
  · refine ⟨fun b o ho => ⟨o, ?_, rfl⟩, p, Reg.withSet_get w p false, hpn⟩
    rw [Reg.withSet_heap, List.getElem?_append_left (List.getElem?_eq_some_iff.1 ho).1, ho]

theorem materialSetFor_quiet {N : String → Prop} {w w' : Reg.World} {n : String} {a : Nat}
    (h : materialSetFor w n = .ok (a, w')) (hn : N n) : Quiet N w w' := by
  rcases materialSetFor_eq h with ⟨h1, rfl⟩ | ⟨-, p, hpn, -, -, rfl, rfl⟩
  · exact .refl _ _
  · refine ⟨Reg.withSet_view w p false, withSet_ok, fun hw m hm => ?_, fun b o ho _ => ?_⟩
    · rw [find_withSet hw, if_neg, Option.or_none]
      rintro ⟨h1, -⟩
      exact hm (by rw [← h1, hpn]; exact hn)
    · rw [Reg.withSet_heap, List.getElem?_append_left (List.getElem?_eq_some_iff.1 ho).1, ho]

theorem materialSetFor_rel {N : String → Prop} {w w0 w1 : Reg.World} {a : Nat} {n : String}
    (h : WorldRel N w w0) (hn : ¬ N n) (hs : materialSetFor w n = .ok (a, w1)) :
    ∃ a0 w01, materialSetFor w0 n = .ok (a0, w01) ∧ WorldRel N w1 w01 ∧
      Reg.findMeshset w1 n .CELL = some a ∧ Reg.findMeshset w01 n .CELL = some a0 ∧
      (∀ m b, Reg.findMeshset w m .CELL = some b → Reg.findMeshset w1 m .CELL = some b) ∧
      (∀ m b, Reg.findMeshset w0 m .CELL = some b → Reg.findMeshset w01 m .CELL = some b) := by
  rcases materialSetFor_eq hs with ⟨h1, rfl⟩ | ⟨h1, p, hpn, hpk, hp, rfl, rfl⟩
  · rcases h.sets n hn with ⟨h2, -⟩ | ⟨b, b0, o, h2, h3, h4, h5⟩
    · rw [h1] at h2; cases h2
    · refine ⟨b0, w0, ?_, h, h1, h3, fun _ _ x => x, fun _ _ x => x⟩
      unfold materialSetFor; rw [h3]
  · rcases h.sets n hn with ⟨-, h2⟩ | ⟨b, b0, o, h2, -⟩
    swap
    · rw [h1] at h2; cases h2
    refine ⟨w0.heap.length, Reg.withSet w0 p false, ?_, ⟨?_, withSet_ok h.ok, withSet_ok h.ok0, ?_⟩, ?_, ?_, ?_, ?_⟩
    · unfold materialSetFor
      rw [h2]; dsimp only
      unfold Reg.makeMeshset
      rw [← h.view, hp]; rfl
    · rw [Reg.withSet_view, Reg.withSet_view]; exact h.view
    · intro m hm
      rw [find_withSet h.ok, find_withSet h.ok0]
      rcases h.sets m hm with ⟨h3, h4⟩ | ⟨b, b0, o, h3, h4, h5, h6⟩
      · rw [h3, h4]
        by_cases hc : p.name = m ∧ p.kind = .CELL
        · right
          exact ⟨w.heap.length, w0.heap.length, p, by simp [hc], by simp [hc], Reg.withSet_get w p false,
            Reg.withSet_get w0 p false⟩
        · left; simp [hc]
      · right
        refine ⟨b, b0, o, by simp [h3], by simp [h4], ?_, ?_⟩
        · rw [Reg.withSet_heap, List.getElem?_append_left (List.getElem?_eq_some_iff.1 h5).1, h5]
        · rw [Reg.withSet_heap, List.getElem?_append_left (List.getElem?_eq_some_iff.1 h6).1, h6]
    · rw [find_withSet h.ok, h1]; simp [hpn, hpk]
    · rw [find_withSet h.ok0, h2]; simp [hpn, hpk]
    · intro m b hb; rw [find_withSet h.ok, hb]; simp
    · intro m b hb; rw [find_withSet h.ok0, hb]; simp

end Jali.St
