import Verif.Props.MeshSet
import Verif.Spec.SetRegistry
import Mathlib.Data.List.Nodup
namespace Jali.Reg
open Jali.MSet

variable {P K : Type} [Field K] [LinearOrder K]

theorem findMeshset_some {w : World} {n : String} {k : EntityKind} {a : Nat} (h : findMeshset w n k = some a) :
    a ∈ w.reg ∧ ∃ s, w.heap[a]? = some s ∧ s.name = n ∧ s.kind = k := by
  refine ⟨List.mem_of_find?_eq_some h, ?_⟩
  have := List.find?_some h
  simp only [nameKind] at this
  split at this
  · rename_i s hs
    simp only [Bool.and_eq_true, decide_eq_true_eq] at this
    exact ⟨s, hs, this⟩
  · cases this

theorem findRegion_mem {gm : List (Region P)} {n : String} {r : Region P} (h : findRegion gm n = some r) :
    r ∈ gm ∧ r.name = n := by
  refine ⟨List.mem_of_find?_eq_some h, ?_⟩
  simpa using List.find?_some h

/-- what a growing step keeps: sets stay as they are and where they are, new ones have the kind -/
structure Grows (kind : EntityKind) (w w' : World) : Prop where
  view : w'.view = w.view
  heap : w.heap <+: w'.heap
  reg : w.reg <+: w'.reg
  newKind : ∀ (a : Nat) (s : Obj), w'.heap[a]? = some s → w.heap.length ≤ a → s.kind = kind
  newReg : ∀ a ∈ w'.reg, a ∈ w.reg ∨ w.heap.length ≤ a

theorem Grows.refl (kind : EntityKind) (w : World) : Grows kind w w :=
  ⟨rfl, List.prefix_rfl, List.prefix_rfl,
   (fun a s h h' => by rw [List.getElem?_eq_none h'] at h; cases h), fun _ h => Or.inl h⟩
theorem Grows.trans {kind : EntityKind} {a b c : World} (h : Grows kind a b) (h' : Grows kind b c) :
    Grows kind a c := by
  refine ⟨h'.view.trans h.view, h.heap.trans h'.heap, h.reg.trans h'.reg, ?_, ?_⟩
  · intro i s hs hi
    by_cases hlt : i < b.heap.length
    · obtain ⟨t, ht⟩ := h'.heap
      rw [← ht, List.getElem?_append_left hlt] at hs
      exact h.newKind i s hs hi
    · exact h'.newKind i s hs (by omega)
  · intro i hi
    rcases h'.newReg i hi with hb | hb
    · exact h.newReg i hb
    · exact Or.inr (h.heap.length_le.trans hb)

theorem Grows.get {kind : EntityKind} {w w' : World} (h : Grows kind w w') {a : Nat} {s : Obj} (hs : w.heap[a]? = some s) :
    w'.heap[a]? = some s := by
  obtain ⟨t, ht⟩ := h.heap
  rw [← ht, List.getElem?_append_left (by rw [List.getElem?_eq_some_iff] at hs; exact hs.1)]
  exact hs

theorem setName_alloc (w : World) (s : Obj) (n : String) :
    setName (alloc w s).2 (alloc w s).1 n = (alloc w { s with name := n }).2 := by
  simp only [setName, alloc]
  congr 1
  rw [List.modify_eq_set_getElem?]
  simp

theorem setName_alloc_add (w : World) (s : Obj) (n : String) :
    setName (addSet (alloc w s).2 (alloc w s).1) (alloc w s).1 n =
      addSet (alloc w { s with name := n }).2 w.heap.length := by
  have := setName_alloc w s n
  simp only [setName, alloc, addSet] at this ⊢
  injection this with h1 h2 h3
  rw [h2]

/-- The world after a new set was made, registered or not. -/
def withSet (w : World) (s : Obj) (temporary : Bool) : World :=
  if temporary then (alloc w s).2 else addSet (alloc w s).2 w.heap.length

theorem withSet_get (w : World) (s : Obj) (t : Bool) : (withSet w s t).heap[w.heap.length]? = some s := by
  cases t <;> simp [withSet, alloc, addSet]

theorem withSet_reg (w : World) (s : Obj) : w.heap.length ∈ (withSet w s false).reg := by
  simp [withSet, alloc, addSet]

theorem withSet_view (w : World) (s : Obj) (t : Bool) : (withSet w s t).view = w.view := by
  cases t <;> rfl

theorem withSet_heap (w : World) (s : Obj) (t : Bool) : (withSet w s t).heap = w.heap ++ [s] := by
  cases t <;> rfl

theorem withSet_grows (w : World) (s : Obj) (t : Bool) : Grows s.kind w (withSet w s t) := by
  refine ⟨withSet_view w s t, ?_, ?_, ?_, ?_⟩
  · rw [withSet_heap]; exact List.prefix_append _ _
  · cases t
    · exact List.prefix_append _ _
    · exact List.prefix_rfl
  · intro a x hx ha
    rw [withSet_heap] at hx
    have : a = w.heap.length := by
      have := (List.getElem?_eq_some_iff.1 hx).1
      simp at this; omega
    subst this
    simp at hx
    rw [hx]
  · intro a ha
    cases t
    · simp only [withSet, Bool.false_eq_true, if_false, addSet, alloc, List.mem_append, List.mem_singleton] at ha
      rcases ha with ha | ha
      exacts [Or.inl ha, Or.inr ha.ge]
    · exact Or.inl ha

theorem finish_fresh (w : World) (t : Bool) (s : Obj) (n : String) :
    (finish w t (.fresh s)).1 = w.heap.length ∧
    setName (finish w t (.fresh s)).2 (finish w t (.fresh s)).1 n = withSet w { s with name := n } t := by
  refine ⟨rfl, ?_⟩
  cases t
  · exact setName_alloc_add w s n
  · exact setName_alloc w s n

/-- a proper set that holds the meaning of its name keeps the registry in order -/
theorem inOrder_withSet {gm : List (Region P)} {w : World} {kind : EntityKind} {D : String → Nat → Prop}
    (h : InOrder gm w kind D) (s : Obj) (t : Bool) (hm : s.mesh = 0) (hp : Proper (w.view kind) s)
    (hD : ∀ e, e ∈ s.all ↔ D s.name e) : InOrder gm (withSet w s t) kind D := by
  refine ⟨?_, ?_, ?_⟩
  · intro a ha
    rw [withSet_heap, List.length_append]
    cases t
    · simp only [withSet, Bool.false_eq_true, if_false, addSet, alloc, List.mem_append, List.mem_singleton] at ha
      rcases ha with ha | ha
      · have := h.reg a ha; simp; omega
      · simp; omega
    · have := h.reg a ha; simp; omega
  · intro x hx
    rw [withSet_heap, List.mem_append, List.mem_singleton] at hx
    rw [withSet_view]
    rcases hx with hx | rfl
    · exact h.proper x hx
    · exact ⟨hm, fun _ => hp⟩
  · intro a ha x hx hk hr
    rw [withSet_heap] at hx
    by_cases hlt : a < w.heap.length
    · rw [List.getElem?_append_left hlt] at hx
      have har : a ∈ w.reg := by
        cases t
        · simp only [withSet, Bool.false_eq_true, if_false, addSet, alloc, List.mem_append, List.mem_singleton] at ha
          rcases ha with ha | ha
          · exact ha
          · omega
        · exact ha
      exact h.holds a har x hx hk hr
    · have : a = w.heap.length := by
        rw [List.getElem?_eq_some_iff] at hx
        obtain ⟨h1, -⟩ := hx
        simp at h1; omega
      subst this
      simp at hx
      subst hx
      exact hD

theorem makeMeshset_ok {w : World} {n : String} {k : EntityKind} {o g : List Nat} {b : Bool}
    (hno : o.Nodup) (hng : g.Nodup)
    (ho : ∀ e ∈ o, e < (w.view k).nAll ∧ (w.view k).typeOf e = .PARALLEL_OWNED)
    (hg : ∀ e ∈ g, e < (w.view k).nAll ∧ (w.view k).typeOf e = .PARALLEL_GHOST) :
    ∃ s, makeMeshset w n k o g b = .ok (w.heap.length, withSet w s false) ∧ s.name = n ∧ s.kind = k ∧
      s.mesh = 0 ∧ s.owned = o ∧ s.ghost = g ∧ Proper (w.view k) s ∧ (b = true → IndexExact (w.view k) s) := by
  obtain ⟨s, hc, so, sg, sp, si⟩ := construct_proper (m := w.view k) (name := n) (mesh := 0) (kind := k) b hno hng
    ho hg
  have hf := construct_fields hc
  refine ⟨s, ?_, hf.2.2.2.2.2, hf.1, hf.2.1, so, sg, sp, si⟩
  simp only [makeMeshset, hc]; rfl

theorem makeMeshset_name {w w' : World} {n : String} {k : EntityKind} {o g : List Nat} {b : Bool} {a : Nat}
    (h : makeMeshset w n k o g b = .ok (a, w')) :
    ∃ s, a = w.heap.length ∧ w' = withSet w s false ∧ s.name = n ∧ s.kind = k ∧ s.owned = o ∧ s.ghost = g := by
  simp only [makeMeshset] at h
  split at h
  · cases h
  · rename_i s hc
    injection h with h
    injection h with h1 h2
    have hf := construct_fields hc
    exact ⟨s, h1.symm, h2.symm, hf.2.2.2.2.2, hf.1, hf.2.2.1, hf.2.2.2.1⟩

theorem split_good {v : MeshView} {es : List Nat} (hn : es.Nodup) (hb : ∀ e ∈ es, e < v.nAll) :
    (splitByType v es).1.Nodup ∧ (splitByType v es).2.Nodup ∧
    (∀ e ∈ (splitByType v es).1, e < v.nAll ∧ v.typeOf e = .PARALLEL_OWNED) ∧
    (∀ e ∈ (splitByType v es).2, e < v.nAll ∧ v.typeOf e = .PARALLEL_GHOST) := by
  refine ⟨hn.filter _, hn.filter _, ?_, ?_⟩ <;> intro e he <;>
    simp only [splitByType, List.mem_filter, decide_eq_true_eq] at he <;> exact ⟨hb e he.1, he.2⟩

/-- the lists of a region are lists of entities of the mesh, each once, of the right type -/
theorem regionLists_good {g : Geo P K} {gm : List (Region P)} {w : World} {kind : EntityKind} {r : Region P}
    {o h : List Nat} (hf : Fits g gm w kind) (hr : r ∈ gm) (he : regionLists g w kind r = .ok (some (o, h))) :
    o.Nodup ∧ h.Nodup ∧ (∀ e ∈ o, e < (w.view kind).nAll ∧ (w.view kind).typeOf e = .PARALLEL_OWNED) ∧
    (∀ e ∈ h, e < (w.view kind).nAll ∧ (w.view kind).typeOf e = .PARALLEL_GHOST) := by
  have hrange : ∀ (p : Nat → Bool) (v : MeshView), ((List.range v.nAll).filter p).Nodup ∧
      ∀ e ∈ (List.range v.nAll).filter p, e < v.nAll := fun p v =>
    ⟨List.nodup_range.filter _, fun e he => List.mem_range.1 (List.mem_filter.1 he).1⟩
  have hsplit : ∀ (v : MeshView) (es : List Nat), v = w.view kind → es.Nodup → (∀ e ∈ es, e < v.nAll) →
      (Except.ok (some (splitByType v es)) : Except Err (Option (List Nat × List Nat))) = .ok (some (o, h)) →
      o.Nodup ∧ h.Nodup ∧ (∀ e ∈ o, e < (w.view kind).nAll ∧ (w.view kind).typeOf e = .PARALLEL_OWNED) ∧
      (∀ e ∈ h, e < (w.view kind).nAll ∧ (w.view kind).typeOf e = .PARALLEL_GHOST) := by
    intro v es hv hn hb heq
    subst hv
    have := split_good hn hb
    injection heq with heq
    injection heq with heq
    rw [heq] at this
    exact this
  have he0 := he
  have hlab : r.type = .LABELEDSET → ∀ c : Prop, ∀ [Decidable c],
      (if c then .error Err.thrown else Except.ok (some r.labeled)) = .ok (some (o, h)) →
      o.Nodup ∧ h.Nodup ∧ (∀ e ∈ o, e < (w.view kind).nAll ∧ (w.view kind).typeOf e = .PARALLEL_OWNED) ∧
      (∀ e ∈ h, e < (w.view kind).nAll ∧ (w.view kind).typeOf e = .PARALLEL_GHOST) := by
    intro ht c _ heq
    split at heq
    · cases heq
    · injection heq with heq
      injection heq with heq
      obtain ⟨h1, h2, h3⟩ := hf.labeled r hr ht (he0.trans (by rw [heq]))
      rw [heq] at h1 h2 h3
      rw [List.nodup_append] at h1
      refine ⟨h1.1, h1.2.1, fun e he => ?_, fun e he => ?_⟩
      · have := h2 e he
        exact ⟨by simp only [MeshView.nAll]; omega, (hf.ownedFirst.1 e).2 this⟩
      · exact ⟨(h3 e he).2, (hf.ownedFirst.2 e).2 (h3 e he)⟩
  cases kind <;> simp only [regionLists] at he
  case FACE =>
    unfold faceLists at he
    split at he
    · exact hsplit _ _ rfl (hrange _ _).1 (hrange _ _).2 he
    · exact hsplit _ _ rfl (hrange _ _).1 (hrange _ _).2 he
    · exact hsplit _ _ rfl (hrange _ _).1 (hrange _ _).2 he
    · rename_i ht; exact hlab ht _ he
    · cases he
    · cases he
  case NODE =>
    unfold nodeLists at he
    split at he
    · exact hsplit _ _ rfl (hrange _ _).1 (hrange _ _).2 he
    · exact hsplit _ _ rfl (hrange _ _).1 (hrange _ _).2 he
    · exact hsplit _ _ rfl (hrange _ _).1 (hrange _ _).2 he
    · exact hsplit _ _ rfl ((hrange _ _).1.sublist (List.take_sublist _ _))
        (fun e hh => (hrange _ _).2 e (List.mem_of_mem_take hh)) he
    · rename_i ht; exact hlab ht _ he
    · cases he
    · cases he
  case CELL =>
    have hbox : (Except.ok (some (((List.range (w.view .CELL).nOwned).filter fun c => r.inside (g.cellCentroid c)),
        (((List.range (w.view .CELL).nGhost).map ((w.view .CELL).nOwned + ·)).filter
          fun c => r.inside (g.cellCentroid c)))) : Except Err (Option (List Nat × List Nat))) = .ok (some (o, h)) →
        o.Nodup ∧ h.Nodup ∧ (∀ e ∈ o, e < (w.view .CELL).nAll ∧ (w.view .CELL).typeOf e = .PARALLEL_OWNED) ∧
        (∀ e ∈ h, e < (w.view .CELL).nAll ∧ (w.view .CELL).typeOf e = .PARALLEL_GHOST) := by
      intro heq
      injection heq with heq
      injection heq with heq
      injection heq with h1 h2
      subst h1 h2
      refine ⟨List.nodup_range.filter _, ?_, fun e he => ?_, fun e he => ?_⟩
      · exact (List.Nodup.map (fun a b hab => by simpa using hab) List.nodup_range).filter _
      · have := List.mem_range.1 (List.mem_filter.1 he).1
        exact ⟨by simp only [MeshView.nAll]; omega, (hf.ownedFirst.1 e).2 this⟩
      · have := (List.mem_filter.1 he).1
        rw [List.mem_map] at this
        obtain ⟨i, hi, rfl⟩ := this
        rw [List.mem_range] at hi
        have hlt : (w.view .CELL).nOwned + i < (w.view .CELL).nAll := by simp only [MeshView.nAll]; omega
        exact ⟨hlt, (hf.ownedFirst.2 _).2 ⟨by omega, hlt⟩⟩
    unfold cellLists at he
    split at he
    · exact hbox he
    · exact hbox he
    · split at he
      · unfold pointCells at he
        split at he
        · cases he
        · rename_i n _
          exact hsplit _ _ rfl ((hf.nodeCells rfl n).1.filter _)
            (fun e hh => (hf.nodeCells rfl n).2 e (List.mem_filter.1 hh).1) he
      · cases he
    · split at he
      · exact hsplit _ _ rfl (hrange _ _).1 (hrange _ _).2 he
      · injection he with he
        injection he with he
        injection he with h1 h2
        subst h1 h2
        simp
    · cases he
    · rename_i ht; exact hlab ht _ he
    · cases he
  all_goals cases he

end Jali.Reg
