import Verif.Model.EntityTypes
import Verif.Props.Sides
import Verif.Props.MeshCache
import Mathlib.Data.List.Perm.Basic
/-! Types of entities and lists of entities. -/
namespace Jali.Types
open Jali.Sides Jali.Sides.Spec

theorem mark_ok (ty : EntityType) : ∀ (l : List Nat) (a : List EntityType), (∀ e ∈ l, e < a.length) →
    ∃ a', mark ty l a = some a' ∧ a'.length = a.length ∧ ∀ e, e < a.length → a'[e]? = if e ∈ l then some ty else a[e]?
  | [], a, _ => ⟨a, rfl, rfl, fun e _ => by simp⟩
  | x :: l, a, h => by
    have hx : x < a.length := h x (by simp)
    obtain ⟨a', h1, h2, h3⟩ := mark_ok ty l (a.set x ty) (fun e he => by rw [List.length_set]; exact h e (by simp [he]))
    refine ⟨a', ?_, by rw [h2, List.length_set], ?_⟩
    · unfold mark
      rw [if_pos hx, h1]
    · intro e he
      rw [h3 e (by rw [List.length_set]; exact he)]
      by_cases hm : e ∈ l
      · rw [if_pos hm, if_pos (by simp [hm])]
      · rw [if_neg hm]
        by_cases hex : e = x
        · subst hex
          rw [if_pos (by simp), List.getElem?_set_self hx]
        · rw [if_neg (by simp [hm, hex]), List.getElem?_set_ne (Ne.symm hex)]

/-- The three lists contain each of `0, ..., n-1` exactly once. -/
def Numbered (owned ghost bndry : List Nat) : Prop := (owned ++ ghost ++ bndry).Perm (List.range (owned ++ ghost ++ bndry).length)

theorem Numbered.facts {o g b : List Nat} (h : Numbered o g b) :
    (∀ e, (e ∈ o ∨ e ∈ g ∨ e ∈ b) ↔ e < o.length + g.length + b.length) ∧
    (∀ e, e ∈ o → e ∉ g) ∧ (∀ e, e ∈ o → e ∉ b) ∧ (∀ e, e ∈ g → e ∉ b) := by
  have hnd : (o ++ g ++ b).Nodup := h.nodup_iff.2 List.nodup_range
  rw [List.nodup_append] at hnd
  obtain ⟨h1, h2, h3⟩ := hnd
  rw [List.nodup_append] at h1
  obtain ⟨_, _, h5⟩ := h1
  refine ⟨?_, ?_, ?_, ?_⟩
  · intro e
    have := h.mem_iff (a := e)
    simpa [or_assoc, Nat.add_assoc] using this
  · exact fun e he hg => h5 e he e hg rfl
  · exact fun e he hb => h3 e (by simp [he]) e hb rfl
  · exact fun e he hb => h3 e (by simp [he]) e hb rfl

theorem typesOfThree_ok {l : Three} (h : Numbered l.owned l.ghost l.bndry) :
    ∃ a, typesOfThree l = some a ∧ ∀ e, (a[e]? = some .PARALLEL_OWNED ↔ e ∈ l.owned) ∧ (a[e]? = some .PARALLEL_GHOST ↔ e ∈ l.ghost) ∧
      (a[e]? = some .BOUNDARY_GHOST ↔ e ∈ l.bndry) ∧ (∀ ty, a[e]? = some ty → ty = .PARALLEL_OWNED ∨ ty = .PARALLEL_GHOST ∨ ty = .BOUNDARY_GHOST) := by
  obtain ⟨hr, h12, h13, h23⟩ := h.facts
  have hlt : ∀ e, (e ∈ l.owned ∨ e ∈ l.ghost ∨ e ∈ l.bndry) → e < l.owned.length + l.ghost.length + l.bndry.length := fun e => (hr e).1
  obtain ⟨a1, e1, n1, g1⟩ := mark_ok .PARALLEL_OWNED l.owned
    (List.replicate (l.owned.length + l.ghost.length + l.bndry.length) .DELETED)
    (fun e he => by rw [List.length_replicate]; exact hlt e (.inl he))
  rw [List.length_replicate] at n1 g1
  obtain ⟨a2, e2, n2, g2⟩ := mark_ok .PARALLEL_GHOST l.ghost a1 (fun e he => by rw [n1]; exact hlt e (.inr (.inl he)))
  obtain ⟨a3, e3, n3, g3⟩ := mark_ok .BOUNDARY_GHOST l.bndry a2 (fun e he => by rw [n2, n1]; exact hlt e (.inr (.inr he)))
  refine ⟨a3, by unfold typesOfThree; rw [e1, Option.bind_some, e2, Option.bind_some, e3], ?_⟩
  intro e
  by_cases he : e < l.owned.length + l.ghost.length + l.bndry.length
  · rw [g3 e (by omega), g2 e (by omega), g1 e he]
    have hm := (hr e).2 he
    have a := h12 e
    have b := h13 e
    have c := h23 e
    rcases hm with hm | hm | hm
    · rw [if_neg (b hm), if_neg (a hm), if_pos hm]
      simp [hm, a hm, b hm]
    · have ho : e ∉ l.owned := fun ho => a ho hm
      rw [if_neg (c hm), if_pos hm]
      simp [hm, ho, c hm]
    · have ho : e ∉ l.owned := fun ho => b ho hm
      have hg : e ∉ l.ghost := fun hg => c hg hm
      rw [if_pos hm]
      simp [hm, ho, hg]
  · rw [List.getElem?_eq_none (by omega)]
    have := mt (hlt e) he
    simp only [not_or] at this
    simp [this.1, this.2.1, this.2.2]

theorem typesOfTwo_ok {l : Two} (h : Numbered l.owned l.ghost []) :
    ∃ a, typesOfTwo l = some a ∧ ∀ e, (a[e]? = some .PARALLEL_OWNED ↔ e ∈ l.owned) ∧ (a[e]? = some .PARALLEL_GHOST ↔ e ∈ l.ghost) ∧
      (∀ ty, a[e]? = some ty → ty = .PARALLEL_OWNED ∨ ty = .PARALLEL_GHOST) := by
  obtain ⟨a, h1, h2⟩ := typesOfThree_ok (l := ⟨l.owned, l.ghost, []⟩) h
  refine ⟨a, ?_, ?_⟩
  · rw [← h1]
    unfold typesOfTwo typesOfThree
    simp only [List.length_nil, Nat.add_zero]
    cases (mark EntityType.PARALLEL_OWNED l.owned (List.replicate (l.owned.length + l.ghost.length) EntityType.DELETED)).bind
      (mark .PARALLEL_GHOST l.ghost) <;> rfl
  · intro e
    obtain ⟨i1, i2, i3, i4⟩ := h2 e
    refine ⟨i1, i2, fun ty ht => ?_⟩
    rcases i4 ty ht with h | h | h
    · exact .inl h
    · exact .inr h
    · rw [h] at ht
      have := i3.1 ht
      simp at this

/-- `source` with all cells owned: the shape of the mesh -/
def shape (b : Base) : Src :=
  { b.topo with
    cells := b.cells.all
    ncells := b.cells.owned.length + b.cells.ghost.length + b.cells.bndry.length
    nedges := b.edges.owned.length + b.edges.ghost.length
    nnodes := b.nodes.owned.length + b.nodes.ghost.length
    cellType := fun _ => .PARALLEL_OWNED }

theorem valid_source {b : Base} {t : TypeInfo} (h : Valid (shape b))
    (ht : ∀ c ∈ b.cells.all, (t.cell[c]?).getD .DELETED = .PARALLEL_OWNED ∨ (t.cell[c]?).getD .DELETED = .PARALLEL_GHOST ∨
      (t.cell[c]?).getD .DELETED = .BOUNDARY_GHOST) : Valid (source b t) :=
  ⟨h.cells_nodup, h.cells_lt, ht, h.faces_nodup, h.edges_nodup, h.edges_lt, h.two_cells⟩

theorem oriented_source {b : Base} (t : TypeInfo) (h : Oriented (shape b)) : Oriented (source b t) := ⟨h.fdir, h.edir, h.opposite⟩

theorem nodesOk_source {b : Base} (t : TypeInfo) (h : NodesOk (shape b)) : NodesOk (source b t) := ⟨h.nodup, h.lt, h.ends⟩

end Jali.Types
