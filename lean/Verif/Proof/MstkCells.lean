import Verif.Proof.MstkOrdered
import Mathlib.Algebra.BigOperators.Group.List.Basic
import Mathlib.Algebra.Order.BigOperators.Group.List
import Mathlib.Algebra.BigOperators.Group.Finset.Basic
/- Counting edges of closed cells. -/
namespace Jali.Mstk

variable {m : MMesh} {r : Region m.nf}

/-- every edge is in the lists of exactly two faces -/
theorem count_two (hc : m.ClosedCell r) (e : Fin m.ne)
    (he : e ∈ r.faces.flatMap fun p => (m.face p.1).edges.map Prod.fst) :
    (r.faces.flatMap fun p => (m.face p.1).edges.map Prod.fst).count e = 2 := by
  have step : ∀ l : List (Fin m.nf × Bool), (∀ p ∈ l, p ∈ r.faces) →
      (l.flatMap fun p => (m.face p.1).edges.map Prod.fst).count e =
        (l.filter fun p => e ∈ (m.face p.1).edges.map Prod.fst).length := by
    intro l
    induction l with
    | nil => intro _; rfl
    | cons a l ih =>
      intro h
      rw [List.flatMap_cons, List.count_append, ih fun p hp => h p (List.mem_cons_of_mem _ hp), List.filter_cons]
      by_cases ha : e ∈ (m.face a.1).edges.map Prod.fst
      · rw [List.count_eq_one_of_mem (hc.noedge a (h a List.mem_cons_self)) ha, if_pos (by simpa using ha)]
        simp; omega
      · rw [List.count_eq_zero_of_not_mem ha, if_neg (by simpa using ha)]; simp
  rw [step _ fun p hp => hp]
  obtain ⟨p, hp, hpe⟩ := List.mem_flatMap.mp he
  obtain ⟨q, hq, hne, hqe, hun⟩ := hc.closed p hp e hpe
  have ndr : r.faces.Nodup := hc.noface.of_map _
  have hperm : (r.faces.filter fun p => e ∈ (m.face p.1).edges.map Prod.fst).Perm [p, q] := by
    rw [List.perm_ext_iff_of_nodup (ndr.filter _) (by simpa using fun h : p = q => hne h.symm)]
    intro a
    rw [List.mem_filter]
    simp only [List.mem_cons, List.not_mem_nil, or_false, decide_eq_true_eq]
    constructor
    · rintro ⟨h1, h2⟩
      by_cases h : a = p
      · exact Or.inl h
      · exact Or.inr (hun a h1 h h2)
    · rintro (rfl | rfl)
      · exact ⟨hp, hpe⟩
      · exact ⟨hq, hqe⟩
  rw [hperm.length_eq]; rfl

/-- the edges of the faces, added up, are twice the edges of the cell -/
theorem sum_edges (hc : m.ClosedCell r) : (r.faces.map fun p => (m.face p.1).edges.length).sum = 2 * (m.mrEdges r).length := by
  have h := List.sum_map_count_dedup_eq_length (r.faces.flatMap fun p => (m.face p.1).edges.map Prod.fst)
  have e1 : ((r.faces.flatMap fun p => (m.face p.1).edges.map Prod.fst).dedup.map fun x =>
      (r.faces.flatMap fun p => (m.face p.1).edges.map Prod.fst).count x) =
      (r.faces.flatMap fun p => (m.face p.1).edges.map Prod.fst).dedup.map fun _ => 2 := by
    apply List.map_congr_left
    intro x hx
    exact count_two hc x (List.mem_dedup.mp hx)
  rw [e1, List.length_flatMap] at h
  have e2 : ∀ l : List (Fin m.ne), (l.map fun _ => 2).sum = 2 * l.length := by
    intro l
    induction l with
    | nil => rfl
    | cons a l ih => rw [List.map_cons, List.sum_cons, ih, List.length_cons]; omega
  rw [e2] at h
  simp only [List.length_map] at h
  unfold MMesh.mrEdges
  rw [← h]

theorem sum_three_four (l : List (Fin m.nf × Bool))
    (h : ∀ p ∈ l, (m.face p.1).edges.length = 3 ∨ (m.face p.1).edges.length = 4) :
    (l.map fun p => (m.face p.1).edges.length).sum = 3 * l.length + (l.filter fun p => (m.face p.1).edges.length = 4).length := by
  induction l with
  | nil => rfl
  | cons a l ih =>
    rw [List.map_cons, List.sum_cons, ih fun p hp => h p (List.mem_cons_of_mem _ hp), List.filter_cons]
    rcases h a List.mem_cons_self with e | e
    · rw [e]; simp; omega
    · rw [e]; simp; omega

theorem numQuads_eq (r : Region m.nf) : m.numQuads r = (r.faces.filter fun p => (m.face p.1).edges.length = 4).length := by
  unfold MMesh.numQuads
  congr 2
  funext p
  rw [mfVertices_length]

end Jali.Mstk
