import Verif.Model.MstkBase
import Verif.Proof.MstkQueries
import Verif.Proof.EntityTypes
import Verif.Spec.Sides
import Verif.Props.MstkQueries
/-
Lemmas about the base class on top of an MSTK mesh.
-/
namespace Jali.Mstk
open Jali.Sides Jali.Sides.Spec

theorem mapM_get {α β : Type} {f : α → Option β} (l : List α) (h : ∀ a ∈ l, ∃ b, f a = some b) :
    ∃ r : List β, l.mapM f = some r ∧ ∀ i : Nat, r[i]? = (l[i]?).bind f := by
  induction l with
  | nil => exact ⟨[], rfl, fun i => by simp⟩
  | cons a l ih =>
    obtain ⟨b, hb⟩ := h a (by simp)
    obtain ⟨r, hr, hi⟩ := ih fun x hx => h x (by simp [hx])
    refine ⟨b :: r, ?_, ?_⟩
    · rw [List.mapM_cons, hb, hr]; rfl
    · intro i
      cases i with
      | zero => simp [hb]
      | succ i => simpa using hi i

theorem cached_eq {α : Type} {n : Nat} {q : Nat → Option α} (h : ∀ i < n, ∃ x, q i = some x) {i : Nat} (hi : i < n) :
    cached n q i = q i := by
  obtain ⟨r, hr, hg⟩ := mapM_get (List.range n) (f := q) (fun a ha => h a (List.mem_range.mp ha))
  unfold cached fillCache
  rw [hr, Option.bind_some, hg i, List.getElem?_range hi, Option.bind_some]

theorem cached_none {α : Type} {n : Nat} {q : Nat → Option α} {i : Nat} (hi : n ≤ i) : cached n q i = none := by
  unfold cached fillCache
  cases hr : (List.range n).mapM q with
  | none => rfl
  | some r =>
    have hl : r.length = n := by
      have : ∀ (l : List Nat) (r : List α), l.mapM q = some r → r.length = l.length := by
        intro l
        induction l with
        | nil => intro r h; cases h; rfl
        | cons a l ih =>
          intro r h
          rw [List.mapM_cons] at h
          cases ha : q a with
          | none => rw [ha] at h; cases h
          | some b =>
            rw [ha] at h
            cases hl : l.mapM q with
            | none => rw [hl] at h; cases h
            | some r' =>
              rw [hl] at h
              cases h
              simp [ih r' hl]
      simpa using this _ r hr
    rw [Option.bind_some, List.getElem?_eq_none (by omega)]

/-- numbers of entities -/
theorem len_ids (m : MMesh) (bg : Bool) : m.nodeIds.all.length = m.nv ∧ m.edgeIds.all.length = m.ne ∧
    m.faceIds3.all.length = m.nf ∧ (m.cellIds3 bg).all.length = m.nr ∧ (m.cellIds2 bg).all.length = m.nf := by
  have h := ids_consecutive m bg
  refine ⟨?_, ?_, ?_, ?_, ?_⟩
  · rw [h.1.2]; simp
  · rw [h.2.1.2]; simp
  · rw [h.2.2.1.2]; simp
  · rw [h.2.2.2.1.2]; simp
  · rw [h.2.2.2.2.2]; simp

section
variable {j : JMesh}

theorem faceEdges3_at (h : j.Ready3) (he : j.ReadyE) {f : Nat} {fh : Fin j.m.nf} (hf : j.m.fmap.at f = some fh) :
    j.faceEdges3 f = some ((j.m.face fh).edges.map fun p =>
      (j.m.emap.id p.1 - 1, flipDir j.edgeflip (j.m.emap.id p.1 - 1) p.2)) := by
  unfold JMesh.faceEdges3
  rw [if_pos (by rw [h.faces, he.edges]; rfl), hf]
  show List.mapM _ _ = _
  apply mapM_total
  intro p _
  rw [flipped_total (by rw [he.flips]; exact j.m.enum.id_lt p.1)]
  rfl

theorem faceEdges2_at (h : j.Ready2) (he : j.ReadyE) {f : Nat} {e : Fin j.m.ne} (hf : j.m.emap.at f = some e) :
    j.faceEdges2 f = some [(f, 1)] := by
  unfold JMesh.faceEdges2
  rw [if_pos (by rw [h.faces, he.edges]; rfl), hf, Option.map_some, j.m.enum.at_iff.mp hf]

theorem edgeNodes_at (he : j.ReadyE) {e : Nat} {eh : Fin j.m.ne} (hf : j.m.emap.at e = some eh) :
    ∃ a b, j.edgeNodes e = some (a, b) ∧
      ((a = j.m.vmap.id (j.m.edge eh).v0 - 1 ∧ b = j.m.vmap.id (j.m.edge eh).v1 - 1) ∨
       (a = j.m.vmap.id (j.m.edge eh).v1 - 1 ∧ b = j.m.vmap.id (j.m.edge eh).v0 - 1)) := by
  have hlt : e < j.edgeflip.length := by rw [he.flips]; exact j.m.enum.lt_of_at hf
  unfold JMesh.edgeNodes
  rw [if_pos he.edges, hf, Option.bind_some, List.getElem?_eq_getElem hlt, Option.map_some]
  cases j.edgeflip[e]
  · exact ⟨_, _, rfl, .inl ⟨rfl, rfl⟩⟩
  · exact ⟨_, _, rfl, .inr ⟨rfl, rfl⟩⟩

/-- the public queries answer what the framework answers (3D) -/
theorem public3 (h : j.Ready3) : (∀ c < j.m.nr, j.cellGetFaces3 c = j.cellFaces3 c) ∧
    (j.ReadyE → (∀ f < j.m.nf, j.faceGetEdges3 f = j.faceEdges3 f) ∧ ∀ c < j.m.nr, j.cellGetEdges3 c = j.cellEdges3 c) := by
  obtain ⟨_, _, l3, l4, _⟩ := len_ids j.m j.bg
  refine ⟨?_, fun he => ⟨?_, ?_⟩⟩
  · intro c hc
    unfold JMesh.cellGetFaces3
    rw [if_pos h.faces, l4]
    refine cached_eq (fun i hi => ?_) hc
    obtain ⟨r, hr⟩ := (j.m.rnum j.bg).at_some hi
    exact ⟨_, cellFaces3_eq h hr⟩
  · intro f hf
    unfold JMesh.faceGetEdges3
    rw [if_pos (by rw [h.faces, he.edges]; rfl), l3]
    refine cached_eq (fun i hi => ?_) hf
    obtain ⟨fh, hfh⟩ := j.m.fnum.at_some hi
    exact ⟨_, faceEdges3_at h he hfh⟩
  · intro c hc
    unfold JMesh.cellGetEdges3
    rw [if_pos he.edges, l4]
    refine cached_eq (fun i hi => ?_) hc
    obtain ⟨r, hr⟩ := (j.m.rnum j.bg).at_some hi
    refine ⟨((j.m.mrEdges (j.m.region r)).map fun e => j.m.emap.id e - 1), ?_⟩
    unfold JMesh.cellEdges3
    rw [if_pos he.edges, hr]
    rfl

theorem edges2_cached (he : j.ReadyE) (sdim c : Nat) (hc : c < j.m.nf) : j.cellGetEdges2 sdim c = j.cellEdges2 c := by
  obtain ⟨_, l2, _, _, l5⟩ := len_ids j.m j.bg
  have e1 : ∀ i < j.m.nf, ∃ x, j.cell2DEdges i = some x := by
    intro i hi
    obtain ⟨r, hr⟩ := (j.m.cnum j.bg).at_some hi
    refine ⟨(j.m.face r).edges.map fun p => (j.m.emap.id p.1 - 1, dirInt p.2), ?_⟩
    unfold JMesh.cell2DEdges
    rw [if_pos he.edges, hr]
    rfl
  have e2 : ∀ i < j.m.nf, ∃ x, j.cellEdges2 i = some x := by
    intro i hi
    obtain ⟨r, hr⟩ := (j.m.cnum j.bg).at_some hi
    refine ⟨((j.m.face r).mfEdges true).map fun e => j.m.emap.id e - 1, ?_⟩
    unfold JMesh.cellEdges2
    rw [if_pos he.edges, hr]
    rfl
  unfold JMesh.cellGetEdges2
  rw [if_pos he.edges, l5]
  split
  · rw [cached_eq e1 hc]
    obtain ⟨r, hr⟩ := (j.m.cnum j.bg).at_some hc
    unfold JMesh.cell2DEdges JMesh.cellEdges2
    rw [if_pos he.edges, if_pos he.edges, hr]
    simp [Face.mfEdges]
  · exact cached_eq e2 hc

theorem public2 (h : j.Ready2) : (∀ c < j.m.nf, j.cellGetFaces2 c = j.cellFaces2 c) ∧
    (j.ReadyE → (∀ f < j.m.ne, j.faceGetEdges2 f = j.faceEdges2 f) ∧ ∀ sdim, ∀ c < j.m.nf, j.cellGetEdges2 sdim c = j.cellEdges2 c) := by
  obtain ⟨_, l2, _, _, l5⟩ := len_ids j.m j.bg
  refine ⟨?_, fun he => ⟨?_, ?_⟩⟩
  · intro c hc
    unfold JMesh.cellGetFaces2
    rw [if_pos h.faces, l5]
    refine cached_eq (fun i hi => ?_) hc
    obtain ⟨r, hr⟩ := (j.m.cnum j.bg).at_some hi
    exact ⟨_, cellFaces2_eq h hr⟩
  · intro f hf
    unfold JMesh.faceGetEdges2
    rw [if_pos (by rw [h.faces, he.edges]; rfl), l2]
    refine cached_eq (fun i hi => ?_) hf
    obtain ⟨fh, hfh⟩ := j.m.enum.at_some hi
    exact ⟨_, faceEdges2_at h he hfh⟩
  · exact fun sdim c hc => edges2_cached he sdim c hc

theorem publicE (he : j.ReadyE) : ∀ e < j.m.ne, j.edgeGetNodes e = j.edgeNodes e := by
  obtain ⟨_, l2, _, _, _⟩ := len_ids j.m j.bg
  intro e hlt
  unfold JMesh.edgeGetNodes
  rw [if_pos he.edges, l2]
  refine cached_eq (fun i hi => ?_) hlt
  obtain ⟨eh, heh⟩ := j.m.enum.at_some hi
  obtain ⟨a, b, hab, _⟩ := edgeNodes_at he heh
  exact ⟨_, hab⟩

end

end Jali.Mstk
