import Verif.Model.MstkBuild
import Verif.Props.MstkGenerate2
import Mathlib.Data.List.OfFn
import Mathlib.Data.List.FinRange
/-! From generated meshes to MSTK meshes. -/
namespace Jali.MstkGen
open Spec

theorem find_unique {n : Nat} {p : Fin n → Bool} {i : Fin n} (h : p i = true) (hu : ∀ j, p j = true → j = i) :
    (List.finRange n).find? p = some i := by
  cases hf : (List.finRange n).find? p with
  | none => exact absurd h (by simpa using List.find?_eq_none.mp hf i (List.mem_finRange i))
  | some j => rw [hu j (List.find?_some hf)]

theorem mapM_rel {α β : Type} {f : α → Option β} {R : α → β → Prop} (l : List α) (h : ∀ a ∈ l, ∃ b, f a = some b ∧ R a b) :
    ∃ bs, l.mapM f = some bs ∧ ∃ o : Fin bs.length → α, List.ofFn o = l ∧ ∀ i, R (o i) (bs.get i) := by
  induction l with
  | nil => exact ⟨[], rfl, fun i => i.elim0, rfl, fun i => i.elim0⟩
  | cons a l ih =>
    obtain ⟨b, hb, hR⟩ := h a (by simp)
    obtain ⟨bs, hbs, o, ho, hr⟩ := ih fun x hx => h x (by simp [hx])
    refine ⟨b :: bs, by rw [List.mapM_cons, hb, hbs]; rfl, (Fin.cons a o : Fin (bs.length + 1) → α), ?_, ?_⟩
    · exact (List.ofFn_cons a o).trans (by rw [ho])
    · intro i
      refine Fin.cases ?_ (fun j => ?_) i
      · exact hR
      · exact hr j

section
variable {K : Type}

theorem handle_get {vs : List (Vert K)} (hnd : (vs.map Vert.id).Nodup) (i : Fin vs.length) : handleOf vs (vs.get i) = some i := by
  refine find_unique (by simp) fun j hj => ?_
  have hj' : (vs.get j).id = (vs.get i).id := by simpa using hj
  have := (List.nodup_iff_injective_get.mp hnd) (a₁ := j.cast (by simp)) (a₂ := i.cast (by simp)) (by simpa using hj')
  exact Fin.ext (by simpa using congrArg Fin.val this)

theorem handle_mem {vs : List (Vert K)} (hnd : (vs.map Vert.id).Nodup) {v : Vert K} (hv : v ∈ vs) :
    ∃ i, handleOf vs v = some i ∧ vs.get i = v := by
  obtain ⟨i, rfl⟩ := List.mem_iff_get.mp hv
  exact ⟨i, handle_get hnd i, rfl⟩

/-- the edges of the MSTK mesh are the edges of `es0` -/
structure EGood (vs : List (Vert K)) (es0 : List (Edge K)) (es : List (Mstk.Edge vs.length)) (eo : Fin es.length → Edge K) : Prop where
  list : List.ofFn eo = es0
  v0 : ∀ i, vs.get (es.get i).v0 = (eo i).v0
  v1 : ∀ i, vs.get (es.get i).v1 = (eo i).v1
  id : ∀ i, (es.get i).gid = (eo i).id
  own : ∀ i, (es.get i).ptype = .interior

/-- edges have two ends and are determined by them -/
def EUnique (es0 : List (Edge K)) : Prop :=
  ∀ e ∈ es0, e.v0 ≠ e.v1 ∧ ∀ e' ∈ es0, (e'.v0 = e.v0 ∧ e'.v1 = e.v1) ∨ (e'.v0 = e.v1 ∧ e'.v1 = e.v0) → e' = e

variable {vs : List (Vert K)} {es0 : List (Edge K)} {es : List (Mstk.Edge vs.length)} {eo : Fin es.length → Edge K}

theorem ofFn_inj {α : Type} {n : Nat} {o : Fin n → α} {l : List α} (h : List.ofFn o = l) (hn : l.Nodup) : Function.Injective o := by
  rw [← h] at hn
  exact List.nodup_ofFn.mp hn

theorem between_fwd (hv : vs.Nodup) (H : EGood vs es0 es eo) (he0 : es0.Nodup) (hu : EUnique es0) {e : Edge K} (he : e ∈ es0)
    {a b : Fin vs.length} (ha : vs.get a = e.v0) (hb : vs.get b = e.v1) :
    ∃ i, eo i = e ∧ edgeBetween es a b = some (i, true) ∧ edgeBetween es b a = some (i, false) := by
  have hi : ∃ i, eo i = e := by rw [← H.list] at he; exact List.mem_ofFn.mp he
  obtain ⟨i, rfl⟩ := hi
  have vinj := List.nodup_iff_injective_get.mp hv
  have inj := ofFn_inj H.list he0
  have ea : (es.get i).v0 = a := vinj ((H.v0 i).trans ha.symm)
  have eb : (es.get i).v1 = b := vinj ((H.v1 i).trans hb.symm)
  have hne : a ≠ b := by
    intro h; subst h
    exact (hu _ he).1 (ha.symm.trans hb)
  have mem : ∀ j, eo j ∈ es0 := fun j => by rw [← H.list]; exact List.mem_ofFn.mpr ⟨j, rfl⟩
  have key : ∀ j, ((es.get j).v0 = a ∧ (es.get j).v1 = b) ∨ ((es.get j).v0 = b ∧ (es.get j).v1 = a) → j = i := by
    intro j hj
    refine inj ((hu _ he).2 _ (mem j) ?_)
    rcases hj with ⟨h1, h2⟩ | ⟨h1, h2⟩
    · exact .inl ⟨by rw [← H.v0, h1, ha], by rw [← H.v1, h2, hb]⟩
    · exact .inr ⟨by rw [← H.v0, h1, hb], by rw [← H.v1, h2, ha]⟩
  refine ⟨i, rfl, ?_, ?_⟩
  · unfold edgeBetween
    rw [find_unique (i := i) (by simp only [decide_eq_true_eq]; exact .inl ⟨ea, eb⟩) (fun j hj => key j (by simpa using hj))]
    simp only [Option.map_some, ea, decide_true]
  · unfold edgeBetween
    rw [find_unique (i := i) (by simp only [decide_eq_true_eq]; exact .inr ⟨ea, eb⟩)
      (fun j hj => key j (Or.symm (by simpa using hj)))]
    simp only [Option.map_some, ea]
    rw [decide_eq_false hne]

/-- a quadrilateral: two edges along the walk, two against it -/
theorem putFace_quad (hid : (vs.map Vert.id).Nodup) (hv : vs.Nodup) (H : EGood vs es0 es eo) (he0 : es0.Nodup) (hu : EUnique es0)
    {f : Face K} {w0 w1 w2 w3 : Vert K} (hf : f.vs = [w0, w1, w2, w3]) (h0 : w0 ∈ vs) (h1 : w1 ∈ vs) (h2 : w2 ∈ vs) (h3 : w3 ∈ vs)
    {e0 e1 e2 e3 : Edge K} (m0 : e0 ∈ es0) (m1 : e1 ∈ es0) (m2 : e2 ∈ es0) (m3 : e3 ∈ es0)
    (a0 : e0.v0 = w0 ∧ e0.v1 = w1) (a1 : e1.v0 = w1 ∧ e1.v1 = w2) (a2 : e2.v0 = w3 ∧ e2.v1 = w2) (a3 : e3.v0 = w0 ∧ e3.v1 = w3) :
    ∃ x, putFace vs es f = some x ∧ x.edges.map (fun p => (eo p.1, p.2)) = [(e0, true), (e1, true), (e2, false), (e3, false)] ∧
      x.gid = f.id ∧ x.ptype = .interior := by
  obtain ⟨i0, g0, q0⟩ := handle_mem hid h0
  obtain ⟨i1, g1, q1⟩ := handle_mem hid h1
  obtain ⟨i2, g2, q2⟩ := handle_mem hid h2
  obtain ⟨i3, g3, q3⟩ := handle_mem hid h3
  obtain ⟨k0, r0, s0, _⟩ := between_fwd hv H he0 hu m0 (q0.trans a0.1.symm) (q1.trans a0.2.symm)
  obtain ⟨k1, r1, s1, _⟩ := between_fwd hv H he0 hu m1 (q1.trans a1.1.symm) (q2.trans a1.2.symm)
  obtain ⟨k2, r2, _, s2⟩ := between_fwd hv H he0 hu m2 (q3.trans a2.1.symm) (q2.trans a2.2.symm)
  obtain ⟨k3, r3, _, s3⟩ := between_fwd hv H he0 hu m3 (q0.trans a3.1.symm) (q3.trans a3.2.symm)
  refine ⟨{ ptype := .interior, gid := f.id, edges := [(k0, true), (k1, true), (k2, false), (k3, false)] }, ?_, ?_, rfl, rfl⟩
  · unfold putFace
    simp [hf, List.mapM_cons, g0, g1, g2, g3, s0, s1, s2, s3, List.rotate_cons_succ]
  · simp [r0, r1, r2, r3]

end

section
variable {K : Type} [Field K] [LinearOrder K] [IsStrictOrderedRing K]

theorem V_iff (d : Dom K) (hd : GoodDom d) {I J L I' J' L' : Nat} : V d I J L = V d I' J' L' ↔ I = I' ∧ J = J' ∧ L = L' := by
  constructor
  · intro h
    have := congrArg pos h
    rw [pos_V d hd, pos_V d hd] at this
    exact gpt_inj d hd this
  · rintro ⟨rfl, rfl, rfl⟩; rfl

theorem edges_unique (d : Dom K) (hd : GoodDom d) (b : Blk) : EUnique (genOf d b).edges := by
  intro e he
  constructor
  · rcases (mem_edges d b).1 he with @⟨I, J, L⟩ | @⟨I, J, L⟩ | @⟨I, J, L⟩ <;>
    · simp only [EZ, EY, EX, ne_eq, V_iff d hd]; omega
  · intro e' he' h
    rcases (mem_edges d b).1 he with @⟨I, J, L⟩ | @⟨I, J, L⟩ | @⟨I, J, L⟩ <;>
    rcases (mem_edges d b).1 he' with @⟨I', J', L'⟩ | @⟨I', J', L'⟩ | @⟨I', J', L'⟩ <;>
    simp only [EZ, EY, EX, V_iff d hd] at h <;>
    first
      | omega
      | (have hh : I = I' ∧ J = J' ∧ L = L' := by omega
         obtain ⟨rfl, rfl, rfl⟩ := hh; rfl)

theorem edges_built (d : Dom K) (hd : GoodDom d) (b : Blk) (hb : GoodBlk d b) :
    ∃ es, (genOf d b).edges.mapM (putEdge (genOf d b).verts) = some es ∧ ∃ eo, EGood (genOf d b).verts (genOf d b).edges es eo := by
  have hid := (verts_id_nodup d b hb.iy hb.iz).2
  obtain ⟨es, h1, eo, h2, h3⟩ := mapM_rel (f := putEdge (genOf d b).verts)
    (R := fun e x => (genOf d b).verts.get x.v0 = e.v0 ∧ (genOf d b).verts.get x.v1 = e.v1 ∧ x.gid = e.id ∧ x.ptype = .interior)
    (genOf d b).edges (by
      intro e he
      have hmem : e.v0 ∈ (genOf d b).verts ∧ e.v1 ∈ (genOf d b).verts := by
        simp only [mem_verts]
        rcases (mem_edges d b).1 he with @⟨I, J, L, h1, h2, h3, h4, h5, h6⟩ | @⟨I, J, L, h1, h2, h3, h4, h5, h6⟩ |
          @⟨I, J, L, h1, h2, h3, h4, h5, h6⟩
        · exact ⟨⟨I, J, L, by omega, by omega, by omega, by omega, by omega, by omega, rfl⟩,
            ⟨I, J, L + 1, by omega, by omega, by omega, by omega, by omega, by omega, rfl⟩⟩
        · exact ⟨⟨I, J, L, by omega, by omega, by omega, by omega, by omega, by omega, rfl⟩,
            ⟨I, J + 1, L, by omega, by omega, by omega, by omega, by omega, by omega, rfl⟩⟩
        · exact ⟨⟨I, J, L, by omega, by omega, by omega, by omega, by omega, by omega, rfl⟩,
            ⟨I + 1, J, L, by omega, by omega, by omega, by omega, by omega, by omega, rfl⟩⟩
      obtain ⟨a, ga, qa⟩ := handle_mem hid hmem.1
      obtain ⟨c, gc, qc⟩ := handle_mem hid hmem.2
      exact ⟨{ ptype := .interior, gid := e.id, v0 := a, v1 := c }, by simp [putEdge, ga, gc], qa, qc, rfl, rfl⟩)
  exact ⟨es, h1, eo, h2, fun i => (h3 i).1, fun i => (h3 i).2.1, fun i => (h3 i).2.2.1, fun i => (h3 i).2.2.2⟩

/-- the sides of a generated face -/
inductive Sides (d : Dom K) (b : Blk) : Face K → List (Edge K × Bool) → Prop
  | x {I J L : Nat} : b.i0 ≤ I → I < b.i0 + (b.nx + 1) → b.j0 ≤ J → J < b.j0 + b.ny → b.k0 ≤ L → L < b.k0 + b.nz →
      Sides d b (FX d I J L) [(EY d I J L, true), (EZ d I (J + 1) L, true), (EY d I J (L + 1), false), (EZ d I J L, false)]
  | y {I J L : Nat} : b.i0 ≤ I → I < b.i0 + b.nx → b.j0 ≤ J → J < b.j0 + (b.ny + 1) → b.k0 ≤ L → L < b.k0 + b.nz →
      Sides d b (FY d I J L) [(EX d I J L, true), (EZ d (I + 1) J L, true), (EX d I J (L + 1), false), (EZ d I J L, false)]
  | z {I J L : Nat} : b.i0 ≤ I → I < b.i0 + b.nx → b.j0 ≤ J → J < b.j0 + b.ny → b.k0 ≤ L → L < b.k0 + (b.nz + 1) →
      Sides d b (FZ d I J L) [(EX d I J L, true), (EY d (I + 1) J L, true), (EX d I (J + 1) L, false), (EY d I J L, false)]

theorem vmem (d : Dom K) (b : Blk) {I J L : Nat} (h1 : b.i0 ≤ I) (h2 : I ≤ b.i0 + b.nx) (h3 : b.j0 ≤ J) (h4 : J ≤ b.j0 + b.ny)
    (h5 : b.k0 ≤ L) (h6 : L ≤ b.k0 + b.nz) : V d I J L ∈ (genOf d b).verts :=
  (mem_verts d b).2 ⟨I, J, L, h1, by omega, h3, by omega, h5, by omega, rfl⟩

theorem face_put (d : Dom K) (hd : GoodDom d) (b : Blk) (hb : GoodBlk d b) {es : List (Mstk.Edge (genOf d b).verts.length)}
    {eo : Fin es.length → Edge K} (H : EGood (genOf d b).verts (genOf d b).edges es eo) {f : Face K} (hf : f ∈ (genOf d b).faces) :
    ∃ x, putFace (genOf d b).verts es f = some x ∧ Sides d b f (x.edges.map fun p => (eo p.1, p.2)) ∧ x.gid = f.id ∧
      x.ptype = .interior := by
  have hv := verts_id_nodup d b hb.iy hb.iz
  have he := (edges_id_nodup d b hb.iy hb.iz).1
  have hu := edges_unique d hd b
  rcases (mem_faces d b).1 hf with @⟨I, J, L, h1, h2, h3, h4, h5, h6⟩ | @⟨I, J, L, h1, h2, h3, h4, h5, h6⟩ |
    @⟨I, J, L, h1, h2, h3, h4, h5, h6⟩
  · obtain ⟨x, p1, p2, p3⟩ := putFace_quad hv.2 hv.1 H he hu (f := FX d I J L) rfl
      (vmem d b (by omega) (by omega) (by omega) (by omega) (by omega) (by omega))
      (vmem d b (by omega) (by omega) (by omega) (by omega) (by omega) (by omega))
      (vmem d b (by omega) (by omega) (by omega) (by omega) (by omega) (by omega))
      (vmem d b (by omega) (by omega) (by omega) (by omega) (by omega) (by omega))
      (e0 := EY d I J L) (e1 := EZ d I (J + 1) L) (e2 := EY d I J (L + 1)) (e3 := EZ d I J L)
      ((mem_edges d b).2 (.y (by omega) (by omega) (by omega) (by omega) (by omega) (by omega)))
      ((mem_edges d b).2 (.z (by omega) (by omega) (by omega) (by omega) (by omega) (by omega)))
      ((mem_edges d b).2 (.y (by omega) (by omega) (by omega) (by omega) (by omega) (by omega)))
      ((mem_edges d b).2 (.z (by omega) (by omega) (by omega) (by omega) (by omega) (by omega)))
      ⟨rfl, rfl⟩ ⟨rfl, rfl⟩ ⟨rfl, rfl⟩ ⟨rfl, rfl⟩
    exact ⟨x, p1, p2 ▸ .x h1 h2 h3 h4 h5 h6, p3⟩
  · obtain ⟨x, p1, p2, p3⟩ := putFace_quad hv.2 hv.1 H he hu (f := FY d I J L) rfl
      (vmem d b (by omega) (by omega) (by omega) (by omega) (by omega) (by omega))
      (vmem d b (by omega) (by omega) (by omega) (by omega) (by omega) (by omega))
      (vmem d b (by omega) (by omega) (by omega) (by omega) (by omega) (by omega))
      (vmem d b (by omega) (by omega) (by omega) (by omega) (by omega) (by omega))
      (e0 := EX d I J L) (e1 := EZ d (I + 1) J L) (e2 := EX d I J (L + 1)) (e3 := EZ d I J L)
      ((mem_edges d b).2 (.x (by omega) (by omega) (by omega) (by omega) (by omega) (by omega)))
      ((mem_edges d b).2 (.z (by omega) (by omega) (by omega) (by omega) (by omega) (by omega)))
      ((mem_edges d b).2 (.x (by omega) (by omega) (by omega) (by omega) (by omega) (by omega)))
      ((mem_edges d b).2 (.z (by omega) (by omega) (by omega) (by omega) (by omega) (by omega)))
      ⟨rfl, rfl⟩ ⟨rfl, rfl⟩ ⟨rfl, rfl⟩ ⟨rfl, rfl⟩
    exact ⟨x, p1, p2 ▸ .y h1 h2 h3 h4 h5 h6, p3⟩
  · obtain ⟨x, p1, p2, p3⟩ := putFace_quad hv.2 hv.1 H he hu (f := FZ d I J L) rfl
      (vmem d b (by omega) (by omega) (by omega) (by omega) (by omega) (by omega))
      (vmem d b (by omega) (by omega) (by omega) (by omega) (by omega) (by omega))
      (vmem d b (by omega) (by omega) (by omega) (by omega) (by omega) (by omega))
      (vmem d b (by omega) (by omega) (by omega) (by omega) (by omega) (by omega))
      (e0 := EX d I J L) (e1 := EY d (I + 1) J L) (e2 := EX d I (J + 1) L) (e3 := EY d I J L)
      ((mem_edges d b).2 (.x (by omega) (by omega) (by omega) (by omega) (by omega) (by omega)))
      ((mem_edges d b).2 (.y (by omega) (by omega) (by omega) (by omega) (by omega) (by omega)))
      ((mem_edges d b).2 (.x (by omega) (by omega) (by omega) (by omega) (by omega) (by omega)))
      ((mem_edges d b).2 (.y (by omega) (by omega) (by omega) (by omega) (by omega) (by omega)))
      ⟨rfl, rfl⟩ ⟨rfl, rfl⟩ ⟨rfl, rfl⟩ ⟨rfl, rfl⟩
    exact ⟨x, p1, p2 ▸ .z h1 h2 h3 h4 h5 h6, p3⟩

end
end Jali.MstkGen
