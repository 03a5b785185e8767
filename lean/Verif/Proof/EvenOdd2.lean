import Verif.Proof.EvenOdd
import Mathlib.Topology.MetricSpace.Basic
import Mathlib.Topology.Connected.TotallyDisconnected
import Mathlib.Analysis.Convex.Topology
import Mathlib.Analysis.Normed.Module.Convex
/-! Crossing parity along segments and paths. -/
namespace Jali.Geom
open Spec Point

theorem parity_xor {α : Type} (L : List α) (f g h k : α → Bool) :
    (L.countP (fun a => (f a ^^ g a) ^^ (h a ^^ k a)) + L.countP f + L.countP g + L.countP h + L.countP k) % 2 = 0 := by
  induction L with
  | nil => rfl
  | cons a L ih =>
    rw [List.countP_cons, List.countP_cons, List.countP_cons, List.countP_cons, List.countP_cons]
    generalize L.countP (fun a => (f a ^^ g a) ^^ (h a ^^ k a)) = n at *
    generalize L.countP f = n1 at *
    generalize L.countP g = n2 at *
    generalize L.countP h = n3 at *
    generalize L.countP k = n4 at *
    cases f a <;> cases g a <;> cases h a <;> cases k a <;> simp <;> omega

theorem flips_parity (t t' : Point) (l : List Point) :
    ((polyEdges l).countP (fun e => flips t t' e.1 e.2) + (polyEdges l).countP (fun e => crosses t.x t.y e.1 e.2) +
      (polyEdges l).countP (fun e => crosses t'.x t'.y e.1 e.2)) % 2 = 0 := by
  have h := parity_xor (polyEdges l) (fun e => crosses t.x t.y e.1 e.2) (fun e => crosses t'.x t'.y e.1 e.2)
    (fun e => beyond t t' e.1) (fun e => beyond t t' e.2)
  have h1 : (polyEdges l).countP (fun e => beyond t t' e.1) = l.countP (beyond t t') := by
    conv_rhs => rw [← edges_fst l]
    rw [List.countP_map]; rfl
  have h2 : (polyEdges l).countP (fun e => beyond t t' e.2) = l.countP (beyond t t') := by
    rw [← (List.rotate_perm l 1).countP_eq, ← edges_snd l, List.countP_map]; rfl
  rw [h1, h2] at h
  have e : (polyEdges l).countP (fun e => flips t t' e.1 e.2) = (polyEdges l).countP (fun a =>
    (crosses t.x t.y a.1 a.2 ^^ crosses t'.x t'.y a.1 a.2) ^^ (beyond t t' a.1 ^^ beyond t t' a.2)) := rfl
  omega

theorem inPolygon_flips (t t' : Point) (l : List Point) : (pointInPolygon t l ^^ pointInPolygon t' l) = true ↔
    (polyEdges l).countP (fun e => flips t t' e.1 e.2) % 2 = 1 := by
  have h := flips_parity t t' l
  have h1 := inPolygon_parity t l
  have h2 := inPolygon_parity t' l
  generalize (polyEdges l).countP (fun e => flips t t' e.1 e.2) = a at *
  generalize (polyEdges l).countP (fun e => crosses t.x t.y e.1 e.2) = b at *
  generalize (polyEdges l).countP (fun e => crosses t'.x t'.y e.1 e.2) = c at *
  cases hb : pointInPolygon t l <;> cases hc : pointInPolygon t' l <;> rw [hb] at h1 <;> rw [hc] at h2 <;> simp at h1 h2 ⊢ <;> omega

theorem isClosed_seg (a b : Point) : IsClosed {z : ℝ × ℝ | OnSeg a b z.1 z.2} := by
  have : {z : ℝ × ℝ | OnSeg a b z.1 z.2} = (fun s : ℝ => (a.x + s * (b.x - a.x), a.y + s * (b.y - a.y))) '' Set.Icc 0 1 := by
    ext z
    constructor
    · rintro ⟨s, h0, h1, h2, h3⟩
      exact ⟨s, ⟨h0, h1⟩, Prod.ext h2.symm h3.symm⟩
    · rintro ⟨s, ⟨h0, h1⟩, rfl⟩
      exact ⟨s, h0, h1, rfl, rfl⟩
  rw [this]
  exact (isCompact_Icc.image (by fun_prop)).isClosed

theorem isClosed_boundary (L : List (Point × Point)) : IsClosed {z : ℝ × ℝ | ∃ e ∈ L, OnSeg e.1 e.2 z.1 z.2} := by
  induction L with
  | nil => simp
  | cons e L ih =>
    have : {z : ℝ × ℝ | ∃ e' ∈ e :: L, OnSeg e'.1 e'.2 z.1 z.2} =
        {z | OnSeg e.1 e.2 z.1 z.2} ∪ {z : ℝ × ℝ | ∃ e ∈ L, OnSeg e.1 e.2 z.1 z.2} := by
      ext z; simp
    rw [this]
    exact (isClosed_seg _ _).union ih

/-- the answer does not change nearby a point off the boundary -/
theorem locally_const (l : List Point) (z : ℝ × ℝ) (hz : ¬ ∃ e ∈ polyEdges l, OnSeg e.1 e.2 z.1 z.2) :
    ∃ r > 0, ∀ w ∈ Metric.ball z r, pointInPolygon (mk2 w.1 w.2) l = pointInPolygon (mk2 z.1 z.2) l := by
  have hopen := (isClosed_boundary (polyEdges l)).isOpen_compl
  obtain ⟨r, hr, hball⟩ := Metric.isOpen_iff.1 hopen z hz
  refine ⟨r, hr, ?_⟩
  intro w hw
  have hno : ∀ e ∈ polyEdges l, flips (mk2 w.1 w.2) (mk2 z.1 z.2) e.1 e.2 = false := by
    intro e he
    apply flips_apart
    rintro x y ⟨s, h0, h1, h2, h3⟩ ho
    have hm : ((x, y) : ℝ × ℝ) ∈ Metric.ball z r := by
      have := (convex_ball z r) hw (Metric.mem_ball_self hr) (sub_nonneg.2 h1) h0 (by ring)
      convert this using 1
      ext
      · simp only [Prod.fst_add, Prod.smul_fst, smul_eq_mul]; rw [h2]; simp only [mk2]; ring
      · simp only [Prod.snd_add, Prod.smul_snd, smul_eq_mul]; rw [h3]; simp only [mk2]; ring
    exact hball hm ⟨e, he, ho⟩
  have h := inPolygon_flips (mk2 w.1 w.2) (mk2 z.1 z.2) l
  rw [List.countP_eq_zero.2 (fun e he => by simpa using hno e he)] at h
  cases ha : pointInPolygon (mk2 w.1 w.2) l <;> cases hb : pointInPolygon (mk2 z.1 z.2) l <;> rw [ha, hb] at h <;> simp at h ⊢

theorem same_component (l : List Point) (S : Set (ℝ × ℝ)) (hS : IsPreconnected S)
    (hb : ∀ z ∈ S, ¬ ∃ e ∈ polyEdges l, OnSeg e.1 e.2 z.1 z.2) {z w : ℝ × ℝ} (hz : z ∈ S) (hw : w ∈ S) :
    pointInPolygon (mk2 z.1 z.2) l = pointInPolygon (mk2 w.1 w.2) l := by
  refine hS.constant (f := fun z : ℝ × ℝ => pointInPolygon (mk2 z.1 z.2) l) ?_ hz hw
  intro z hz
  apply ContinuousAt.continuousWithinAt
  obtain ⟨r, hr, h⟩ := locally_const l z (hb z hz)
  apply ContinuousAt.congr (f := fun _ => pointInPolygon (mk2 z.1 z.2) l) continuousAt_const
  filter_upwards [Metric.ball_mem_nhds z hr] with w hw
  exact (h w hw).symm

theorem inPolygon_xy (t : Point) (l : List Point) : pointInPolygon (mk2 t.x t.y) l = pointInPolygon t l := rfl

end Jali.Geom
