import Verif.Proof.Geometry
import Mathlib.Tactic.FieldSimp
import Mathlib.Tactic.Positivity
import Mathlib.Tactic.NormNum
/-! Property theorems C53: areas, centroids and normals of polygons in exact arithmetic. -/
namespace Jali.Geom
open Spec Point

theorem pt_zero_mem {l : List Point} (h : 0 < l.length) : pt l 0 ∈ l := by
  rw [pt, List.getD_eq_getElem?_getD, List.getElem?_eq_getElem h]; exact List.getElem_mem h

theorem triNormal3 {c a b : Point} (ha : a.d = 3) (hb : b.d = 3) : triNormal c a b =
    ⟨3, ((a.y - c.y) * (b.z - c.z) - (a.z - c.z) * (b.y - c.y)) / 2,
     ((a.z - c.z) * (b.x - c.x) - (a.x - c.x) * (b.z - c.z)) / 2,
     ((a.x - c.x) * (b.y - c.y) - (a.y - c.y) * (b.x - c.x)) / 2⟩ := by
  rw [triNormal, sub3 _ ha, sub3 _ hb, smul3, cross3]
  ext <;> simp only <;> ring

theorem triNormal2 {c a b : Point} (ha : a.d = 2) (hb : b.d = 2) : triNormal c a b = ⟨2, orient2 c a b / 2, 0, 0⟩ := by
  rw [triNormal, sub2 _ ha, sub2 _ hb, smul2, cross2, orient2]
  ext <;> simp only
  ring

theorem sum_shift {α : Type} (l : List α) (f : α × α → ℝ) (g : α → ℝ) :
    ((polyEdges l).map fun e => f e + (g e.2 - g e.1)).sum = ((polyEdges l).map f).sum := by
  rw [sum_map_add, edges_telescope, add_zero]

/-- **C53, normals in space.** For every polygon of at least three vertices in space, flat or not, the computed normal is
the area vector given by the contour formula: half the sum of the cross products of consecutive vertices. -/
theorem polygon_normal_contour (coords : List Point) (h : 3 ≤ coords.length) (h3 : ∀ p ∈ coords, p.d = 3) :
    (polygonAreaCentroidNormal coords).normal = areaVector coords := by
  rcases Nat.lt_or_ge 3 coords.length with hl | hl
  · have hd := h3 _ (pt_zero_mem (show 0 < coords.length by omega))
    rw [polygon_loop coords hl]
    simp only [hd]
    generalize meanPoint 3 coords = c
    have hz : (zero 3).d = 3 := rfl
    have key : (polyEdges coords).map (fun e => triNormal c e.1 e.2) = (polyEdges coords).map fun e =>
        (⟨3, (e.1.y * e.2.z - e.1.z * e.2.y) / 2 + ((c.z * e.2.y - c.y * e.2.z) / 2 - (c.z * e.1.y - c.y * e.1.z) / 2),
          (e.1.z * e.2.x - e.1.x * e.2.z) / 2 + ((c.x * e.2.z - c.z * e.2.x) / 2 - (c.x * e.1.z - c.z * e.1.x) / 2),
          (e.1.x * e.2.y - e.1.y * e.2.x) / 2 + ((c.y * e.2.x - c.x * e.2.y) / 2 - (c.y * e.1.x - c.x * e.1.y) / 2)⟩ : Point) := by
      apply List.map_congr_left
      intro e he
      obtain ⟨ha, hb⟩ := mem_edges_l he
      rw [triNormal3 (h3 _ ha) (h3 _ hb)]
      ext <;> simp only <;> ring
    rw [key]
    have div2 : ∀ f : Point × Point → ℝ, ((polyEdges coords).map fun e => f e / 2).sum = ((polyEdges coords).map f).sum / 2 := by
      intro f
      have := sum_map_mulc (polyEdges coords) (1 / 2) f
      rw [show (fun e => f e / 2) = fun e => 1 / 2 * f e by funext e; ring, this]; ring
    ext
    · rw [foldl_addAssign_d]; rfl
    · rw [foldl_addAssign_x _ _ (by simp [hz]), List.map_map]
      simp only [Function.comp_def]
      rw [sum_shift coords (fun e => (e.1.y * e.2.z - e.1.z * e.2.y) / 2) (fun v => (c.z * v.y - c.y * v.z) / 2), div2]
      simp [zero, areaVector]
    · rw [foldl_addAssign_y _ _ (by simp [hz]), List.map_map]
      simp only [Function.comp_def]
      rw [sum_shift coords (fun e => (e.1.z * e.2.x - e.1.x * e.2.z) / 2) (fun v => (c.x * v.z - c.z * v.x) / 2), div2]
      simp [zero, areaVector]
    · rw [foldl_addAssign_z _ _ (by simp [hz]), List.map_map]
      simp only [Function.comp_def]
      rw [sum_shift coords (fun e => (e.1.x * e.2.y - e.1.y * e.2.x) / 2) (fun v => (c.y * v.x - c.x * v.y) / 2), div2]
      simp [zero, areaVector]
  · match coords, h, hl with
    | [a, b, c], _, _ =>
      have ha := h3 a (by simp)
      have hb := h3 b (by simp)
      have hc := h3 c (by simp)
      simp only [polygonAreaCentroidNormal, List.length_cons, List.length_nil, pt, List.getD_cons_zero, List.getD_cons_succ,
        Nat.reduceAdd, Nat.lt_irrefl, if_false, if_true]
      rw [sub3 _ hc, sub3 _ ha, smul3, cross3]
      simp only [areaVector, polyEdges, List.rotate_cons_succ, List.rotate_zero, List.zip_cons_cons, List.cons_append,
        List.nil_append, List.zip_nil_right, List.map_cons, List.map_nil, List.sum_cons, List.sum_nil]
      ext <;> simp only <;> ring

/-- a tilted, non-flat quadrilateral -/
example : (polygonAreaCentroidNormal [mk3 0 0 0, mk3 1 0 0, mk3 1 1 1, mk3 0 1 0]).normal = ⟨3, -1 / 2, -1 / 2, 1⟩ := by
  rw [polygon_normal_contour _ (by simp) (by simp [mk3])]
  simp only [areaVector, polyEdges, mk3, List.rotate_cons_succ, List.rotate_zero, List.zip_cons_cons, List.cons_append,
    List.nil_append, List.zip_nil_right, List.map_cons, List.map_nil, List.sum_cons, List.sum_nil]
  norm_num

/-- **C53, the contour formula is what a normal should be:** moving the origin does not change it, reversing the vertices
negates it, and the starting vertex does not matter. -/
theorem areaVector_invariance (l : List Point) (tx ty tz : ℝ) (k : Nat) :
    areaVector (l.map fun p => ⟨3, p.x + tx, p.y + ty, p.z + tz⟩) = areaVector l ∧
    areaVector l.reverse = neg (areaVector l) ∧ areaVector (l.rotate k) = areaVector l := by
  refine ⟨?_, ?_, ?_⟩
  · simp only [areaVector, edges_map, List.map_map, Function.comp_def]
    ext
    · rfl
    · simp only
      rw [← sum_shift l (fun e => e.1.y * e.2.z - e.1.z * e.2.y) (fun v => ty * v.z - tz * v.y)]
      congr 2; apply List.map_congr_left; intro e _; ring
    · simp only
      rw [← sum_shift l (fun e => e.1.z * e.2.x - e.1.x * e.2.z) (fun v => tz * v.x - tx * v.z)]
      congr 2; apply List.map_congr_left; intro e _; ring
    · simp only
      rw [← sum_shift l (fun e => e.1.x * e.2.y - e.1.y * e.2.x) (fun v => tx * v.y - ty * v.x)]
      congr 2; apply List.map_congr_left; intro e _; ring
  · have key : ∀ f : Point × Point → ℝ, (∀ e, f e.swap = - f e) →
        ((polyEdges l.reverse).map f).sum = -((polyEdges l).map f).sum := by
      intro f hf
      rw [((edges_reverse l).map f).sum_eq, List.map_map, ← sum_map_neg]
      congr 1; apply List.map_congr_left; intro e _; exact hf e
    simp only [areaVector, neg, mk3]
    ext
    · rfl
    all_goals
      simp only [Nat.reduceEqDiff, if_false]
      rw [key _ (by intro e; simp only [Prod.fst_swap, Prod.snd_swap]; ring)]; ring
  · simp only [areaVector]
    ext
    · rfl
    all_goals
      simp only
      rw [((edges_rotate l k).map _).sum_eq]

/-- The polygon is star-shaped around the average of its vertices, and counter-clockwise. -/
def StarShaped (l : List Point) : Prop := ∀ e ∈ polyEdges l, 0 < orient2 (vertexMean 2 l) e.1 e.2

theorem sum_pos_of {α : Type} (l : List α) (f : α → ℝ) (h : ∀ a ∈ l, 0 < f a) (hne : l ≠ []) : 0 < (l.map f).sum := by
  induction l with
  | nil => exact absurd rfl hne
  | cons a l ih =>
    rw [List.map_cons, List.sum_cons]
    have h1 := h a (by simp)
    rcases l with _ | ⟨b, l⟩
    · simpa using h1
    · have := ih (fun x hx => h x (by simp [hx])) (by simp); linarith
theorem sum_nonneg_of {α : Type} (l : List α) (f : α → ℝ) (h : ∀ a ∈ l, 0 ≤ f a) : 0 ≤ (l.map f).sum := by
  induction l with
  | nil => simp
  | cons a l ih =>
    rw [List.map_cons, List.sum_cons]
    have h1 := h a (by simp)
    have := ih (fun x hx => h x (by simp [hx])); linarith

theorem orient2_congr {c c' a b : Point} (hx : c.x = c'.x) (hy : c.y = c'.y) : orient2 c a b = orient2 c' a b := by
  simp only [orient2, hx, hy]

/-- **C53, signed area of plane polygons with at least four vertices.** The area reported is positive exactly if the polygon
is counter-clockwise and star-shaped around the average of its vertices; it is then the area given by the shoelace
formula, and the centroid has the first moments given by the contour formulas. Otherwise the area is flagged: it is not
positive. In any case the normal's component is the shoelace area. -/
theorem polygon_area_plane (coords : List Point) (h : 4 ≤ coords.length) (h2 : ∀ p ∈ coords, p.d = 2) :
    let r := polygonAreaCentroidNormal coords
    (0 < r.area ↔ StarShaped coords) ∧ r.normal = ⟨2, shoelace coords, 0, 0⟩ ∧
    (StarShaped coords → r.area = shoelace coords ∧ r.area * r.centroid.x = momentX coords ∧
      r.area * r.centroid.y = momentY coords) := by
  have hd := h2 _ (pt_zero_mem (show 0 < coords.length by omega))
  obtain ⟨mc1, mc2, mc3, mc4⟩ := meanPoint2 coords
  intro r
  have hr : r = _ := polygon_loop coords (by omega)
  simp only [hd, decide_true, Bool.true_and] at hr
  rw [hr]
  set c := meanPoint 2 coords with hc
  have ho : ∀ a b, orient2 c a b = orient2 (vertexMean 2 coords) a b := fun a b => orient2_congr mc2 mc3
  have hn : ∀ e ∈ polyEdges coords, triNormal c e.1 e.2 = ⟨2, orient2 c e.1 e.2 / 2, 0, 0⟩ := by
    intro e he
    obtain ⟨ha, hb⟩ := mem_edges_l he
    exact triNormal2 (h2 _ ha) (h2 _ hb)
  have hnorm : (polyEdges coords).map (fun e => Point.norm (triNormal c e.1 e.2)) =
      (polyEdges coords).map fun e => |orient2 c e.1 e.2 / 2| := by
    apply List.map_congr_left; intro e he; rw [hn e he, norm2]
  have hne : polyEdges coords ≠ [] := by
    intro h0; have := congrArg List.length h0; rw [edges_length, List.length_nil] at this; omega
  have hneg : ((polyEdges coords).any fun e => decide ((triNormal c e.1 e.2).x ≤ 0)) = false ↔
      StarShaped coords := by
    rw [List.any_eq_false]
    simp only [decide_eq_true_eq, StarShaped, not_le]
    refine forall_congr' fun e => forall_congr' fun he => ?_
    rw [hn e he, ho]
    constructor <;> intro hh
    · simp only at hh; linarith
    · simp only; linarith
  have habs : StarShaped coords → ∀ e ∈ polyEdges coords, |orient2 c e.1 e.2 / 2| = orient2 c e.1 e.2 / 2 := by
    intro hs e he
    exact abs_of_pos (by rw [ho]; have := hs e he; linarith)
  have hshoe : ((polyEdges coords).map fun e => orient2 c e.1 e.2 / 2).sum = shoelace coords := by
    rw [shoelace, ← sum_shift coords (fun e => e.1.x * e.2.y - e.2.x * e.1.y) (fun v => c.y * v.x - c.x * v.y)]
    have := sum_map_mulc (polyEdges coords) (1 / 2) (fun e => e.1.x * e.2.y - e.2.x * e.1.y + (c.y * e.2.x - c.x * e.2.y - (c.y * e.1.x - c.x * e.1.y)))
    rw [show ∀ s : ℝ, s / 2 = 1 / 2 * s from fun s => by ring, ← this]
    apply sum_map_congr; intro e _; simp only [orient2]; ring
  have harea : StarShaped coords → ((polyEdges coords).map fun e => Point.norm (triNormal c e.1 e.2)).sum = shoelace coords := by
    intro hs
    rw [hnorm, sum_map_congr _ _ _ (habs hs), hshoe]
  have hpos : StarShaped coords → 0 < shoelace coords := by
    intro hs
    rw [← harea hs, hnorm]
    exact sum_pos_of _ _ (fun e he => by rw [habs hs e he, ho]; have := hs e he; linarith) hne
  refine ⟨?_, ?_, ?_⟩
  · constructor
    · intro hp
      by_contra hs
      have ht := mt hneg.1 hs
      rw [Bool.not_eq_false] at ht
      simp only [ht, labelSign, true_and] at hp
      split at hp <;> linarith
    · intro hs
      simp only [hneg.2 hs, labelSign, Bool.false_eq_true, false_and, if_false]
      rw [harea hs]; exact hpos hs
  · simp only
    ext
    · rw [foldl_addAssign_d]; rfl
    · rw [foldl_addAssign_x _ _ (by simp [zero]), List.map_map]
      simp only [Function.comp_def]
      rw [sum_map_congr _ _ (fun e => orient2 c e.1 e.2 / 2) (fun e he => by rw [hn e he]), hshoe]
      simp [zero]
    · rw [foldl_addAssign_y _ _ (by simp [zero]), List.map_map]
      simp only [Function.comp_def]
      rw [sum_map_congr _ _ (fun e => 0) (fun e he => by rw [hn e he])]
      simp [zero]
    · rw [foldl_addAssign_keep _ _ (by simp [zero])]; rfl
  · intro hs
    have hA := harea hs
    have hP := hpos hs
    simp only [hneg.2 hs, labelSign, Bool.false_eq_true, false_and, if_false]
    rw [hA]
    refine ⟨rfl, ?_, ?_⟩
    · simp only [divAssign]
      rw [foldl_addAssign_d]
      simp only [zero, Nat.ofNat_pos, if_true]
      rw [mul_div_cancel₀ _ hP.ne', foldl_addAssign_x _ _ (by simp), List.map_map]
      simp only [Function.comp_def, zero_add]
      rw [momentX, ← sum_shift coords (fun e => (e.1.x + e.2.x) * (e.1.x * e.2.y - e.2.x * e.1.y))
        (fun v => (v.x + c.x) * (v.x * c.y - c.x * v.y))]
      rw [show ∀ s : ℝ, s / 6 = 1 / 6 * s from fun s => by ring, ← sum_map_mulc]
      apply sum_map_congr
      intro e he
      have h1 := (mem_edges_l he).1
      rw [hn e he, norm2, habs hs e he, add2 _ (h2 _ h1), add2 _ rfl, smul2, sdiv, smul2]
      simp only [orient2]; ring
    · simp only [divAssign]
      rw [foldl_addAssign_d]
      simp only [zero, Nat.one_lt_ofNat, if_true]
      rw [mul_div_cancel₀ _ hP.ne', foldl_addAssign_y _ _ (by simp), List.map_map]
      simp only [Function.comp_def, zero_add]
      rw [momentY, ← sum_shift coords (fun e => (e.1.y + e.2.y) * (e.1.x * e.2.y - e.2.x * e.1.y))
        (fun v => (v.y + c.y) * (v.x * c.y - c.x * v.y))]
      rw [show ∀ s : ℝ, s / 6 = 1 / 6 * s from fun s => by ring, ← sum_map_mulc]
      apply sum_map_congr
      intro e he
      have h1 := (mem_edges_l he).1
      rw [hn e he, norm2, habs hs e he, add2 _ (h2 _ h1), add2 _ rfl, smul2, sdiv, smul2]
      simp only [orient2]; ring

/-- a kite with a different height on both sides -/
example : StarShaped [mk2 0 0, mk2 2 (-1), mk2 5 0, mk2 2 3] ∧ shoelace [mk2 0 0, mk2 2 (-1), mk2 5 0, mk2 2 3] = 10 := by
  constructor
  · intro e he
    simp only [polyEdges, mk2, List.rotate_cons_succ, List.rotate_zero, List.zip_cons_cons, List.cons_append,
      List.nil_append, List.zip_nil_right, List.mem_cons, List.not_mem_nil, or_false] at he
    simp only [orient2, vertexMean, mean, mk2, List.map_cons, List.map_nil, List.sum_cons, List.sum_nil, List.length_cons,
      List.length_nil]
    rcases he with rfl | rfl | rfl | rfl <;> norm_num
  · simp only [shoelace, polyEdges, mk2, List.rotate_cons_succ, List.rotate_zero, List.zip_cons_cons, List.cons_append,
      List.nil_append, List.zip_nil_right, List.map_cons, List.map_nil, List.sum_cons, List.sum_nil]
    norm_num

/-- a clockwise square is not star-shaped in this sense: it is flagged -/
example : ¬ 0 < (polygonAreaCentroidNormal [mk2 0 0, mk2 0 1, mk2 1 1, mk2 1 0]).area := by
  rw [(polygon_area_plane _ (by simp) (by simp [mk2])).1]
  intro h
  have := h (mk2 0 0, mk2 0 1) (by simp [polyEdges, List.rotate_cons_succ])
  simp [orient2, vertexMean, mean, mk2] at this
  norm_num at this

/-- **C53, plane triangles.** The area is the absolute value of the shoelace area, the centroid the average of the
corners, the normal's component the shoelace area. -/
theorem triangle_area_plane (a b c : Point) (ha : a.d = 2) (hb : b.d = 2) (hc : c.d = 2) :
    let r := polygonAreaCentroidNormal [a, b, c]
    r.area = |shoelace [a, b, c]| ∧ r.centroid.x = (a.x + b.x + c.x) / 3 ∧ r.centroid.y = (a.y + b.y + c.y) / 3 ∧
    r.normal = ⟨2, shoelace [a, b, c], 0, 0⟩ := by
  obtain ⟨_, m2, m3, _⟩ := meanPoint2 [a, b, c]
  have hs : shoelace [a, b, c] = (0.5 * (c.x - b.x)) * (a.y - b.y) - (a.x - b.x) * (0.5 * (c.y - b.y)) := by
    simp only [shoelace, polyEdges, List.rotate_cons_succ, List.rotate_zero, List.zip_cons_cons, List.cons_append,
      List.nil_append, List.zip_nil_right, List.map_cons, List.map_nil, List.sum_cons, List.sum_nil]
    ring
  simp only [polygonAreaCentroidNormal, List.length_cons, List.length_nil, pt, List.getD_cons_zero, List.getD_cons_succ,
    Nat.reduceAdd, Nat.lt_irrefl, if_false, if_true, ha]
  rw [sub2 _ hc, sub2 _ ha, smul2, cross2, ← hs, norm2, m2, m3]
  refine ⟨rfl, ?_, ?_, rfl⟩ <;>
  · simp only [vertexMean, mean, List.map_cons, List.map_nil, List.sum_cons, List.sum_nil, List.length_cons, List.length_nil]
    norm_num; ring

/-- **C53 is false of the code for triangles**: an inverted (clockwise) triangle is never flagged, its area is reported
as positive, whereas inverted polygons with more vertices are flagged. -/
theorem inverted_triangle_not_flagged (a b c : Point) (ha : a.d = 2) (hb : b.d = 2) (hc : c.d = 2)
    (hinv : orient2 a b c < 0) : 0 < (polygonAreaCentroidNormal [a, b, c]).area := by
  rw [(triangle_area_plane a b c ha hb hc).1]
  apply abs_pos.2
  have hs : shoelace [a, b, c] = orient2 a b c / 2 := by
    simp only [shoelace, polyEdges, List.rotate_cons_succ, List.rotate_zero, List.zip_cons_cons, List.cons_append,
      List.nil_append, List.zip_nil_right, List.map_cons, List.map_nil, List.sum_cons, List.sum_nil, orient2]
    ring
  rw [hs]; intro h; linarith

example : orient2 (mk2 0 0) (mk2 0 1) (mk2 1 0) < 0 := by simp [orient2, mk2]

theorem norm3_smul (t x y z : ℝ) (ht : 0 ≤ t) : Point.norm ⟨3, t * x, t * y, t * z⟩ = t * Point.norm ⟨3, x, y, z⟩ := by
  rw [Point.norm, Point.norm, dot3, dot3,
    show t * x * (t * x) + t * y * (t * y) + t * z * (t * z) = t ^ 2 * (x * x + y * y + z * z) by ring,
    Real.sqrt_mul (sq_nonneg t), Real.sqrt_sq ht]

/-- **C53, flat polygons in space.** If all the triangles formed by the average of the vertices and an edge have the same
direction, the area is the length of the area vector. -/
theorem polygon_area_flat (coords : List Point) (h : 4 ≤ coords.length) (h3 : ∀ p ∈ coords, p.d = 3) (u : Point)
    (hflat : ∀ e ∈ polyEdges coords, ∃ t, 0 ≤ t ∧
      areaVector [vertexMean 3 coords, e.1, e.2] = ⟨3, t * u.x, t * u.y, t * u.z⟩) :
    (polygonAreaCentroidNormal coords).area = Point.norm (areaVector coords) := by
  rw [← polygon_normal_contour coords (by omega) h3]
  have hd := h3 _ (pt_zero_mem (show 0 < coords.length by omega))
  rw [polygon_loop coords (by omega)]
  have hany : ∀ E : List (Point × Point), (E.any fun _ => false) = false := by intro E; induction E <;> simp_all
  simp only [hd, meanPoint3, Nat.reduceEqDiff, decide_false, Bool.false_and, hany, labelSign,
    Bool.false_eq_true, false_and, if_false]
  set c := vertexMean 3 coords
  have hav : ∀ e ∈ polyEdges coords, triNormal c e.1 e.2 = areaVector [c, e.1, e.2] := by
    intro e he
    obtain ⟨h1, h2⟩ := mem_edges_l he
    rw [triNormal3 (h3 _ h1) (h3 _ h2)]
    simp only [areaVector, polyEdges, List.rotate_cons_succ, List.rotate_zero, List.zip_cons_cons, List.cons_append,
      List.nil_append, List.zip_nil_right, List.map_cons, List.map_nil, List.sum_cons, List.sum_nil]
    ext <;> simp only <;> ring
  have key : ∀ E : List (Point × Point), (∀ e ∈ E, e ∈ polyEdges coords) → ∃ T, 0 ≤ T ∧
      (E.map fun e => Point.norm (triNormal c e.1 e.2)).sum = T * Point.norm ⟨3, u.x, u.y, u.z⟩ ∧
      ∀ s : ℝ, (E.map fun e => triNormal c e.1 e.2).foldl addAssign ⟨3, s * u.x, s * u.y, s * u.z⟩ =
        ⟨3, (s + T) * u.x, (s + T) * u.y, (s + T) * u.z⟩ := by
    intro E
    induction E with
    | nil => intro _; exact ⟨0, le_refl 0, by simp, by simp⟩
    | cons e E ih =>
      intro hE
      obtain ⟨T, h0, h1, h2⟩ := ih fun x hx => hE x (by simp [hx])
      obtain ⟨t, ht, hn⟩ := hflat e (hE e (by simp))
      rw [← hav e (hE e (by simp))] at hn
      refine ⟨t + T, by linarith, ?_, fun s => ?_⟩
      · rw [List.map_cons, List.sum_cons, h1, hn, norm3_smul _ _ _ _ ht]; ring
      · rw [List.map_cons, List.foldl_cons, hn]
        have : addAssign ⟨3, s * u.x, s * u.y, s * u.z⟩ ⟨3, t * u.x, t * u.y, t * u.z⟩ =
            ⟨3, (s + t) * u.x, (s + t) * u.y, (s + t) * u.z⟩ := by
          simp only [addAssign]; ext <;> simp <;> ring
        rw [this, h2]; ext <;> simp only <;> ring
  obtain ⟨T, h0, h1, h2⟩ := key _ (fun _ h => h)
  have h2' := h2 0
  simp only [zero_mul, zero_add] at h2'
  rw [h1, show zero 3 = ⟨3, 0, 0, 0⟩ from rfl, h2', norm3_smul _ _ _ _ h0]

/-- a parallelogram in a tilted plane -/
example : ∀ e ∈ polyEdges [mk3 0 0 0, mk3 2 0 1, mk3 2 3 1, mk3 0 3 0], ∃ t, 0 ≤ t ∧
    areaVector [vertexMean 3 [mk3 0 0 0, mk3 2 0 1, mk3 2 3 1, mk3 0 3 0], e.1, e.2] = ⟨3, t * (-1), t * 0, t * 2⟩ := by
  intro e he
  simp only [polyEdges, mk3, List.rotate_cons_succ, List.rotate_zero, List.zip_cons_cons, List.cons_append,
    List.nil_append, List.zip_nil_right, List.mem_cons, List.not_mem_nil, or_false] at he
  refine ⟨3 / 4, by norm_num, ?_⟩
  simp only [areaVector, polyEdges, vertexMean, mean, mk3, List.rotate_cons_succ, List.rotate_zero, List.zip_cons_cons, List.cons_append,
    List.nil_append, List.zip_nil_right, List.map_cons, List.map_nil, List.sum_cons, List.sum_nil, List.length_cons, List.length_nil]
  rcases he with rfl | rfl | rfl | rfl <;> norm_num

end Jali.Geom
