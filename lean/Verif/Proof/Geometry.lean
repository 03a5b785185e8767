import Verif.Model.Geometry
import Verif.Spec.Geometry
import Mathlib.Tactic.Ring
import Mathlib.Tactic.Linarith
import Mathlib.Tactic.LinearCombination
import Mathlib.Algebra.BigOperators.Group.List.Basic
/-! Lemmas about polygons and polyhedra. -/
namespace Jali.Geom
open Spec Point

section Edges
variable {α β : Type}

theorem range_edges (l : List α) (dflt : α) :
    (List.range l.length).map (fun i => (l.getD i dflt, l.getD ((i + 1) % l.length) dflt)) = polyEdges l := by
  apply List.ext_getElem
  · simp [polyEdges]
  intro i h1 h2
  simp only [List.length_map, List.length_range] at h1
  have h3 : (i + 1) % l.length < l.length := Nat.mod_lt _ (by omega)
  simp [polyEdges, List.getElem_rotate, List.getD_eq_getElem?_getD, h1, h3]

theorem foldl_edges (l : List α) (dflt : α) (f : β → α → α → β) (b : β) :
    (List.range l.length).foldl (fun acc i => f acc (l.getD i dflt) (l.getD ((i + 1) % l.length) dflt)) b =
      (polyEdges l).foldl (fun acc e => f acc e.1 e.2) b := by
  rw [← range_edges l dflt, List.foldl_map]

theorem edges_fst (l : List α) : (polyEdges l).map Prod.fst = l := by
  rw [polyEdges, List.map_fst_zip]; simp
theorem edges_snd (l : List α) : (polyEdges l).map Prod.snd = l.rotate 1 := by
  rw [polyEdges, List.map_snd_zip]; simp

theorem edges_length (l : List α) : (polyEdges l).length = l.length := by simp [polyEdges]

theorem mem_edges_l {l : List α} {e : α × α} (h : e ∈ polyEdges l) : e.1 ∈ l ∧ e.2 ∈ l := by
  have h1 := List.mem_map_of_mem (f := Prod.fst) h
  have h2 := List.mem_map_of_mem (f := Prod.snd) h
  rw [edges_fst] at h1; rw [edges_snd] at h2
  exact ⟨h1, by simpa using h2⟩

/-- sums of differences along the boundary vanish -/
theorem edges_telescope (l : List α) (g : α → ℝ) : ((polyEdges l).map fun e => g e.2 - g e.1).sum = 0 := by
  have h : ((polyEdges l).map fun e => g e.2 - g e.1).sum =
      ((polyEdges l).map fun e => g e.2).sum - ((polyEdges l).map fun e => g e.1).sum := by
    generalize polyEdges l = E
    induction E with
    | nil => simp
    | cons e E ih => simp only [List.map_cons, List.sum_cons, ih]; ring
  rw [h]
  have h1 : (polyEdges l).map (fun e => g e.2) = ((polyEdges l).map Prod.snd).map g := by simp [List.map_map, Function.comp_def]
  have h2 : (polyEdges l).map (fun e => g e.1) = ((polyEdges l).map Prod.fst).map g := by simp [List.map_map, Function.comp_def]
  rw [h1, h2, edges_fst, edges_snd, ((List.rotate_perm l 1).map g).sum_eq, sub_self]

theorem edges_sum_fst (l : List α) (g : α → ℝ) : ((polyEdges l).map fun e => g e.1).sum = (l.map g).sum := by
  have h2 : (polyEdges l).map (fun e => g e.1) = ((polyEdges l).map Prod.fst).map g := by simp [List.map_map, Function.comp_def]
  rw [h2, edges_fst]
theorem edges_sum_snd (l : List α) (g : α → ℝ) : ((polyEdges l).map fun e => g e.2).sum = (l.map g).sum := by
  have h1 : (polyEdges l).map (fun e => g e.2) = ((polyEdges l).map Prod.snd).map g := by simp [List.map_map, Function.comp_def]
  rw [h1, edges_snd, ((List.rotate_perm l 1).map g).sum_eq]

theorem rotate_zip {γ : Type} (a : List α) (b : List γ) (n : Nat) (h : a.length = b.length) :
    (a.zip b).rotate n = (a.rotate n).zip (b.rotate n) := by
  exact List.zipWith_rotate_distrib _ _ _ _ h

/-- the edges of a polygon in reverse order are the reversed edges -/
theorem edges_reverse (l : List α) : (polyEdges l.reverse).Perm ((polyEdges l).map Prod.swap) := by
  rcases Nat.eq_zero_or_pos l.length with h0 | h0
  · rw [List.length_eq_zero_iff.1 h0]; rfl
  have h1 : polyEdges l.reverse = (l.zip (l.rotate (l.length - 1))).reverse := by
    rw [polyEdges, List.rotate_reverse]
    unfold List.zip
    rw [List.reverse_zipWith (by simp)]
    rcases Nat.lt_or_ge 1 l.length with h | h
    · rw [Nat.mod_eq_of_lt h]
    · obtain ⟨a, rfl⟩ := List.length_eq_one_iff.1 (show l.length = 1 by omega)
      simp [List.rotate_singleton]
  have h2 : (polyEdges l).map Prod.swap = (l.rotate 1).zip l := by rw [polyEdges, List.zip_swap]
  have h3 : l.zip (l.rotate (l.length - 1)) = ((polyEdges l).map Prod.swap).rotate (l.length - 1) := by
    rw [h2, rotate_zip _ _ _ (by simp), List.rotate_rotate]
    rw [show 1 + (l.length - 1) = l.length by omega, List.rotate_length]
  rw [h1, h3]
  exact (List.reverse_perm _).trans (List.rotate_perm _ _)

theorem edges_map (f : α → β) (l : List α) : polyEdges (l.map f) = (polyEdges l).map fun e => (f e.1, f e.2) := by
  rw [polyEdges, polyEdges, ← List.map_rotate, List.zip_map]
  rfl

theorem edges_rotate (l : List α) (n : Nat) : (polyEdges (l.rotate n)).Perm (polyEdges l) := by
  rw [polyEdges, List.rotate_rotate, Nat.add_comm, ← List.rotate_rotate, ← rotate_zip _ _ _ (by simp)]
  exact List.rotate_perm _ _

end Edges

section Sums
variable {α : Type}

theorem sum_map_add (l : List α) (f g : α → ℝ) : (l.map fun a => f a + g a).sum = (l.map f).sum + (l.map g).sum := by
  induction l with
  | nil => simp
  | cons a l ih => simp only [List.map_cons, List.sum_cons, ih]; ring
theorem sum_map_sub (l : List α) (f g : α → ℝ) : (l.map fun a => f a - g a).sum = (l.map f).sum - (l.map g).sum := by
  induction l with
  | nil => simp
  | cons a l ih => simp only [List.map_cons, List.sum_cons, ih]; ring
theorem sum_map_mulc (l : List α) (c : ℝ) (f : α → ℝ) : (l.map fun a => c * f a).sum = c * (l.map f).sum := by
  induction l with
  | nil => simp
  | cons a l ih => simp only [List.map_cons, List.sum_cons, ih]; ring
theorem sum_map_neg (l : List α) (f : α → ℝ) : (l.map fun a => -f a).sum = -(l.map f).sum := by
  induction l with
  | nil => simp
  | cons a l ih => simp only [List.map_cons, List.sum_cons, ih]; ring
theorem sum_map_congr (l : List α) (f g : α → ℝ) (h : ∀ a ∈ l, f a = g a) : (l.map f).sum = (l.map g).sum := by
  rw [List.map_congr_left h]
end Sums

/-! ### folding `+=` -/

theorem foldl_addAssign_d (L : List Point) : ∀ p : Point, (L.foldl addAssign p).d = p.d := by
  induction L with
  | nil => intro p; rfl
  | cons q L ih => intro p; rw [List.foldl_cons, ih]; rfl
theorem foldl_addAssign_x (L : List Point) : ∀ p : Point, 0 < p.d → (L.foldl addAssign p).x = p.x + (L.map Point.x).sum := by
  induction L with
  | nil => intro p _; simp
  | cons q L ih =>
    intro p hp
    rw [List.foldl_cons, ih (addAssign p q) hp]
    simp only [addAssign, if_pos hp, List.map_cons, List.sum_cons]; ring
theorem foldl_addAssign_y (L : List Point) : ∀ p : Point, 1 < p.d → (L.foldl addAssign p).y = p.y + (L.map Point.y).sum := by
  induction L with
  | nil => intro p _; simp
  | cons q L ih =>
    intro p hp
    rw [List.foldl_cons, ih (addAssign p q) hp]
    simp only [addAssign, if_pos hp, List.map_cons, List.sum_cons]; ring
theorem foldl_addAssign_z (L : List Point) : ∀ p : Point, 2 < p.d → (L.foldl addAssign p).z = p.z + (L.map Point.z).sum := by
  induction L with
  | nil => intro p _; simp
  | cons q L ih =>
    intro p hp
    rw [List.foldl_cons, ih (addAssign p q) hp]
    simp only [addAssign, if_pos hp, List.map_cons, List.sum_cons]; ring
theorem foldl_addAssign_keep (L : List Point) : ∀ p : Point, p.d ≤ 2 → (L.foldl addAssign p).z = p.z := by
  induction L with
  | nil => intro p _; rfl
  | cons q L ih =>
    intro p hp
    rw [List.foldl_cons, ih (addAssign p q) hp]
    simp only [addAssign, if_neg (show ¬ 2 < p.d by omega)]

theorem meanPoint3 (l : List Point) : meanPoint 3 l = vertexMean 3 l := by
  have hd : (l.foldl addAssign (zero 3)).d = 3 := foldl_addAssign_d l _
  have hx := foldl_addAssign_x l (zero 3) (by simp [zero])
  have hy := foldl_addAssign_y l (zero 3) (by simp [zero])
  have hz := foldl_addAssign_z l (zero 3) (by simp [zero])
  simp only [show (zero 3).x = 0 from rfl, show (zero 3).y = 0 from rfl, show (zero 3).z = 0 from rfl, zero_add] at hx hy hz
  ext <;> simp [meanPoint, divAssign, vertexMean, hd, hx, hy, hz, mean]

theorem meanPoint2 (l : List Point) : (meanPoint 2 l).d = 2 ∧ (meanPoint 2 l).x = (vertexMean 2 l).x ∧
    (meanPoint 2 l).y = (vertexMean 2 l).y ∧ (meanPoint 2 l).z = 0 := by
  have hd : (l.foldl addAssign (zero 2)).d = 2 := foldl_addAssign_d l _
  have hx := foldl_addAssign_x l (zero 2) (by simp [zero])
  have hy := foldl_addAssign_y l (zero 2) (by simp [zero])
  have hz := foldl_addAssign_keep l (zero 2) (by simp [zero])
  simp only [show (zero 2).x = 0 from rfl, show (zero 2).y = 0 from rfl, show (zero 2).z = 0 from rfl, zero_add] at hx hy hz
  refine ⟨?_, ?_, ?_, ?_⟩ <;> simp [meanPoint, divAssign, vertexMean, hd, hx, hy, hz, mean]

/-! ### operators on points of one dimension -/

theorem sub3 {p : Point} (q : Point) (h : p.d = 3) : p - q = ⟨3, p.x - q.x, p.y - q.y, p.z - q.z⟩ := by
  show sub p q = _
  simp [sub, h, mk3]
theorem sub2 {p : Point} (q : Point) (h : p.d = 2) : p - q = ⟨2, p.x - q.x, p.y - q.y, 0⟩ := by
  show sub p q = _
  simp [sub, h, mk2]
theorem add3 {p : Point} (q : Point) (h : p.d = 3) : p + q = ⟨3, p.x + q.x, p.y + q.y, p.z + q.z⟩ := by
  show add p q = _
  simp [add, h, mk3]
theorem add2 {p : Point} (q : Point) (h : p.d = 2) : p + q = ⟨2, p.x + q.x, p.y + q.y, 0⟩ := by
  show add p q = _
  simp [add, h, mk2]
theorem smul3 (r x y z : ℝ) : smul r ⟨3, x, y, z⟩ = ⟨3, r * x, r * y, r * z⟩ := by simp [smul, mk3]
theorem smul2 (r x y z : ℝ) : smul r ⟨2, x, y, z⟩ = ⟨2, r * x, r * y, 0⟩ := by simp [smul, mk2]
theorem cross3 (a b c x y z : ℝ) (n : Nat) : cross ⟨3, a, b, c⟩ ⟨n, x, y, z⟩ = ⟨3, b * z - c * y, c * x - a * z, a * y - b * x⟩ := by
  simp [cross]
theorem cross2 (a b c x y z : ℝ) (n : Nat) : cross ⟨2, a, b, c⟩ ⟨n, x, y, z⟩ = ⟨2, a * y - x * b, 0, 0⟩ := by
  simp [cross]
theorem dot3 (a b c x y z : ℝ) (n : Nat) : dot ⟨3, a, b, c⟩ ⟨n, x, y, z⟩ = a * x + b * y + c * z := by simp [dot]
theorem norm2 (a : ℝ) : Point.norm ⟨2, a, 0, 0⟩ = |a| := by
  simp [Point.norm, dot, Real.sqrt_mul_self_eq_abs]

/-! ### the loop over the edges of a polygon -/

/-- the triangle normal of an edge -/
noncomputable def triNormal (center a b : Point) : Point := cross (smul 0.5 (a - center)) (b - center)

theorem edge_fold (dim : Nat) (center : Point) (E : List (Point × Point)) : ∀ acc : AreaAcc,
    E.foldl (fun acc e => edgeStep dim center acc e.1 e.2) acc =
      ⟨acc.area + (E.map fun e => Point.norm (triNormal center e.1 e.2)).sum,
       (E.map fun e => sdiv (smul (Point.norm (triNormal center e.1 e.2)) (e.1 + e.2 + center)) 3).foldl addAssign acc.centroid,
       (E.map fun e => triNormal center e.1 e.2).foldl addAssign acc.normal,
       acc.neg || E.any fun e => decide (dim = 2) && decide ((triNormal center e.1 e.2).x ≤ 0)⟩ := by
  induction E with
  | nil => intro acc; simp
  | cons e E ih =>
    intro acc
    rw [List.foldl_cons, ih]
    have he : edgeStep dim center acc e.1 e.2 = ⟨acc.area + Point.norm (triNormal center e.1 e.2),
      addAssign acc.centroid (sdiv (smul (Point.norm (triNormal center e.1 e.2)) (e.1 + e.2 + center)) 3),
      addAssign acc.normal (triNormal center e.1 e.2),
      acc.neg || (decide (dim = 2) && decide ((triNormal center e.1 e.2).x ≤ 0))⟩ := rfl
    rw [he]
    simp only [List.map_cons, List.sum_cons, List.foldl_cons, List.any_cons, Bool.or_assoc, add_assoc]

theorem polygon_loop (coords : List Point) (h : 3 < coords.length) :
    let dim := (pt coords 0).d
    let center := meanPoint dim coords
    let E := polyEdges coords
    let area := (E.map fun e => Point.norm (triNormal center e.1 e.2)).sum
    let neg := E.any fun e => decide (dim = 2) && decide ((triNormal center e.1 e.2).x ≤ 0)
    polygonAreaCentroidNormal coords =
      ⟨labelSign neg area,
       divAssign ((E.map fun e => sdiv (smul (Point.norm (triNormal center e.1 e.2)) (e.1 + e.2 + center)) 3).foldl addAssign (zero dim)) area,
       (E.map fun e => triNormal center e.1 e.2).foldl addAssign (zero dim), neg⟩ := by
  intro dim center E area neg
  have h1 := foldl_edges coords (zero 0) (edgeStep dim center) ⟨0, zero dim, zero dim, false⟩
  rw [edge_fold] at h1
  unfold polygonAreaCentroidNormal
  simp only [if_neg (show ¬ coords.length < 3 by omega), if_neg (show ¬ coords.length = 3 by omega)]
  have h2 : (List.range coords.length).foldl (fun acc i =>
        edgeStep dim center acc (pt coords i) (pt coords ((i + 1) % coords.length))) ⟨0, zero dim, zero dim, false⟩ = _ := h1
  simp only [zero_add, Bool.false_or] at h2
  rw [h2]

end Jali.Geom
