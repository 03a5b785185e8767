import Verif.Proof.Geometry
/-! Lemmas about the polyhedron loops. -/
namespace Jali.Geom
open Spec Point

/-- the code's treatment of one facet, seen from `center` -/
noncomputable def addFacet (center : Point) (acc : VolAcc) (t : Point × Point × Point) : VolAcc :=
  addTet acc center t.1 t.2.1 t.2.2 (sdiv (center + t.1 + t.2.1 + t.2.2) 4)

theorem pt_mid (pre f post : List Point) (j : Nat) (h : j < f.length) : pt (pre ++ f ++ post) (pre.length + j) = pt f j := by
  simp only [pt, List.getD_eq_getElem?_getD]
  rw [List.append_assoc, List.getElem?_append_right (by omega), Nat.add_sub_cancel_left, List.getElem?_append_left h]

theorem slice_mid (pre f post : List Point) : faceSlice (pre ++ f ++ post) pre.length f.length = f := by
  simp [faceSlice, List.append_assoc]

theorem foldl_congr_mem {α β : Type} {f g : β → α → β} (l : List α) (h : ∀ b, ∀ a ∈ l, f b a = g b a) :
    ∀ b, l.foldl f b = l.foldl g b := by
  induction l with
  | nil => intro b; rfl
  | cons a l ih => intro b; rw [List.foldl_cons, List.foldl_cons, h b a (by simp), ih fun b' a' ha' => h b' a' (by simp [ha'])]

theorem facets_three (a b c : Point) : facets [a, b, c] = [(a, b, c)] := rfl
theorem facets_other (f : List Point) (h : f.length ≠ 3) :
    facets f = (polyEdges f).map fun e => (e.1, e.2, vertexMean 3 f) := by
  match f, h with
  | [], _ => rfl
  | [_], _ => rfl
  | [_, _], _ => rfl
  | [_, _, _], h => simp at h
  | _ :: _ :: _ :: _ :: _, _ => rfl

theorem facets_d {f : List Point} (h3 : ∀ p ∈ f, p.d = 3) {t} (ht : t ∈ facets f) : t.1.d = 3 ∧ t.2.1.d = 3 ∧ t.2.2.d = 3 := by
  rcases Nat.decEq f.length 3 with hl | hl
  · rw [facets_other f hl, List.mem_map] at ht
    obtain ⟨e, he, rfl⟩ := ht
    exact ⟨h3 _ (mem_edges_l he).1, h3 _ (mem_edges_l he).2, rfl⟩
  · obtain ⟨a, b, c, rfl⟩ := List.length_eq_three.1 hl
    rw [facets_three, List.mem_singleton] at ht
    subst ht
    exact ⟨h3 _ (by simp), h3 _ (by simp), h3 _ (by simp)⟩

theorem faceStep_eq (center : Point) (hc : center.d = 3) (pre f post : List Point) (acc : VolAcc) :
    faceStep center (pre ++ f ++ post) pre.length f.length acc = (facets f).foldl (addFacet center) acc := by
  rcases Nat.decEq f.length 3 with hl | hl
  · rw [faceStep, if_neg hl]
    dsimp only
    rw [slice_mid, meanPoint3, facets_other f hl, List.foldl_map,
      ← foldl_edges f (zero 0) (fun acc a b => addFacet center acc (a, b, vertexMean 3 f))]
    apply foldl_congr_mem
    intro acc j hj
    have hj := List.mem_range.1 hj
    have hj' : (j + 1) % f.length < f.length := Nat.mod_lt _ (by omega)
    rw [pt_mid _ _ _ _ hj, pt_mid _ _ _ _ hj']
    simp only [addFacet, pt]
    congr 2
    rw [add3 _ hc, add3 _ rfl, add3 _ rfl, add3 _ hc, add3 _ rfl, add3 _ rfl]
    ext <;> simp only <;> ring
  · obtain ⟨a, b, c, rfl⟩ := List.length_eq_three.1 hl
    have e0 := pt_mid pre [a, b, c] post 0 (by simp)
    have e1 := pt_mid pre [a, b, c] post 1 (by simp)
    have e2 := pt_mid pre [a, b, c] post 2 (by simp)
    rw [faceStep, if_pos hl, e1, e2, ← Nat.add_zero pre.length, e0]
    rfl

theorem facesLoop_eq (center : Point) (hc : center.d = 3) (fs : List (List Point)) : ∀ (pre : List Point) (acc : VolAcc),
    facesLoop center (pre ++ fs.flatten) (fs.map List.length) pre.length acc =
      (fs.flatMap facets).foldl (addFacet center) acc := by
  induction fs with
  | nil => intro pre acc; rfl
  | cons f fs ih =>
    intro pre acc
    rw [List.map_cons, facesLoop, List.flatten_cons, ← List.append_assoc, faceStep_eq center hc]
    have := ih (pre ++ f) ((facets f).foldl (addFacet center) acc)
    rw [List.length_append] at this
    rw [this, List.flatMap_cons, List.foldl_append]

theorem facet_fold (center : Point) (L : List (Point × Point × Point)) : ∀ acc : VolAcc,
    L.foldl (addFacet center) acc =
      ⟨acc.vol + (L.map fun t => tet6 center t.1 t.2.1 t.2.2).sum,
       (L.map fun t => smul (tet6 center t.1 t.2.1 t.2.2) (sdiv (center + t.1 + t.2.1 + t.2.2) 4)).foldl addAssign acc.mom,
       acc.neg || L.any fun t => decide (tet6 center t.1 t.2.1 t.2.2 ≤ 0)⟩ := by
  induction L with
  | nil => intro acc; simp
  | cons t L ih =>
    intro acc
    rw [List.foldl_cons, ih]
    have he : addFacet center acc t = ⟨acc.vol + tet6 center t.1 t.2.1 t.2.2,
      addAssign acc.mom (smul (tet6 center t.1 t.2.1 t.2.2) (sdiv (center + t.1 + t.2.1 + t.2.2) 4)),
      acc.neg || decide (tet6 center t.1 t.2.1 t.2.2 ≤ 0)⟩ := rfl
    rw [he]
    simp only [List.map_cons, List.sum_cons, List.foldl_cons, List.any_cons, Bool.or_assoc, add_assoc]

theorem tet6_eq {o a b c : Point} (ha : a.d = 3) (hb : b.d = 3) (hc : c.d = 3) : tet6 o a b c = 6 * tetVol o a b c := by
  rw [tet6, sub3 _ ha, sub3 _ hb, sub3 _ hc, cross3, dot3, tetVol, det3, vec, vec, vec]
  ring

/-! ### closed surfaces -/

/-- sums over the borders of the facets of a face reduce to the edges of the face -/
theorem facets_boundary (f : List Point) (T : Point → Point → ℝ) (hT : ∀ a b, T a b = - T b a) :
    ((facets f).map fun t => T t.1 t.2.1 + T t.2.1 t.2.2 + T t.2.2 t.1).sum = ((polyEdges f).map fun e => T e.1 e.2).sum := by
  rcases Nat.decEq f.length 3 with hl | hl
  · rw [facets_other f hl, List.map_map, ← sum_shift' f (fun e => T e.1 e.2) (fun v => T v (vertexMean 3 f))]
    apply sum_map_congr
    intro e _
    simp only [Function.comp_def]
    rw [hT (vertexMean 3 f) e.1]; ring
  · obtain ⟨a, b, c, rfl⟩ := List.length_eq_three.1 hl
    simp only [facets, polyEdges, List.rotate_cons_succ, List.rotate_zero, List.zip_cons_cons, List.cons_append,
      List.nil_append, List.zip_nil_right, List.map_cons, List.map_nil, List.sum_cons, List.sum_nil]
    ring
where
  sum_shift' {α : Type} (l : List α) (f : α × α → ℝ) (g : α → ℝ) :
      ((polyEdges l).map fun e => f e + (g e.2 - g e.1)).sum = ((polyEdges l).map f).sum := by
    rw [sum_map_add, edges_telescope, add_zero]

theorem sum_flatMap {α β : Type} (l : List α) (f : α → List β) (g : β → ℝ) :
    ((l.flatMap f).map g).sum = (l.map fun a => ((f a).map g).sum).sum := by
  induction l with
  | nil => simp
  | cons a l ih => simp only [List.flatMap_cons, List.map_append, List.sum_append, List.map_cons, List.sum_cons, ih]

theorem closed_boundary (fs : List (List Point)) (h : Closed fs) (T : Point → Point → ℝ) (hT : ∀ a b, T a b = - T b a) :
    ((fs.flatMap facets).map fun t => T t.1 t.2.1 + T t.2.1 t.2.2 + T t.2.2 t.1).sum = 0 := by
  rw [sum_flatMap, List.map_congr_left (fun f _ => facets_boundary f T hT), ← sum_flatMap]
  have h1 := (h.map fun e => T e.1 e.2).sum_eq
  rw [List.map_map] at h1
  have h2 : ((fs.flatMap polyEdges).map ((fun e : Point × Point => T e.1 e.2) ∘ Prod.swap)).sum =
      -((fs.flatMap polyEdges).map fun e => T e.1 e.2).sum := by
    rw [← sum_map_neg]
    apply sum_map_congr
    intro e _
    exact hT _ _
  linarith

theorem det3_swap (o a b : Point) : det3 o a b = - det3 o b a := by simp only [det3]; ring

/-- the signed volume inside a closed surface does not depend on the point it is seen from -/
theorem closed_volume (fs : List (List Point)) (h : Closed fs) (o o' : Point) :
    ((fs.flatMap facets).map fun t => tetVol o t.1 t.2.1 t.2.2).sum =
      ((fs.flatMap facets).map fun t => tetVol o' t.1 t.2.1 t.2.2).sum := by
  have key := closed_boundary fs h (fun a b => (det3 o' a b - det3 o a b) / 6)
    (fun a b => by rw [det3_swap o', det3_swap o]; ring)
  rw [← sub_eq_zero, ← sum_map_sub, ← key]
  apply sum_map_congr
  intro t _
  simp only [tetVol, det3, vec]
  ring

/-- signed first moment of a tetrahedron in one coordinate -/
noncomputable def mom (p : Point → ℝ) (o a b c : Point) : ℝ := tetVol o a b c * ((p o + p a + p b + p c) / 4)

theorem closed_moment (p : Point → ℝ) (hp : p = Point.x ∨ p = Point.y ∨ p = Point.z) (fs : List (List Point)) (h : Closed fs)
    (o o' : Point) :
    ((fs.flatMap facets).map fun t => mom p o t.1 t.2.1 t.2.2).sum =
      ((fs.flatMap facets).map fun t => mom p o' t.1 t.2.1 t.2.2).sum := by
  have key := closed_boundary fs h (fun a b => mom p o o' a b) (fun a b => by
    simp only [mom, tetVol, det3, vec]; ring)
  rw [← sub_eq_zero, ← sum_map_sub, ← key]
  apply sum_map_congr
  intro t _
  rcases hp with rfl | rfl | rfl <;>
  · simp only [mom, tetVol, det3, vec]
    ring

/-- closedness only depends on which vertices the faces use -/
theorem closed_of_index {α : Type} (g : α → Point) (F : List (List α))
    (h : ((F.flatMap polyEdges).map Prod.swap).Perm (F.flatMap polyEdges)) : Closed (F.map (List.map g)) := by
  have e : (F.map (List.map g)).flatMap polyEdges = (F.flatMap polyEdges).map fun e => (g e.1, g e.2) := by
    rw [List.flatMap_map, List.map_flatMap]
    congr 1; funext f; exact edges_map g f
  unfold Closed
  rw [e, List.map_map]
  have := h.map fun e : α × α => (g e.1, g e.2)
  rw [List.map_map] at this
  exact this

end Jali.Geom
