import Verif.Proof.Polyhedron
import Mathlib.Tactic.FieldSimp
import Mathlib.Tactic.NormNum
/-! Property theorems C51, C54, C68: volumes and centroids of polyhedra and the point-in-polyhedron test. -/
namespace Jali.Geom
open Spec Point

/-- The triangles the surface is divided into form positive tetrahedra with the average of the vertices `cc`: the
polyhedron is star-shaped around it and its faces are oriented outward. -/
def StarShaped3 (cc : List Point) (fs : List (List Point)) : Prop :=
  ∀ f ∈ fs, ∀ t ∈ facets f, 0 < tetVol (vertexMean 3 cc) t.1 t.2.1 t.2.2

/-- the volume inside a surface, as a sum of signed tetrahedra with apex `o` -/
noncomputable def volumeFrom (o : Point) (fs : List (List Point)) : ℝ :=
  ((fs.flatMap facets).map fun t => tetVol o t.1 t.2.1 t.2.2).sum

/-- the integral of the coordinate `p` over the inside: signed volume times mid point of the tetrahedra with apex `o` -/
noncomputable def momentFrom (p : Point → ℝ) (o : Point) (fs : List (List Point)) : ℝ :=
  ((fs.flatMap facets).map fun t => tetVol o t.1 t.2.1 t.2.2 * ((p o + p t.1 + p t.2.1 + p t.2.2) / 4)).sum

theorem polyhed_loop (cc : List Point) (fs : List (List Point)) (hcc : 4 < cc.length) (h3 : ∀ f ∈ fs, ∀ p ∈ f, p.d = 3) :
    let c := vertexMean 3 cc
    let L := fs.flatMap facets
    polyhedVolCentroid cc (fs.map List.length) fs.flatten =
      (labelSign (L.any fun t => decide (6 * tetVol c t.1 t.2.1 t.2.2 ≤ 0)) (6 * (volumeFrom c fs) / 6),
       ⟨3, 6 * momentFrom Point.x c fs / (6 * volumeFrom c fs), 6 * momentFrom Point.y c fs / (6 * volumeFrom c fs),
         6 * momentFrom Point.z c fs / (6 * volumeFrom c fs)⟩) := by
  intro c L
  have hc : c.d = 3 := rfl
  have hL : ∀ t ∈ L, tet6 c t.1 t.2.1 t.2.2 = 6 * tetVol c t.1 t.2.1 t.2.2 := by
    intro t ht
    obtain ⟨f, hf, ht⟩ := List.mem_flatMap.1 ht
    obtain ⟨h1, h2, h4⟩ := facets_d (h3 f hf) ht
    exact tet6_eq h1 h2 h4
  have hloop := facesLoop_eq c hc fs [] ⟨0, zero 3, false⟩
  rw [List.nil_append, List.length_nil, facet_fold] at hloop
  unfold polyhedVolCentroid
  rw [if_neg (by omega), if_neg (by omega)]
  dsimp only
  rw [meanPoint3]
  show (labelSign (facesLoop c _ _ _ _).neg ((facesLoop c _ _ _ _).vol / 6), divAssign (facesLoop c _ _ _ _).mom (facesLoop c _ _ _ _).vol) = _
  rw [hloop]
  dsimp only
  have hv : ((fs.flatMap facets).map fun t => tet6 c t.1 t.2.1 t.2.2).sum = 6 * volumeFrom c fs := by
    rw [sum_map_congr _ _ _ hL, sum_map_mulc]; rfl
  have hany : (L.any fun t => decide (tet6 c t.1 t.2.1 t.2.2 ≤ 0)) = L.any fun t => decide (6 * tetVol c t.1 t.2.1 t.2.2 ≤ 0) := by
    rw [Bool.eq_iff_iff, List.any_eq_true, List.any_eq_true]
    constructor <;> rintro ⟨t, ht, h⟩ <;> refine ⟨t, ht, ?_⟩
    · rw [← hL t ht]; exact h
    · rw [hL t ht]; exact h
  have hm : (L.map fun t => smul (tet6 c t.1 t.2.1 t.2.2) (sdiv (c + t.1 + t.2.1 + t.2.2) 4)) =
      L.map fun t => (⟨3, 6 * (tetVol c t.1 t.2.1 t.2.2 * ((c.x + t.1.x + t.2.1.x + t.2.2.x) / 4)),
        6 * (tetVol c t.1 t.2.1 t.2.2 * ((c.y + t.1.y + t.2.1.y + t.2.2.y) / 4)),
        6 * (tetVol c t.1 t.2.1 t.2.2 * ((c.z + t.1.z + t.2.1.z + t.2.2.z) / 4))⟩ : Point) := by
    apply List.map_congr_left
    intro t ht
    rw [hL t ht, add3 _ hc, add3 _ rfl, add3 _ rfl, sdiv, smul3, smul3]
    ext <;> simp only <;> ring
  rw [hv, zero_add, Bool.false_or]
  show (labelSign (L.any _) _, divAssign (List.foldl addAssign (zero 3) (L.map _)) _) = _
  rw [hany, hm]
  congr 1
  ext
  · simp only [divAssign]; rw [foldl_addAssign_d]; rfl
  · simp only [divAssign]
    rw [foldl_addAssign_d, foldl_addAssign_x _ _ (by simp [zero]), List.map_map]
    simp only [Function.comp_def, sum_map_mulc]
    simp [zero, momentFrom, L]
  · simp only [divAssign]
    rw [foldl_addAssign_d, foldl_addAssign_y _ _ (by simp [zero]), List.map_map]
    simp only [Function.comp_def, sum_map_mulc]
    simp [zero, momentFrom, L]
  · simp only [divAssign]
    rw [foldl_addAssign_d, foldl_addAssign_z _ _ (by simp [zero]), List.map_map]
    simp only [Function.comp_def, sum_map_mulc]
    simp [zero, momentFrom, L]

/-- **C54, volume and centroid of polyhedra with more than four vertices.** The volume reported is positive exactly if the
polyhedron is star-shaped around the average of its vertices with outward faces. If in addition the surface is closed, then
the volume and the first moments are those enclosed by the surface: whatever point `o` one takes as the apex of the
decomposition into tetrahedra, the same values result. -/
theorem polyhedron_volume (cc : List Point) (fs : List (List Point)) (hcc : 4 < cc.length)
    (h3 : ∀ f ∈ fs, ∀ p ∈ f, p.d = 3) (hne : ∃ f ∈ fs, f ≠ []) :
    let r := polyhedVolCentroid cc (fs.map List.length) fs.flatten
    (0 < r.1 ↔ StarShaped3 cc fs) ∧
    (StarShaped3 cc fs → Closed fs → ∀ o, r.1 = volumeFrom o fs ∧ r.1 * r.2.x = momentFrom Point.x o fs ∧
      r.1 * r.2.y = momentFrom Point.y o fs ∧ r.1 * r.2.z = momentFrom Point.z o fs) := by
  intro r
  have hr : r = _ := polyhed_loop cc fs hcc h3
  rw [hr]
  set c := vertexMean 3 cc
  have hany : ((fs.flatMap facets).any fun t => decide (6 * tetVol c t.1 t.2.1 t.2.2 ≤ 0)) = false ↔ StarShaped3 cc fs := by
    rw [List.any_eq_false]
    simp only [List.mem_flatMap, decide_eq_true_eq, not_le, StarShaped3]
    constructor
    · intro h f hf t ht; have := h t ⟨f, hf, ht⟩; linarith
    · rintro h t ⟨f, hf, ht⟩; have := h f hf t ht; linarith
  have hpos : StarShaped3 cc fs → 0 < volumeFrom c fs := by
    intro hs
    have hnn : ∀ t ∈ fs.flatMap facets, 0 < tetVol c t.1 t.2.1 t.2.2 := by
      intro t ht
      obtain ⟨f, hf, ht⟩ := List.mem_flatMap.1 ht
      exact hs f hf t ht
    obtain ⟨f, hf, hf0⟩ := hne
    have hL : fs.flatMap facets ≠ [] := by
      intro h0
      have h1 : facets f = [] := by
        by_contra hne'
        obtain ⟨t, ht⟩ := List.exists_mem_of_ne_nil _ hne'
        have : t ∈ fs.flatMap facets := List.mem_flatMap.2 ⟨f, hf, ht⟩
        rw [h0] at this; cases this
      rcases Nat.decEq f.length 3 with hl | hl
      · rw [facets_other f hl, List.map_eq_nil_iff] at h1
        have := edges_length f
        rw [h1, List.length_nil] at this
        exact hf0 (List.length_eq_zero_iff.1 this.symm)
      · obtain ⟨a, b, d, rfl⟩ := List.length_eq_three.1 hl
        cases h1
    rw [volumeFrom]
    generalize fs.flatMap facets = L at hnn hL
    induction L with
    | nil => exact absurd rfl hL
    | cons t L ih =>
      rw [List.map_cons, List.sum_cons]
      have h1 := hnn t (by simp)
      rcases L with _ | ⟨b, L⟩
      · simpa using h1
      · have := ih (fun x hx => hnn x (by simp [hx])) (by simp); linarith
  constructor
  · constructor
    · intro hp
      by_contra hs
      have ht := mt hany.1 hs
      rw [Bool.not_eq_false] at ht
      simp only [ht, labelSign, true_and] at hp
      split at hp <;> linarith
    · intro hs
      simp only [hany.2 hs, labelSign, Bool.false_eq_true, false_and, if_false]
      have := hpos hs; linarith
  · intro hs hcl o
    have hp := hpos hs
    simp only [hany.2 hs, labelSign, Bool.false_eq_true, false_and, if_false]
    have e1 : volumeFrom c fs = volumeFrom o fs := closed_volume fs hcl c o
    have e2 : momentFrom Point.x c fs = momentFrom Point.x o fs := closed_moment _ (.inl rfl) fs hcl c o
    have e3 : momentFrom Point.y c fs = momentFrom Point.y o fs := closed_moment _ (.inr (.inl rfl)) fs hcl c o
    have e4 : momentFrom Point.z c fs = momentFrom Point.z o fs := closed_moment _ (.inr (.inr rfl)) fs hcl c o
    rw [e1] at hp ⊢
    rw [e2, e3, e4]
    have hp' := hp.ne'
    refine ⟨by ring, ?_, ?_, ?_⟩ <;> field_simp

/-- **C68, tetrahedra.** With four vertices the volume and centroid are those of the tetrahedron spanned by the vertices in
the given order; the faces are not used. -/
theorem tetrahedron_volume (a b c d : Point) (ha : a.d = 3) (hb : b.d = 3) (hc : c.d = 3) (hd : d.d = 3)
    (nfnodes : List Nat) (fcoords : List Point) :
    polyhedVolCentroid [a, b, c, d] nfnodes fcoords = (tetVol a b c d,
      ⟨3, (a.x + b.x + c.x + d.x) / 4, (a.y + b.y + c.y + d.y) / 4, (a.z + b.z + c.z + d.z) / 4⟩) := by
  simp only [polyhedVolCentroid, List.length_cons, List.length_nil, pt, List.getD_cons_zero, List.getD_cons_succ,
    Nat.reduceAdd, Nat.lt_irrefl, if_false, if_true]
  rw [tet6_eq hb hc hd, add3 _ ha, add3 _ rfl, add3 _ rfl, sdiv, smul3]
  refine Prod.ext (by simp only; ring) ?_
  ext <;> simp only <;> ring

/-- **C68.** With more than four vertices the order in which the vertices are given does not matter. -/
theorem vertex_order_irrelevant_partial (cc cc' : List Point) (hp : cc.Perm cc') (hcc : 4 < cc.length)
    (fs : List (List Point)) (h3 : ∀ f ∈ fs, ∀ p ∈ f, p.d = 3) :
    polyhedVolCentroid cc (fs.map List.length) fs.flatten = polyhedVolCentroid cc' (fs.map List.length) fs.flatten := by
  have hv : vertexMean 3 cc = vertexMean 3 cc' := by
    simp only [vertexMean, mean, List.length_map, (hp.map Point.x).sum_eq, (hp.map Point.y).sum_eq, (hp.map Point.z).sum_eq,
      hp.length_eq]
  have h1 := polyhed_loop cc fs hcc h3
  have h2 := polyhed_loop cc' fs (by rw [← hp.length_eq]; exact hcc) h3
  rw [hv] at h1
  exact h1.trans h2.symm

/-- **C68 is false of the code for tetrahedra**: the vertices are documented to be "in no particular order", but exchanging
two of the four vertices negates the volume of every tetrahedron. -/
theorem tetrahedron_order_matters (a b c d : Point) (ha : a.d = 3) (hb : b.d = 3) (hc : c.d = 3) (hd : d.d = 3)
    (nfnodes : List Nat) (fcoords : List Point) :
    (polyhedVolCentroid [b, a, c, d] nfnodes fcoords).1 = -(polyhedVolCentroid [a, b, c, d] nfnodes fcoords).1 := by
  rw [tetrahedron_volume a b c d ha hb hc hd, tetrahedron_volume b a c d hb ha hc hd]
  simp only [tetVol, det3, vec]
  ring

example : (polyhedVolCentroid [mk3 0 0 0, mk3 1 0 0, mk3 0 1 0, mk3 0 0 1] [] []).1 = 1 / 6 ∧
    (polyhedVolCentroid [mk3 1 0 0, mk3 0 0 0, mk3 0 1 0, mk3 0 0 1] [] []).1 = -(1 / 6) := by
  rw [tetrahedron_order_matters _ _ _ _ rfl rfl rfl rfl, tetrahedron_volume _ _ _ _ rfl rfl rfl rfl]
  simp [tetVol, det3, vec, mk3]
  norm_num

/-! ### an example: a pyramid over a square -/

/-- apex, and base of the pyramid -/
noncomputable def pyramid : List (List Point) :=
  [[mk3 0 0 0, mk3 0 1 0, mk3 1 1 0, mk3 1 0 0], [mk3 0 0 0, mk3 1 0 0, mk3 0 0 3], [mk3 1 0 0, mk3 1 1 0, mk3 0 0 3],
   [mk3 1 1 0, mk3 0 1 0, mk3 0 0 3], [mk3 0 1 0, mk3 0 0 0, mk3 0 0 3]]
noncomputable def pyramidCorners : List Point := [mk3 0 0 0, mk3 1 0 0, mk3 1 1 0, mk3 0 1 0, mk3 0 0 3]

theorem pyramid_starShaped : StarShaped3 pyramidCorners pyramid := by
  intro f hf t ht
  simp only [pyramid, List.mem_cons, List.not_mem_nil, or_false] at hf
  rcases hf with rfl | rfl | rfl | rfl | rfl
  all_goals
    simp only [facets, polyEdges, List.rotate_cons_succ, List.rotate_zero, List.zip_cons_cons, List.cons_append,
      List.nil_append, List.zip_nil_right, List.map_cons, List.map_nil, List.mem_cons, List.not_mem_nil, or_false] at ht
    first
    | (subst ht
       simp only [tetVol, det3, vec, vertexMean, mean, pyramidCorners, mk3, List.map_cons, List.map_nil, List.sum_cons, List.sum_nil,
         List.length_cons, List.length_nil]
       norm_num)
    | (rcases ht with rfl | rfl | rfl | rfl <;>
       simp only [tetVol, det3, vec, vertexMean, mean, pyramidCorners, mk3, List.map_cons, List.map_nil, List.sum_cons, List.sum_nil,
         List.length_cons, List.length_nil] <;>
       norm_num)

/-- the volume of the pyramid is 1 -/
example : (polyhedVolCentroid pyramidCorners (pyramid.map List.length) pyramid.flatten).1 = 1 := by
  have h := polyhedron_volume pyramidCorners pyramid (by simp [pyramidCorners]) (by simp [pyramid, mk3])
    ⟨_, List.mem_cons_self, by simp⟩
  have hcl : Closed pyramid := closed_of_index (fun i : Nat => pt pyramidCorners i)
    [[0, 3, 2, 1], [0, 1, 4], [1, 2, 4], [2, 3, 4], [3, 0, 4]] (by decide)
  rw [((h.2 pyramid_starShaped hcl) (mk3 0 0 0)).1]
  simp only [volumeFrom, pyramid, List.flatMap_cons, List.flatMap_nil, facets, polyEdges, List.rotate_cons_succ, List.rotate_zero,
    List.zip_cons_cons, List.cons_append, List.nil_append, List.zip_nil_right, List.map_cons, List.map_nil, List.append_nil,
    tetVol, det3, vec, vertexMean, mean, mk3, List.sum_cons, List.sum_nil, List.length_cons, List.length_nil]
  norm_num

/-! ### C51 -/

/-- the point is on the inner side of the triangle, or in its plane -/
def InnerSide (t : Point) (f : Point × Point × Point) : Prop := 0 ≤ tetVol t f.1 f.2.1 f.2.2

theorem insideFace_other (t : Point) (pre f post : List Point) (hl : f.length ≠ 3) (h3 : ∀ p ∈ f, p.d = 3) :
    (insideFace t (pre ++ f ++ post) pre.length f.length).2 = pre.length + f.length ∧
    ((insideFace t (pre ++ f ++ post) pre.length f.length).1 = true ↔ ∀ x ∈ facets f, InnerSide t x) := by
  rw [insideFace, if_neg hl]
  dsimp only
  refine ⟨rfl, ?_⟩
  rw [slice_mid, meanPoint3, facets_other f hl, List.all_eq_true]
  simp only [List.mem_range, decide_eq_true_eq, List.mem_map]
  have key : ∀ j < f.length, tet6 t (pt (pre ++ f ++ post) (pre.length + j)) (pt (pre ++ f ++ post) (pre.length + (j + 1) % f.length))
      (vertexMean 3 f) = 6 * tetVol t (pt f j) (pt f ((j + 1) % f.length)) (vertexMean 3 f) := by
    intro j hj
    have hj' : (j + 1) % f.length < f.length := Nat.mod_lt _ (by omega)
    rw [pt_mid _ _ _ _ hj, pt_mid _ _ _ _ hj']
    have hm : ∀ k < f.length, (pt f k).d = 3 := by
      intro k hk
      apply h3
      rw [pt, List.getD_eq_getElem?_getD, List.getElem?_eq_getElem hk]; exact List.getElem_mem hk
    exact tet6_eq (hm j hj) (hm _ hj') rfl
  constructor
  · rintro h x ⟨e, he, rfl⟩
    rw [← range_edges f (zero 0), List.mem_map] at he
    obtain ⟨j, hj, rfl⟩ := he
    have hj := List.mem_range.1 hj
    have := h j hj
    rw [key j hj] at this
    show 0 ≤ tetVol t (pt f j) (pt f ((j + 1) % f.length)) (vertexMean 3 f)
    linarith
  · intro h j hj
    rw [key j hj]
    have : 0 ≤ tetVol t (pt f j) (pt f ((j + 1) % f.length)) (vertexMean 3 f) := by
      apply h (pt f j, pt f ((j + 1) % f.length), vertexMean 3 f)
      refine ⟨(pt f j, pt f ((j + 1) % f.length)), ?_, rfl⟩
      rw [← range_edges f (zero 0)]
      exact List.mem_map.2 ⟨j, List.mem_range.2 hj, rfl⟩
    linarith

/-- **C51, the part that holds.** If no face is a triangle, the answer is true exactly if the point is on the inner side of
(or in the plane of) every triangle the surface is divided into. -/
theorem point_in_polyhed_partial (t : Point) (cc : List Point) (hcc : 4 ≤ cc.length) (fs : List (List Point))
    (h3 : ∀ f ∈ fs, ∀ p ∈ f, p.d = 3) (hnt : ∀ f ∈ fs, f.length ≠ 3) :
    pointInPolyhed t cc (fs.map List.length) fs.flatten = true ↔ ∀ f ∈ fs, ∀ x ∈ facets f, InnerSide t x := by
  rw [pointInPolyhed, if_neg (by omega)]
  suffices h : ∀ (fs : List (List Point)) (pre : List Point), (∀ f ∈ fs, ∀ p ∈ f, p.d = 3) → (∀ f ∈ fs, f.length ≠ 3) →
      (insideLoop t (pre ++ fs.flatten) (fs.map List.length) pre.length = true ↔ ∀ f ∈ fs, ∀ x ∈ facets f, InnerSide t x) from
    h fs [] h3 hnt
  intro fs
  induction fs with
  | nil => intro pre _ _; simp [insideLoop]
  | cons f fs ih =>
    intro pre h3 hnt
    have hf := insideFace_other t pre f fs.flatten (hnt f (by simp)) (h3 f (by simp))
    have hi := ih (pre ++ f) (fun g hg => h3 g (by simp [hg])) (fun g hg => hnt g (by simp [hg]))
    rw [List.length_append] at hi
    rw [List.map_cons, insideLoop, List.flatten_cons, ← List.append_assoc, hf.1, Bool.and_eq_true, hf.2, hi]
    simp

/-- **C51 is false of the code.** On a polyhedron all of whose faces are triangles, only the first face is ever tested: the
answer is true for every point on the inner side of that face. -/
theorem point_in_polyhed_triangles (t : Point) (cc : List Point) (hcc : 4 ≤ cc.length) (a b c : Point) (fs : List (List Point))
    (ha : a.d = 3) (hb : b.d = 3) (hc : c.d = 3) (htri : ∀ f ∈ fs, f.length = 3) :
    pointInPolyhed t cc (([a, b, c] :: fs).map List.length) ([a, b, c] :: fs).flatten = true ↔ InnerSide t (a, b, c) := by
  rw [pointInPolyhed, if_neg (by omega)]
  have hface : ∀ l : List Point, insideFace t ([a, b, c] ++ l) 0 3 = (decide (0 ≤ 6 * tetVol t a b c), 0) := by
    intro l
    rw [insideFace, if_pos rfl]
    simp only [pt, List.cons_append, List.nil_append, List.getD_cons_zero, List.getD_cons_succ, Nat.zero_add]
    rw [tet6_eq ha hb hc]
  have hloop : ∀ (l : List Point) (ns : List Nat), (∀ n ∈ ns, n = 3) →
      (insideLoop t ([a, b, c] ++ l) (3 :: ns) 0 = true ↔ 0 ≤ 6 * tetVol t a b c) := by
    intro l ns
    induction ns with
    | nil => intro _; simp only [insideLoop, hface, Bool.and_true, decide_eq_true_eq]
    | cons n ns ih =>
      intro h
      have hn := h n (by simp)
      subst hn
      rw [insideLoop, hface, Bool.and_eq_true, decide_eq_true_eq]
      rw [ih fun n hn => h n (by simp [hn])]
      tauto
  rw [List.map_cons, List.flatten_cons]
  refine (hloop fs.flatten (fs.map List.length) ?_).trans ?_
  · intro n hn
    obtain ⟨f, hf, rfl⟩ := List.mem_map.1 hn
    exact htri f hf
  · rw [InnerSide]; constructor <;> intro h <;> linarith

/-- the faces of the unit tetrahedron, outward -/
noncomputable def unitTet : List (List Point) :=
  [[mk3 0 0 0, mk3 0 1 0, mk3 1 0 0], [mk3 0 0 0, mk3 1 0 0, mk3 0 0 1], [mk3 0 0 0, mk3 0 0 1, mk3 0 1 0],
   [mk3 1 0 0, mk3 0 1 0, mk3 0 0 1]]

/-- **C51, witness.** A point far outside of the unit tetrahedron is reported to be inside, although it is on the outer side
of the last face. -/
theorem point_in_polyhed_wrong :
    pointInPolyhed (mk3 100 100 100) [mk3 0 0 0, mk3 1 0 0, mk3 0 1 0, mk3 0 0 1] (unitTet.map List.length) unitTet.flatten = true ∧
    ∃ f ∈ unitTet, ∃ x ∈ facets f, ¬ InnerSide (mk3 100 100 100) x := by
  constructor
  · rw [unitTet, point_in_polyhed_triangles _ _ (by simp) _ _ _ _ rfl rfl rfl (by simp)]
    simp only [InnerSide, tetVol, det3, vec, mk3]
    norm_num
  · refine ⟨[mk3 1 0 0, mk3 0 1 0, mk3 0 0 1], by simp [unitTet], _, List.mem_singleton_self _, ?_⟩
    simp only [InnerSide, tetVol, det3, vec, mk3]
    norm_num

/-- two opposite faces of a slab, so that the hypotheses of `point_in_polyhed_partial` are met: a point between them -/
noncomputable def slab : List (List Point) :=
  [[mk3 0 0 0, mk3 0 1 0, mk3 1 1 0, mk3 1 0 0], [mk3 0 0 1, mk3 1 0 1, mk3 1 1 1, mk3 0 1 1]]

example : pointInPolyhed (mk3 (1/2) (1/3) (1/4)) [mk3 0 0 0, mk3 0 1 0, mk3 1 1 0, mk3 1 0 0, mk3 0 0 1] (slab.map List.length) slab.flatten = true := by
  rw [point_in_polyhed_partial _ _ (by simp) _ (by simp [slab, mk3]) (by simp [slab])]
  intro f hf x hx
  simp only [slab, List.mem_cons, List.not_mem_nil, or_false] at hf
  rcases hf with rfl | rfl
  all_goals
    simp only [facets, polyEdges, List.rotate_cons_succ, List.rotate_zero, List.zip_cons_cons, List.cons_append,
      List.nil_append, List.zip_nil_right, List.map_cons, List.map_nil, List.mem_cons, List.not_mem_nil, or_false] at hx
    rcases hx with rfl | rfl | rfl | rfl <;>
      simp only [InnerSide, tetVol, det3, vec, vertexMean, mean, mk3, List.map_cons, List.map_nil, List.sum_cons, List.sum_nil,
        List.length_cons, List.length_nil] <;> norm_num

end Jali.Geom
