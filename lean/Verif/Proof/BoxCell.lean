import Verif.Props.Polyhedron
/-! Geometry of an axis-parallel box given by eight corners and six faces with four corners each. -/
namespace Jali.Geom
open Spec Point

/-- corner of a box at `(x, y, z)` with edges `a`, `b`, `c` -/
noncomputable def boxCorner (x y z a b c : ℝ) (u : Nat × Nat × Nat) : Point := mk3 (x + u.1 * a) (y + u.2.1 * b) (z + u.2.2 * c)

/-- corners: bottom four, top four -/
def boxC : List (Nat × Nat × Nat) := [(0,0,0), (1,0,0), (1,1,0), (0,1,0), (0,0,1), (1,0,1), (1,1,1), (0,1,1)]

/-- outward faces: front, right, back, left, bottom, top -/
def boxF : List (List (Nat × Nat × Nat)) :=
  [[(0,0,0), (1,0,0), (1,0,1), (0,0,1)], [(1,0,0), (1,1,0), (1,1,1), (1,0,1)], [(0,1,1), (1,1,1), (1,1,0), (0,1,0)],
   [(0,0,1), (0,1,1), (0,1,0), (0,0,0)], [(0,1,0), (1,1,0), (1,0,0), (0,0,0)], [(0,0,1), (1,0,1), (1,1,1), (0,1,1)]]

noncomputable def boxFaces (x y z a b c : ℝ) : List (List Point) := boxF.map (List.map (boxCorner x y z a b c))
noncomputable def boxCorners (x y z a b c : ℝ) : List Point := boxC.map (boxCorner x y z a b c)

theorem box_closed (x y z a b c : ℝ) : Closed (boxFaces x y z a b c) :=
  closed_of_index (boxCorner x y z a b c) boxF (by decide)

theorem facets_four (p q r s : Point) : facets [p, q, r, s] =
    [(p, q, vertexMean 3 [p, q, r, s]), (q, r, vertexMean 3 [p, q, r, s]), (r, s, vertexMean 3 [p, q, r, s]),
     (s, p, vertexMean 3 [p, q, r, s])] := rfl

theorem mean_four (p q r s : Point) : vertexMean 3 [p, q, r, s] =
    ⟨3, (p.x + q.x + r.x + s.x) / 4, (p.y + q.y + r.y + s.y) / 4, (p.z + q.z + r.z + s.z) / 4⟩ := by
  simp only [vertexMean, mean, List.map_cons, List.map_nil, List.sum_cons, List.sum_nil, List.length_cons, List.length_nil]
  ext <;> simp only <;> norm_num <;> ring

/-- distance times area of the six faces from a point -/
noncomputable def boxSix (x y z a b c : ℝ) (t : Point) : List ℝ :=
  [a * c * (t.y - y), b * c * (x + a - t.x), a * c * (y + b - t.y), b * c * (t.x - x), a * b * (t.z - z), a * b * (z + c - t.z)]

theorem box_facets (x y z a b c : ℝ) (t : Point) :
    (boxFaces x y z a b c).map (fun f => (facets f).map fun s => tetVol t s.1 s.2.1 s.2.2) =
      (boxSix x y z a b c t).map fun v => [v / 12, v / 12, v / 12, v / 12] := by
  simp only [boxFaces, boxF, boxSix, List.map_cons, List.map_nil, facets_four, mean_four, List.cons.injEq, and_true, boxCorner, mk3,
    tetVol, det3, vec, Nat.cast_zero, Nat.cast_one]
  refine ⟨⟨?_, ?_, ?_, ?_⟩, ⟨?_, ?_, ?_, ?_⟩, ⟨?_, ?_, ?_, ?_⟩, ⟨?_, ?_, ?_, ?_⟩, ⟨?_, ?_, ?_, ?_⟩, ?_, ?_, ?_, ?_⟩ <;> ring

theorem box_inner (x y z a b c : ℝ) (t : Point) (P : ℝ → Prop) :
    (∀ f ∈ boxFaces x y z a b c, ∀ s ∈ facets f, P (tetVol t s.1 s.2.1 s.2.2)) ↔ ∀ v ∈ boxSix x y z a b c t, P (v / 12) := by
  have h := box_facets x y z a b c t
  constructor
  · intro hf v hv
    have h1 : [v / 12, v / 12, v / 12, v / 12] ∈ (boxSix x y z a b c t).map fun v => [v / 12, v / 12, v / 12, v / 12] :=
      List.mem_map_of_mem (f := fun v => [v / 12, v / 12, v / 12, v / 12]) hv
    rw [← h, List.mem_map] at h1
    obtain ⟨f, hfm, he⟩ := h1
    have h2 : v / 12 ∈ (facets f).map fun s => tetVol t s.1 s.2.1 s.2.2 := by rw [he]; simp
    obtain ⟨s, hs, hv⟩ := List.mem_map.1 h2
    rw [← hv]; exact hf f hfm s hs
  · intro hv f hf s hs
    have h1 := List.mem_map_of_mem (f := fun f => (facets f).map fun s => tetVol t s.1 s.2.1 s.2.2) hf
    rw [h, List.mem_map] at h1
    obtain ⟨v, hvm, he⟩ := h1
    have h2 := List.mem_map_of_mem (f := fun s : Point × Point × Point => tetVol t s.1 s.2.1 s.2.2) hs
    rw [← he] at h2
    have : tetVol t s.1 s.2.1 s.2.2 = v / 12 := by simpa using h2
    rw [this]; exact hv v hvm

theorem box_mean (x y z a b c : ℝ) : vertexMean 3 (boxCorners x y z a b c) = mk3 (x + a / 2) (y + b / 2) (z + c / 2) := by
  simp only [boxCorners, boxC, vertexMean, mean, boxCorner, mk3, List.map_cons, List.map_nil, List.sum_cons, List.sum_nil,
    List.length_cons, List.length_nil, Nat.cast_zero, Nat.cast_one]
  ext <;> simp only <;> norm_num <;> ring

theorem box_star (x y z a b c : ℝ) (ha : 0 < a) (hb : 0 < b) (hc : 0 < c) :
    StarShaped3 (boxCorners x y z a b c) (boxFaces x y z a b c) := by
  unfold StarShaped3
  rw [box_mean, box_inner x y z a b c _ (fun v => 0 < v)]
  have h1 := mul_pos ha hb
  have h2 := mul_pos ha hc
  have h3 := mul_pos hb hc
  intro v hv
  simp only [boxSix, mk3, List.mem_cons, List.not_mem_nil, or_false] at hv
  rcases hv with rfl | rfl | rfl | rfl | rfl | rfl <;> refine div_pos (mul_pos (by assumption) ?_) (by norm_num) <;> linarith

theorem box_d3 (x y z a b c : ℝ) : ∀ f ∈ boxFaces x y z a b c, ∀ p ∈ f, p.d = 3 := by
  intro f hf p hp
  obtain ⟨g, _, rfl⟩ := List.mem_map.1 hf
  obtain ⟨u, _, rfl⟩ := List.mem_map.1 hp
  rfl

theorem box_volumeFrom (x y z a b c : ℝ) (t : Point) : volumeFrom t (boxFaces x y z a b c) = a * b * c := by
  rw [volumeFrom, sum_flatMap]
  have h := congrArg (fun l => (l.map List.sum).sum) (box_facets x y z a b c t)
  simp only [List.map_map, Function.comp_def] at h
  rw [h]
  simp only [boxSix, List.map_cons, List.map_nil, List.sum_cons, List.sum_nil]
  ring

theorem box_moments (x y z a b c : ℝ) :
    momentFrom Point.x (mk3 x y z) (boxFaces x y z a b c) = a * b * c * (x + a / 2) ∧
    momentFrom Point.y (mk3 x y z) (boxFaces x y z a b c) = a * b * c * (y + b / 2) ∧
    momentFrom Point.z (mk3 x y z) (boxFaces x y z a b c) = a * b * c * (z + c / 2) := by
  refine ⟨?_, ?_, ?_⟩ <;>
  · simp only [momentFrom, boxFaces, boxF, List.map_cons, List.map_nil, List.flatMap_cons, List.flatMap_nil, facets_four, mean_four,
      List.cons_append, List.nil_append, boxCorner, mk3, tetVol, det3, vec, Nat.cast_zero, Nat.cast_one, List.sum_cons, List.sum_nil]
    ring

/-- volume and centroid computed for a box -/
theorem box_geometry (x y z a b c : ℝ) (ha : 0 < a) (hb : 0 < b) (hc : 0 < c) :
    polyhedVolCentroid (boxCorners x y z a b c) ((boxFaces x y z a b c).map List.length) (boxFaces x y z a b c).flatten =
      (a * b * c, mk3 (x + a / 2) (y + b / 2) (z + c / 2)) := by
  have h := polyhedron_volume (boxCorners x y z a b c) (boxFaces x y z a b c) (by simp [boxCorners, boxC]) (box_d3 x y z a b c)
    ⟨_, List.mem_map_of_mem (show [(0,0,0), (1,0,0), (1,0,1), (0,0,1)] ∈ boxF from List.mem_cons_self), by simp⟩
  obtain ⟨h1, h2, h3, h4⟩ := h.2 (box_star x y z a b c ha hb hc) (box_closed x y z a b c) (mk3 x y z)
  have hpos : a * b * c ≠ 0 := (mul_pos (mul_pos ha hb) hc).ne'
  obtain ⟨m1, m2, m3⟩ := box_moments x y z a b c
  rw [box_volumeFrom] at h1
  rw [h1] at h2 h3 h4
  rw [m1] at h2; rw [m2] at h3; rw [m3] at h4
  have hd : (polyhedVolCentroid (boxCorners x y z a b c) ((boxFaces x y z a b c).map List.length)
      (boxFaces x y z a b c).flatten).2.d = 3 := by
    rw [polyhed_loop _ _ (by simp [boxCorners, boxC]) (box_d3 x y z a b c)]
  refine Prod.ext h1 ?_
  ext
  · exact hd
  · exact mul_left_cancel₀ hpos h2
  · exact mul_left_cancel₀ hpos h3
  · exact mul_left_cancel₀ hpos h4

/-- the point-in-polyhedron test of a box -/
theorem box_inside (x y z a b c : ℝ) (ha : 0 < a) (hb : 0 < b) (hc : 0 < c) (t : Point) :
    pointInPolyhed t (boxCorners x y z a b c) ((boxFaces x y z a b c).map List.length) (boxFaces x y z a b c).flatten = true ↔
      (x ≤ t.x ∧ t.x ≤ x + a) ∧ (y ≤ t.y ∧ t.y ≤ y + b) ∧ (z ≤ t.z ∧ t.z ≤ z + c) := by
  rw [point_in_polyhed_partial t _ (by simp [boxCorners, boxC]) _ (box_d3 x y z a b c)
    (by intro f hf; obtain ⟨g, hg, rfl⟩ := List.mem_map.1 hf
        simp only [boxF, List.mem_cons, List.not_mem_nil, or_false] at hg
        rcases hg with rfl | rfl | rfl | rfl | rfl | rfl <;> simp)]
  have := box_inner x y z a b c t (fun v => 0 ≤ v)
  unfold InnerSide
  rw [this]
  have h1 := mul_pos ha hb
  have h2 := mul_pos ha hc
  have h3 := mul_pos hb hc
  have key : ∀ {k v : ℝ}, 0 < k → (0 ≤ k * v / 12 ↔ 0 ≤ v) := by
    intro k v hk
    constructor
    · intro h
      by_contra hv
      have : k * v < 0 := mul_neg_of_pos_of_neg hk (not_le.1 hv)
      linarith
    · intro h; have := mul_nonneg hk.le h; linarith
  simp only [boxSix, List.forall_mem_cons, List.not_mem_nil, false_imp_iff, implies_true, and_true, key h1, key h2, key h3]
  constructor
  · rintro ⟨e1, e2, e3, e4, e5, e6⟩; refine ⟨⟨?_, ?_⟩, ⟨?_, ?_⟩, ?_, ?_⟩ <;> linarith
  · rintro ⟨⟨e1, e2⟩, ⟨e3, e4⟩, e5, e6⟩; refine ⟨?_, ?_, ?_, ?_, ?_, ?_⟩ <;> linarith

end Jali.Geom
