import Verif.Proof.Regions
/-! Property theorems C49, C87-C89, C92: box, plane and point regions, and which region definitions are rejected. -/
namespace Jali.Geom
open Point Jali.Reg

/-- **C49.** A point of another dimension is rejected; otherwise the answer is whether every coordinate is within 1e-8 of the
closed interval between the corresponding coordinates of the corners, in whatever order they were given. -/
theorem box_region_inside (name : String) (id : Nat) (p0 p1 : Point) (lc : LifeCycle) (r : AnyRegion)
    (h : mkBox name id p0 p1 lc = .value r) (p : Point) :
    (p.d ≠ p0.d → r.inside p = .throws) ∧
    (p.d = p0.d → ∃ b, r.inside p = .value b ∧ (b = true ↔ ∀ i, i < p.d →
      min (p0.coord i) (p1.coord i) - 1 / 10 ^ 8 ≤ p.coord i ∧ p.coord i ≤ max (p0.coord i) (p1.coord i) + 1 / 10 ^ 8)) := by
  have hd : p0.d = p1.d := by
    by_contra hne
    unfold mkBox at h
    rw [if_pos hne] at h
    cases h
  rw [mkBox_eq name id p0 p1 lc hd] at h
  cases h
  constructor
  · intro hp
    show insideBox p0 p1 p = _
    unfold insideBox
    rw [if_pos hp]
  · intro hp
    refine ⟨_, (show insideBox p0 p1 p = _ by unfold insideBox; rw [if_neg (not_not.2 hp)]), ?_⟩
    rw [foldl_and_range]
    simp only [between_iff]

/-- **C49, order of the corners.** Giving the two corners in the other order changes no answer. -/
theorem box_corner_order (name : String) (id : Nat) (p0 p1 : Point) (lc : LifeCycle) (r r' : AnyRegion)
    (h : mkBox name id p0 p1 lc = .value r) (h' : mkBox name id p1 p0 lc = .value r') (p : Point) : r.inside p = r'.inside p := by
  have hd : p0.d = p1.d := by
    by_contra hne
    unfold mkBox at h
    rw [if_pos hne] at h
    cases h
  obtain ⟨a1, a2⟩ := box_region_inside _ _ _ _ _ _ h p
  obtain ⟨b1, b2⟩ := box_region_inside _ _ _ _ _ _ h' p
  by_cases hp : p.d = p0.d
  · obtain ⟨x, hx, ix⟩ := a2 hp
    obtain ⟨y, hy, iy⟩ := b2 (hp.trans hd)
    rw [hx, hy]
    congr 1
    rw [Bool.eq_iff_iff, ix, iy]
    simp only [min_comm, max_comm]
  · rw [a1 hp, b1 (fun e => hp (e.trans hd.symm))]

/-- the unit square with the corners in mixed order -/
noncomputable def sqBox : AnyRegion := .box ⟨"B", 1, 2, .PERMANENT⟩ (mk2 0 1) (mk2 1 0)

theorem sqBox_made : mkBox "B" 1 (mk2 0 1) (mk2 1 0) .PERMANENT = .value sqBox := by
  rw [mkBox_eq "B" 1 (mk2 0 1) (mk2 1 0) _ rfl]
  have : (List.range (mk2 0 1).d).countP (fun i => decide ((mk2 0 1).coord i = (mk2 1 0).coord i)) = 0 := by
    rw [List.countP_eq_zero]
    intro i hi
    simp only [mk2, List.mem_range] at hi
    rcases (by omega : i = 0 ∨ i = 1) with rfl | rfl <;> simp [Point.coord, mk2]
  rw [this]
  rfl

example : sqBox.inside (mk2 (1 / 2) (1 / 3)) = .value true := by
  obtain ⟨b, hb, hi⟩ := (box_region_inside _ _ _ _ _ _ sqBox_made (mk2 (1 / 2) (1 / 3))).2 rfl
  rw [hb, hi.2]
  intro i hi
  simp only [mk2] at hi
  rcases (by omega : i = 0 ∨ i = 1) with rfl | rfl <;> simp only [Point.coord, mk2] <;> norm_num

example : sqBox.inside (mk2 (1 / 2) 2) = .value false := by
  obtain ⟨b, hb, hi⟩ := (box_region_inside _ _ _ _ _ _ sqBox_made (mk2 (1 / 2) 2)).2 rfl
  rw [hb]
  congr 1
  rw [← Bool.not_eq_true, hi]
  intro h
  have := (h 1 (by simp [mk2])).2
  simp only [Point.coord, mk2] at this
  norm_num at this

example : sqBox.inside (mk3 0 0 0) = .throws := (box_region_inside _ _ _ _ _ _ sqBox_made _).1 (by simp [mk3, mk2])

/-- **C87, what the plane region tests.** A point of another dimension is rejected; otherwise the answer is whether the product
of the distance to the plane and the length of the normal is at most 1e-12. -/
theorem plane_inside (name : String) (id : Nat) (q n : Point) (lc : LifeCycle) (r : AnyRegion)
    (h : mkPlane name id q n lc = .value r) (p : Point) :
    (p.d ≠ q.d → r.inside p = .throws) ∧
    (p.d = q.d → ∃ b, r.inside p = .value b ∧ (b = true ↔
      |((List.range p.d).map fun i => n.coord i * (p.coord i - q.coord i)).sum| ≤ 1 / 10 ^ 12)) := by
  have hr : r = .plane ⟨name, id, q.d - 1, lc⟩ q n := by
    unfold mkPlane at h
    split at h <;> cases h
    rfl
  subst hr
  constructor
  · intro hp
    show insidePlane q n p = _
    unfold insidePlane
    rw [if_pos hp]
  · intro hp
    refine ⟨_, (show insidePlane q n p = _ by unfold insidePlane; rw [if_neg (not_not.2 hp)]), ?_⟩
    rw [decide_eq_true_eq, foldl_sum_sub]

/-- the normal of the plane multiplied by a number -/
noncomputable def scaled (c : ℝ) (n : Point) : Point := ⟨n.d, c * n.x, c * n.y, c * n.z⟩

theorem scaled_coord (c : ℝ) (n : Point) (i : Nat) : (scaled c n).coord i = c * n.coord i := by
  match i with
  | 0 | 1 | _ + 2 => rfl

theorem scaled_sum (c : ℝ) (n p q : Point) (l : List Nat) :
    (l.map fun i => (scaled c n).coord i * (p.coord i - q.coord i)).sum = c * (l.map fun i => n.coord i * (p.coord i - q.coord i)).sum := by
  induction l with
  | nil => simp
  | cons a l ih => rw [List.map_cons, List.map_cons, List.sum_cons, List.sum_cons, ih, scaled_coord]; ring

/-- **C87, partial.** Points exactly in the plane are inside, for every multiple of the normal; reversing the normal changes no
answer; and if a point is inside for a normal then it is inside for every shorter multiple of it. Missing: independence of the
length of the normal (`plane_inside_scale_false`). -/
theorem plane_inside_partial (name : String) (id : Nat) (q n : Point) (lc : LifeCycle) (c : ℝ) (p : Point) (r rc : AnyRegion)
    (h : mkPlane name id q n lc = .value r) (hc : mkPlane name id q (scaled c n) lc = .value rc) (hp : p.d = q.d) :
    (((List.range p.d).map fun i => n.coord i * (p.coord i - q.coord i)).sum = 0 → rc.inside p = .value true) ∧
    (|c| = 1 → rc.inside p = r.inside p) ∧
    (|c| ≤ 1 → r.inside p = .value true → rc.inside p = .value true) := by
  obtain ⟨b, hb, ib⟩ := (plane_inside _ _ _ _ _ _ h p).2 hp
  obtain ⟨b', hb', ib'⟩ := (plane_inside _ _ _ _ _ _ hc p).2 hp
  rw [scaled_sum, abs_mul] at ib'
  generalize ((List.range p.d).map fun i => n.coord i * (p.coord i - q.coord i)).sum = s at *
  refine ⟨?_, ?_, ?_⟩
  · intro h0
    rw [hb', ib'.2 (by rw [h0]; norm_num)]
  · intro h1
    rw [hb, hb']
    congr 1
    rw [Bool.eq_iff_iff, ib, ib', h1, one_mul]
  · intro h1 ht
    rw [hb] at ht
    cases ht
    rw [hb', ib'.2]
    have := ib.1 rfl
    exact (mul_le_of_le_one_left (abs_nonneg _) h1).trans this

/-- **C87 does not hold.** The same plane, given with a longer normal, contains fewer points. -/
theorem plane_inside_scale_false : ∃ (q n p : Point) (c : ℝ) (r rc : AnyRegion), c ≠ 0 ∧
    mkPlane "P" 1 q n .PERMANENT = .value r ∧ mkPlane "P" 1 q (scaled c n) .PERMANENT = .value rc ∧
    r.inside p = .value true ∧ rc.inside p = .value false := by
  refine ⟨mk3 0 0 0, mk3 0 0 1, mk3 0 0 (1 / 10 ^ 12), 2, .plane ⟨"P", 1, 2, .PERMANENT⟩ (mk3 0 0 0) (mk3 0 0 1),
    .plane ⟨"P", 1, 2, .PERMANENT⟩ (mk3 0 0 0) (scaled 2 (mk3 0 0 1)), by norm_num, ?_, ?_, ?_, ?_⟩
  · simp [mkPlane, mk3]
  · simp [mkPlane, mk3, scaled]
  · simp [AnyRegion.inside, insidePlane, mk3, List.range_succ, Point.coord]
  · simp [AnyRegion.inside, insidePlane, mk3, List.range_succ, Point.coord, scaled]

/-- a slanted plane and a point on it -/
example : (AnyRegion.plane ⟨"P", 1, 2, .PERMANENT⟩ (mk3 1 0 0) (mk3 1 2 3)).inside (mk3 0 2 (-1)) = .value true := by
  obtain ⟨b, hb, ib⟩ := (plane_inside "P" 1 (mk3 1 0 0) (mk3 1 2 3) .PERMANENT _ (by simp [mkPlane, mk3]; rfl) (mk3 0 2 (-1))).2 rfl
  have : b = true := by
    rw [ib]
    simp only [mk3, List.range_succ, List.range_zero, Point.coord]
    norm_num
  rw [this] at hb
  exact hb

/-- **C88.** A point region contains exactly the points of its dimension all of whose coordinates differ by less than 1e-12;
points of another dimension are rejected. -/
theorem point_region_inside (name : String) (id : Nat) (q : Point) (lc : LifeCycle) (p : Point) :
    ∃ r, mkPointRegion name id q lc = .value r ∧ r.dimension = 0 ∧
    (p.d ≠ q.d → r.inside p = .throws) ∧
    (p.d = q.d → ∃ b, r.inside p = .value b ∧ (b = true ↔ ∀ i, i < p.d → |p.coord i - q.coord i| < 1 / 10 ^ 12)) := by
  refine ⟨_, rfl, rfl, ?_, ?_⟩
  · intro hp
    show insidePoint q p = _
    unfold insidePoint
    rw [if_pos hp]
  · intro hp
    refine ⟨_, (show insidePoint q p = _ by unfold insidePoint; rw [if_neg (not_not.2 hp)]), ?_⟩
    rw [foldl_and_range]
    simp only [decide_eq_true_eq]

example : ∃ r, mkPointRegion "C" 2 (mk2 1 2) .TEMPORARY = .value r ∧ r.inside (mk2 1 2) = .value true := by
  obtain ⟨r, hr, _, _, h⟩ := point_region_inside "C" 2 (mk2 1 2) .TEMPORARY (mk2 1 2)
  obtain ⟨b, hb, ib⟩ := h rfl
  refine ⟨r, hr, ?_⟩
  rw [hb, ib.2]
  intro i _
  simp

/-- **C89, dimension of a box.** A box reports as its dimension the number of coordinates in which the corners differ, and as
degenerate exactly if this is less than the dimension of space, with the number of equal coordinates. -/
theorem box_dimension (name : String) (id : Nat) (p0 p1 : Point) (lc : LifeCycle) (r : AnyRegion)
    (h : mkBox name id p0 p1 lc = .value r) :
    r.dimension = ((List.range p0.d).countP fun i => decide (p0.coord i ≠ p1.coord i)) ∧
    ((isDegenerate p0 p1).1 = true ↔ r.dimension < p0.d) ∧
    (isDegenerate p0 p1).2 + r.dimension = p0.d := by
  have hd : p0.d = p1.d := by
    by_contra hne
    unfold mkBox at h
    rw [if_pos hne] at h
    cases h
  rw [mkBox_eq name id p0 p1 lc hd] at h
  cases h
  have hc := count_add (fun i => p0.coord i = p1.coord i) (List.range p0.d)
  rw [List.length_range] at hc
  have hdim : (AnyRegion.box ⟨name, id, p0.d - (List.range p0.d).countP (fun i => decide (p0.coord i = p1.coord i)), lc⟩ p0 p1).dimension =
    p0.d - (List.range p0.d).countP (fun i => decide (p0.coord i = p1.coord i)) := rfl
  rw [hdim]
  unfold isDegenerate
  dsimp only
  rw [foldl_count (fun i => p0.coord i = p1.coord i), decide_eq_true_eq]
  simp only [ne_eq] at hc ⊢
  refine ⟨?_, ?_, ?_⟩ <;> omega

/-- **C89, corners, partial.** `corners` gives the low and the high corner if the box was constructed from these, in this order.
Missing: boxes constructed from corners in another order (`box_corners_false`). -/
theorem box_corners_partial (p0 p1 : Point) (hd : p0.d = p1.d) (h : ∀ i, i < p0.d → p0.coord i ≤ p1.coord i) :
    ∀ i, i < p0.d → (corners p0 p1).1.coord i = min (p0.coord i) (p1.coord i) ∧
      (corners p0 p1).2.coord i = max (p0.coord i) (p1.coord i) := by
  intro i hi
  exact ⟨(min_eq_left (h i hi)).symm, (max_eq_right (h i hi)).symm⟩

/-- **C89 does not hold for corners.** "Order not important" (BoxRegion.hh:75) does not extend to `corners`: the low corner it
reports may be above the high one. -/
theorem box_corners_false : ∃ (p0 p1 : Point) (r : AnyRegion), mkBox "B" 1 p0 p1 .PERMANENT = .value r ∧
    ∃ i, i < p0.d ∧ (corners p0 p1).2.coord i < (corners p0 p1).1.coord i :=
  ⟨mk2 0 1, mk2 1 0, sqBox, sqBox_made, 1, by simp [mk2], by simp [corners, Point.coord, mk2]⟩

example : ∃ r, mkBox "B" 1 (mk3 0 5 1) (mk3 1 5 0) .PERMANENT = .value r ∧ r.dimension = 2 := by
  refine ⟨_, mkBox_eq _ _ _ _ _ rfl, ?_⟩
  rw [(box_dimension _ _ _ _ _ _ (mkBox_eq "B" 1 (mk3 0 5 1) (mk3 1 5 0) .PERMANENT rfl)).1]
  simp [mk3, List.range_succ, Point.coord]

/-- **C92.** Ill-defined regions are rejected: corners of different dimensions, a normal of another dimension than the point,
a polygon with fewer points than its dimension or of a dimension other than 2 and 3, an unknown logical operation; and nothing
else is. -/
theorem region_definitions_checked (name : String) (id : Nat) (lc : LifeCycle) :
    (∀ p0 p1, mkBox name id p0 p1 lc = .throws ↔ p0.d ≠ p1.d) ∧
    (∀ p n, mkPlane name id p n lc = .throws ↔ p.d ≠ n.d) ∧
    (∀ np p0 ps, mkPolygon name id np (p0 :: ps) lc = .throws ↔ np < p0.d ∨ (p0.d ≠ 2 ∧ p0.d ≠ 3)) ∧
    (∀ op names, mkLogicalStr name id op names lc = .throws ↔
      op ≠ "Complement" ∧ op ≠ "Union" ∧ op ≠ "Intersect" ∧ op ≠ "Subtract") := by
  refine ⟨?_, ?_, ?_, ?_⟩
  · intro p0 p1
    constructor
    · intro h hd
      rw [mkBox_eq _ _ _ _ _ hd] at h
      cases h
    · intro h
      unfold mkBox
      rw [if_pos h]
  · intro p n
    unfold mkPlane
    split
    · rename_i h; exact ⟨fun _ => h, fun _ => rfl⟩
    · rename_i h; exact ⟨(fun e => by cases e), fun e => absurd e h⟩
  · intro np p0 ps
    unfold mkPolygon
    dsimp only
    split
    · rename_i h; exact ⟨fun _ => .inl h, fun _ => rfl⟩
    · rename_i h
      split
      · rename_i h2
        constructor
        · intro e
          exfalso
          split at e
          · split at e <;> cases e
          · cases e
        · rintro (h' | ⟨h', _⟩)
          · exact absurd h' h
          · exact absurd h2 h'
      · rename_i h2
        split
        · rename_i h3
          constructor
          · intro e
            exfalso
            split at e <;> cases e
          · rintro (h' | ⟨_, h'⟩)
            · exact absurd h' h
            · exact absurd h3 h'
        · rename_i h3
          exact ⟨fun _ => .inr ⟨h2, h3⟩, fun _ => rfl⟩
  · intro op names
    unfold mkLogicalStr
    constructor
    · intro h
      refine ⟨?_, ?_, ?_, ?_⟩ <;> (rintro rfl; simp at h)
    · rintro ⟨h1, h2, h3, h4⟩
      rw [if_neg h1, if_neg h2, if_neg h3, if_neg h4]

/-- the four operations are recognised -/
example : mkLogicalStr "L" 3 "Intersect" ["A", "B"] .PERMANENT = mkLogical "L" 3 .INTERSECT ["A", "B"] .PERMANENT ∧
    mkLogicalStr "L" 3 "Xor" ["A", "B"] .PERMANENT = .throws := ⟨by simp [mkLogicalStr, mkLogical], by simp [mkLogicalStr]⟩

/-- **C92, operations by name.** The name of the operation selects the operation; components are kept in order. -/
theorem logical_operation_names (name : String) (id : Nat) (names : List String) (lc : LifeCycle) (op : BoolOp) (s : String)
    (hs : (op, s) ∈ [(BoolOp.COMPLEMENT, "Complement"), (.UNION, "Union"), (.INTERSECT, "Intersect"), (.SUBTRACT, "Subtract")]) :
    ∃ r, mkLogicalStr name id s names lc = .value r ∧ r.operation = .value op ∧ r.components = names ∧ r.type = .LOGICAL := by
  simp only [List.mem_cons, List.not_mem_nil, or_false, Prod.mk.injEq] at hs
  rcases hs with ⟨rfl, rfl⟩ | ⟨rfl, rfl⟩ | ⟨rfl, rfl⟩ | ⟨rfl, rfl⟩
  · exact ⟨_, by unfold mkLogicalStr; rw [if_pos rfl], rfl, rfl, rfl⟩
  · exact ⟨_, by unfold mkLogicalStr; rw [if_neg (by decide), if_pos rfl], rfl, rfl, rfl⟩
  · exact ⟨_, by unfold mkLogicalStr; rw [if_neg (by decide), if_neg (by decide), if_pos rfl], rfl, rfl, rfl⟩
  · exact ⟨_, by unfold mkLogicalStr; rw [if_neg (by decide), if_neg (by decide), if_neg (by decide), if_pos rfl], rfl, rfl, rfl⟩

/-- **C92, what a region says of itself.** Logical and labeled-set regions can always be made and carry the name, number and life cycle given, the
dimension 3, and what they were made from. -/
theorem logical_and_labeled_as_given (name : String) (id : Nat) (lc : LifeCycle) :
    (∀ op names, ∃ r, mkLogical name id op names lc = .value r ∧ r.name = name ∧ r.id = id ∧ r.lifecycle = lc ∧ r.dimension = 3 ∧
      r.type = .LOGICAL ∧ r.operation = .value op ∧ r.components = names) ∧
    (∀ ent file format label, ∃ r, mkLabeled name id ent file format label lc = .value r ∧ r.name = name ∧ r.id = id ∧ r.lifecycle = lc ∧
      r.dimension = 3 ∧ r.type = .LABELEDSET ∧ r.labelOf = (ent, label)) :=
  ⟨fun _ _ => ⟨_, rfl, rfl, rfl, rfl, rfl, rfl, rfl, rfl⟩, fun _ _ _ _ => ⟨_, rfl, rfl, rfl, rfl, rfl, rfl, rfl⟩⟩

example : ∃ r, mkLabeled "S" 7 "FACE" "mesh.exo" "Exodus II" "10" .TEMPORARY = .value r ∧ r.labelOf = ("FACE", "10") := ⟨_, rfl, rfl⟩

end Jali.Geom
