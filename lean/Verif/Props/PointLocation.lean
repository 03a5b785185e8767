import Verif.Proof.PointLocation
import Verif.Props.PointInPolygon
import Verif.Props.MstkGeometry2
/-!
C147: finding the cell of an MSTK mesh of convex polygons in the plane that contains a point, for every position of the nodes and
every point of the plane.
-/
namespace Jali.Mstk
open Jali.Geom Jali.Geom.Point Jali.Geom.Spec Jali.MeshGeom

variable {s : Source ℝ} {r : MeshCache.Request}

/-- the edges with a cell on one side only, from node to node, as the cell runs along them -/
noncomputable def Source.rim (s : Source ℝ) : List (Point × Point) :=
  s.j.m.boundary2.map fun p => (s.place (s.j.m.start p), s.place (s.j.m.finish p))

theorem pointInCell_plane (h : s.Flat r) (t : Point) {c : Nat} {g : Fin s.j.m.nf} (hc : (s.j.m.cmap s.j.bg).at c = some g) :
    pointInCell s.gmesh t c = pointInPolygon t (s.corners g) := by
  unfold pointInCell
  rw [if_neg (by rw [(gmesh_dim2 h).1]; decide), if_pos (gmesh_dim2 h).1, gmesh_cellCoords2 h hc]

theorem cast_sum (L : List ℤ) : ((L.sum : ℤ) : ℝ) = (L.map fun x : ℤ => (x : ℝ)).sum := by
  induction L with
  | nil => simp
  | cons a L ih => simp [ih]

theorem sum_indicator {α : Type} (L : List α) (p : α → Bool) : (L.map fun a => if p a = true then (1 : ℤ) else 0).sum = (L.countP p : ℕ) := by
  induction L with
  | nil => rfl
  | cons a L ih =>
    rw [List.map_cons, List.sum_cons, ih, List.countP_cons]
    by_cases h : p a = true <;> simp [h] <;> ring

/-- the sum over all cells of how often they go around a point is how often the rim does -/
theorem wind_rim (h : s.Flat r) (t : Point) :
    ((List.finRange s.j.m.nf).map fun g => ((polyEdges (s.corners g)).map (wind t)).sum).sum = (s.rim.map (wind t)).sum := by
  have key := oneSided_sum (fun g => (s.j.m.face g).edges) (fun g => List.Nodup.of_map _ (h.polygons.noedge g))
      (fun q c c' h1 h2 => h.cells _ _ _ _ h1 h2)
      (fun p => ((wind t (s.place (s.j.m.start p), s.place (s.j.m.finish p)) : ℤ) : ℝ)) (by
        intro e d
        rw [← Int.cast_neg, ← wind_swap]
        cases d <;> rfl)
  have e1 : ((((List.finRange s.j.m.nf).map fun g => ((polyEdges (s.corners g)).map (wind t)).sum).sum : ℤ) : ℝ) =
      (((s.rim.map (wind t)).sum : ℤ) : ℝ) := by
    refine Eq.trans ?_ (key.trans ?_)
    · rw [cast_sum, List.map_map]
      refine sum_map_congr _ _ _ fun g _ => ?_
      rw [Function.comp_apply, cast_sum, corners_edges h.polygons, List.map_map, List.map_map]; rfl
    · rw [cast_sum, Source.rim, List.map_map, List.map_map]; rfl
  exact_mod_cast e1

/-- the number of cells that contain a point is how often the rim goes around it -/
theorem count_cells (h : s.Flat r) (hcv : ∀ g, ConvexOutline (s.corners g)) (t : Point) :
    (((List.range s.j.m.nf).countP fun c => pointInCell s.gmesh t c : ℕ) : ℤ) = (s.rim.map (wind t)).sum := by
  rw [← wind_rim h, ← sum_indicator, ((range_perm_ids (s.j.m.cnum s.j.bg)).map _).sum_eq, List.map_map]
  congr 1
  refine List.map_congr_left fun g _ => ?_
  rw [wind_outline t (hcv g), Function.comp_apply, pointInCell_plane h t ((s.j.m.cnum s.j.bg).at_id g)]

/-- **C147, every point is found.** If the faces with a cell on one side only are the edges of a polygon, possibly cut into pieces, every
point the polygon contains by the even-odd rule is in a cell, and a point the polygon does not contain is in no cell or in more than one.
The domain need not be convex. -/
theorem some_cell_contains (h : s.Flat r) (hcv : ∀ g, ConvexOutline (s.corners g)) {B : List Point} (hB : Refines s.rim (polyEdges B))
    (t : Point) : (pointInPolygon t B = true → ∃ c < s.j.m.nf, pointInCell s.gmesh t c = true) ∧
      (pointInPolygon t B = false → ∀ c < s.j.m.nf, pointInCell s.gmesh t c = true →
        ∃ c' < s.j.m.nf, c' ≠ c ∧ pointInCell s.gmesh t c' = true) := by
  have hc := count_cells h hcv t
  rw [wind_refines hB] at hc
  have hp := inPolygon_wind t B
  constructor
  · intro hin
    have := hp.1 hin
    have hpos : 0 < (List.range s.j.m.nf).countP fun c => pointInCell s.gmesh t c := by omega
    obtain ⟨c, hm, hcc⟩ := List.countP_pos_iff.1 hpos
    exact ⟨c, List.mem_range.1 hm, hcc⟩
  · intro hout c hlt hcc
    by_contra hno
    push Not at hno
    have h1 : ((List.range s.j.m.nf).countP fun c => pointInCell s.gmesh t c) = 1 := by
      have hle := countP_le_one (List.range s.j.m.nf) (fun c => pointInCell s.gmesh t c) List.nodup_range (by
        intro a ha b hb pa pb
        have ea : a = c := by
          by_contra hne; exact hno a (List.mem_range.1 ha) hne pa
        have eb : b = c := by
          by_contra hne; exact hno b (List.mem_range.1 hb) hne pb
        rw [ea, eb])
      have hpos : 0 < (List.range s.j.m.nf).countP fun c => pointInCell s.gmesh t c :=
        List.countP_pos_iff.2 ⟨c, List.mem_range.2 hlt, hcc⟩
      omega
    have : pointInPolygon t B = true := hp.2 (by rw [← hc, h1]; rfl)
    rw [hout] at this; cases this

/-- **C147, only one cell contains a point.** If the domain is convex, no point of the plane is in two cells, not even one on a face or a
node; every point strictly inside of the domain is in exactly one cell; every point that is in a cell is in the closed domain. -/
theorem one_cell_contains (h : s.Flat r) (hcv : ∀ g, ConvexOutline (s.corners g)) {B : List Point} (hc : StrictlyConvex B) (hne : B ≠ [])
    (hB : Refines s.rim (polyEdges B)) (t : Point) :
    (∀ c < s.j.m.nf, ∀ c' < s.j.m.nf, pointInCell s.gmesh t c = true → pointInCell s.gmesh t c' = true → c = c') ∧
    ((∀ e ∈ polyEdges B, 0 < orient2 t e.1 e.2) → ∃ c < s.j.m.nf, pointInCell s.gmesh t c = true) ∧
    (∀ c < s.j.m.nf, pointInCell s.gmesh t c = true → ∀ e ∈ polyEdges B, 0 ≤ orient2 t e.1 e.2) := by
  have hcount := count_cells h hcv t
  rw [wind_refines hB, wind_convex t hc] at hcount
  have hle : ((List.range s.j.m.nf).countP fun c => pointInCell s.gmesh t c) ≤ 1 := by
    split at hcount <;> omega
  have two : ∀ c < s.j.m.nf, ∀ c' < s.j.m.nf, pointInCell s.gmesh t c = true → pointInCell s.gmesh t c' = true → c = c' := by
    intro c hlt c' hlt' h1 h2
    by_contra hd
    have hsub : [c, c'] ⊆ (List.range s.j.m.nf).filter fun c => pointInCell s.gmesh t c := by
      intro x hx
      simp only [List.mem_cons, List.not_mem_nil, or_false] at hx
      rcases hx with rfl | rfl
      · exact List.mem_filter.2 ⟨List.mem_range.2 hlt, h1⟩
      · exact List.mem_filter.2 ⟨List.mem_range.2 hlt', h2⟩
    have := (List.subperm_of_subset (by simp [hd]) hsub).length_le
    rw [List.countP_eq_length_filter] at hle
    simp only [List.length_cons, List.length_nil] at this
    omega
  obtain ⟨p1, p2⟩ := point_in_polygon_convex t B hc hne
  refine ⟨two, fun hin => (some_cell_contains h hcv hB t).1 (p1 hin), fun c hlt hcc => p2 ?_⟩
  by_contra hout
  obtain ⟨c', hlt', hd, hcc'⟩ := (some_cell_contains h hcv hB t).2 (by simpa using hout) c hlt hcc
  exact hd (two c' hlt' c hlt hcc' hcc)

/-- **C147, convex cells.** A cell, possibly with nodes in the middle of its sides, contains every point strictly inside of the convex
polygon it is, and only points of that polygon or on its boundary. -/
theorem cell_contains (h : s.Flat r) (t : Point) {c : Nat} {g : Fin s.j.m.nf} (hc : (s.j.m.cmap s.j.bg).at c = some g)
    {B : List Point} (hcv : StrictlyConvex B) (hne : B ≠ []) (hB : Refines (polyEdges (s.corners g)) (polyEdges B)) :
    ((∀ e ∈ polyEdges B, 0 < orient2 t e.1 e.2) → pointInCell s.gmesh t c = true) ∧
    (pointInCell s.gmesh t c = true → ∀ e ∈ polyEdges B, 0 ≤ orient2 t e.1 e.2) := by
  rw [pointInCell_plane h t hc, inPolygon_refines hB]
  exact point_in_polygon_convex t B hcv hne

/-- **C147** two meshes whose rims cut the same outline have the same number of cells that contain a point -/
theorem same_count_of_same_rim {s' : Source ℝ} {r' : MeshCache.Request} (h : s.Flat r) (h' : s'.Flat r')
    (hcv : ∀ g, ConvexOutline (s.corners g)) (hcv' : ∀ g, ConvexOutline (s'.corners g)) {B : List (Point × Point)}
    (hB : Refines s.rim B) (hB' : Refines s'.rim B) (t : Point) :
    ((List.range s.j.m.nf).countP fun c => pointInCell s.gmesh t c) = (List.range s'.j.m.nf).countP fun c => pointInCell s'.gmesh t c := by
  have e1 := count_cells h hcv t
  have e2 := count_cells h' hcv' t
  rw [wind_refines hB] at e1
  rw [wind_refines hB'] at e2
  exact_mod_cast e1.trans e2.symm

/-- the outline of the square and the triangle: the node between them is on its lower side -/
noncomputable abbrev kiteOutline (a : ℝ) : List Point := [mk2 0 0, mk2 a 0, mk2 1 1, mk2 0 1]

theorem kiteOutline_convex (a : ℝ) (ha : 1 < a) : StrictlyConvex (kiteOutline a) := by
  constructor
  · simp [mk2]; exact fun h => by linarith
  · intro e he v hv
    simp only [kiteOutline, polyEdges, List.rotate_cons_succ, List.rotate_zero, List.zip_cons_cons, List.cons_append,
      List.nil_append, List.zip_nil_right, List.mem_cons, List.not_mem_nil, or_false] at he hv
    rcases he with rfl | rfl | rfl | rfl <;> rcases hv with rfl | rfl | rfl | rfl <;>
      first
      | exact .inl rfl
      | exact .inr (.inl rfl)
      | (right; right; simp only [orient2, mk2]; nlinarith)

theorem kite_convex (a : ℝ) (ha : 1 < a) : ∀ g : Fin 2, ConvexOutline ((kite a).corners g) := by
  intro g
  refine ⟨(kite a).corners g, ?_, .same (List.Perm.refl _)⟩
  obtain ⟨h0, h1⟩ := kite_corners a
  have hg : g = 0 ∨ g = 1 := by revert g; decide
  rcases hg with rfl | rfl
  · rw [h0]
    constructor
    · simp [mk2]
    · intro e he v hv
      simp only [polyEdges, List.rotate_cons_succ, List.rotate_zero, List.zip_cons_cons, List.cons_append,
        List.nil_append, List.zip_nil_right, List.mem_cons, List.not_mem_nil, or_false] at he hv
      rcases he with rfl | rfl | rfl | rfl <;> rcases hv with rfl | rfl | rfl | rfl <;>
        first
        | exact .inl rfl
        | exact .inr (.inl rfl)
        | (right; right; simp only [orient2, mk2]; norm_num)
  · rw [h1]
    constructor
    · simp [mk2]; exact fun h => by linarith
    · intro e he v hv
      simp only [polyEdges, List.rotate_cons_succ, List.rotate_zero, List.zip_cons_cons, List.cons_append,
        List.nil_append, List.zip_nil_right, List.mem_cons, List.not_mem_nil, or_false] at he hv
      rcases he with rfl | rfl | rfl <;> rcases hv with rfl | rfl | rfl <;>
        first
        | exact .inl rfl
        | exact .inr (.inl rfl)
        | (right; right; simp only [orient2, mk2]; nlinarith)

/-- the rim is the outline, its lower side cut at the node between square and triangle -/
theorem kite_rim (a : ℝ) (ha : 1 < a) : Refines (kite a).rim (polyEdges (kiteOutline a)) := by
  have hb : (kite a).j.m.boundary2 = [((0 : Fin 6), true), (2, true), (3, true), (4, true), (5, true)] := kite_cells.2.2
  have hr : (kite a).rim = [(mk2 0 0, mk2 1 0), (mk2 1 1, mk2 0 1), (mk2 0 1, mk2 0 0), (mk2 1 0, mk2 a 0), (mk2 a 0, mk2 1 1)] := by
    unfold Source.rim; rw [hb]; rfl
  have he : polyEdges (kiteOutline a) = [(mk2 0 0, mk2 a 0), (mk2 a 0, mk2 1 1), (mk2 1 1, mk2 0 1), (mk2 0 1, mk2 0 0)] := by
    simp [polyEdges, List.rotate_cons_succ]
  rw [hr, he]
  refine .cut (v := mk2 1 0) ⟨1 / a, by positivity, (div_le_one (by linarith)).2 ha.le, ?_, ?_⟩ (.same ?_)
  · simp only [mk2]; field_simp; ring
  · simp only [mk2]; ring
  · refine .cons _ ?_
    refine List.Perm.trans (l₂ := (mk2 1 0, mk2 a 0) :: [(mk2 1 1, mk2 0 1), (mk2 0 1, mk2 0 0), (mk2 a 0, mk2 1 1)]) ?_ (.cons _ ?_)
    · exact List.perm_middle (l₁ := [(mk2 1 1, mk2 0 1), (mk2 0 1, mk2 0 0)])
    · exact List.perm_middle (l₁ := [(mk2 1 1, mk2 0 1), (mk2 0 1, mk2 0 0)])

/-- the middle of the common face is in exactly one of the two cells -/
example (a : ℝ) (ha : 1 < a) : ∃ c < 2, pointInCell (kite a).gmesh (mk2 1 (1 / 2)) c = true ∧
    ∀ c' < 2, pointInCell (kite a).gmesh (mk2 1 (1 / 2)) c' = true → c' = c := by
  obtain ⟨h1, h2, _⟩ := one_cell_contains (kite_flat a) (kite_convex a ha) (kiteOutline_convex a ha) (by simp) (kite_rim a ha)
    (mk2 1 (1 / 2))
  obtain ⟨c, hlt, hc⟩ := h2 (by
    intro e he
    simp only [kiteOutline, polyEdges, List.rotate_cons_succ, List.rotate_zero, List.zip_cons_cons, List.cons_append,
      List.nil_append, List.zip_nil_right, List.mem_cons, List.not_mem_nil, or_false] at he
    rcases he with rfl | rfl | rfl | rfl <;> simp only [orient2, mk2] <;> nlinarith)
  exact ⟨c, hlt, hc, fun c' hlt' hc' => h1 c' hlt' c hlt hc' hc⟩

/-- a triangle with a node in the middle of its lower side is convex in this sense -/
example : ConvexOutline [mk2 0 0, mk2 1 0, mk2 2 0, mk2 0 2] := by
  refine ⟨[mk2 0 0, mk2 2 0, mk2 0 2], ?_, ?_⟩
  · constructor
    · simp [mk2]
    · intro e he v hv
      simp only [polyEdges, List.rotate_cons_succ, List.rotate_zero, List.zip_cons_cons, List.cons_append,
        List.nil_append, List.zip_nil_right, List.mem_cons, List.not_mem_nil, or_false] at he hv
      rcases he with rfl | rfl | rfl <;> rcases hv with rfl | rfl | rfl <;>
        first
        | exact .inl rfl
        | exact .inr (.inl rfl)
        | (right; right; simp only [orient2, mk2]; norm_num)
  · have e1 : polyEdges [mk2 0 0, mk2 1 0, mk2 2 0, mk2 0 2] =
        [(mk2 0 0, mk2 1 0), (mk2 1 0, mk2 2 0), (mk2 2 0, mk2 0 2), (mk2 0 2, mk2 0 0)] := by simp [polyEdges, List.rotate_cons_succ]
    have e2 : polyEdges [mk2 0 0, mk2 2 0, mk2 0 2] =
        [(mk2 0 0, mk2 2 0), (mk2 2 0, mk2 0 2), (mk2 0 2, mk2 0 0)] := by simp [polyEdges, List.rotate_cons_succ]
    rw [e1, e2]
    exact .cut (v := mk2 1 0) ⟨1 / 2, by norm_num, by norm_num, by simp [mk2], by simp [mk2]⟩ (.same (List.Perm.refl _))

end Jali.Mstk
