import Verif.Props.RegularPointSets
import Verif.Props.RegularRegionSets2
/-!
C175: the set of cells of a point region on a regular mesh in the plane, for every block of every grid and every point.
-/
namespace Jali.MstkGen
open Spec Jali.Geom Jali.Geom.Point Jali.Geom.Spec Jali.MeshGeom Jali.Mstk Jali.Reg

variable {d : Dom2 ℝ} {b : Blk2} {s : Source ℝ} {g : RegMesh2 ℝ} {r : MeshCache.Request}

/-- the point is in the rectangle of the grid at a position, with its right and lower side and without the left and the upper one -/
def InCell2 (d : Dom2 ℝ) (b : Blk2) (c : Nat × Nat) (t : Point) : Prop :=
  gridPt d.X0 d.X1 d.NX (b.i0 + c.1) < t.x ∧ t.x ≤ gridPt d.X0 d.X1 d.NX (b.i0 + c.1 + 1) ∧
  gridPt d.Y0 d.Y1 d.NY (b.j0 + c.2) ≤ t.y ∧ t.y < gridPt d.Y0 d.Y1 d.NY (b.j0 + c.2 + 1)

theorem rect_inside {x0 x1 y0 y1 : ℝ} (hx : x0 < x1) (hy : y0 < y1) (t : Point) :
    pointInPolygon t (rect x0 x1 y0 y1) = true ↔ x0 < t.x ∧ t.x ≤ x1 ∧ y0 ≤ t.y ∧ t.y < y1 := by
  have hr : List.range (rect x0 x1 y0 y1).length = [0, 1, 2, 3] := rfl
  have hb : crosses t.x t.y (mk2 x0 y0) (mk2 x1 y0) = false := by
    rw [crosses_eq]; show ((decide (t.y < y0) ^^ decide (t.y < y0)) && _) = false; rw [Bool.xor_self, Bool.false_and]
  have ht : crosses t.x t.y (mk2 x1 y1) (mk2 x0 y1) = false := by
    rw [crosses_eq]; show ((decide (t.y < y1) ^^ decide (t.y < y1)) && _) = false; rw [Bool.xor_self, Bool.false_and]
  have hxor : (decide (t.y < y0) ^^ decide (t.y < y1)) = decide (y0 ≤ t.y ∧ t.y < y1) := by
    by_cases h0 : t.y < y0
    · have h1 : t.y < y1 := h0.trans hy
      simp [h0, h1, not_le.2 h0]
    · by_cases h1 : t.y < y1 <;> simp [h0, h1, not_lt.1 h0]
  have hrr : crosses t.x t.y (mk2 x1 y0) (mk2 x1 y1) = (decide (y0 ≤ t.y ∧ t.y < y1) && decide (t.x ≤ x1)) := by
    rw [crosses_eq, ← hxor]
    show ((decide (t.y < y0) ^^ decide (t.y < y1)) && decide (t.x ≤ x1 + (t.y - y0) * (x1 - x1) / (y1 - y0))) = _
    rw [sub_self, mul_zero, zero_div, add_zero]
  have hl : crosses t.x t.y (mk2 x0 y1) (mk2 x0 y0) = (decide (y0 ≤ t.y ∧ t.y < y1) && decide (t.x ≤ x0)) := by
    rw [crosses_eq, ← hxor, Bool.xor_comm]
    show ((decide (t.y < y0) ^^ decide (t.y < y1)) && decide (t.x ≤ x0 + (t.y - y1) * (x0 - x0) / (y0 - y1))) = _
    rw [sub_self, mul_zero, zero_div, add_zero]
  unfold pointInPolygon
  rw [hr]
  have p0 : Jali.Geom.pt (rect x0 x1 y0 y1) 0 = mk2 x0 y0 := rfl
  have p1 : Jali.Geom.pt (rect x0 x1 y0 y1) 1 = mk2 x1 y0 := rfl
  have p2 : Jali.Geom.pt (rect x0 x1 y0 y1) 2 = mk2 x1 y1 := rfl
  have p3 : Jali.Geom.pt (rect x0 x1 y0 y1) 3 = mk2 x0 y1 := rfl
  have hlen : (rect x0 x1 y0 y1).length = 4 := rfl
  simp only [List.foldl_cons, List.foldl_nil, hlen, p0, p1, p2, p3, show (0 + 1) % 4 = 1 from rfl, show (1 + 1) % 4 = 2 from rfl,
    show (2 + 1) % 4 = 3 from rfl, show (3 + 1) % 4 = 0 from rfl, hb, ht, hrr, hl]
  by_cases k1 : y0 ≤ t.y ∧ t.y < y1
  · by_cases k2 : t.x ≤ x0
    · have : t.x ≤ x1 := by linarith
      simp [k1, k2, this]
    · by_cases k3 : t.x ≤ x1 <;> simp [k1, k2, k3, not_le.1 k2]
  · simp [k1]

/-- **C175** `point_in_cell` on a regular mesh in the plane -/
theorem regular_point_in_cell2 (hd : GoodDom2 d) (hb : GoodBlk2 d b) (h : RegularMesh2 s d b g r) {c : Nat × Nat} (hi : c.1 < b.nx)
    (hj : c.2 < b.ny) (t : Point) : pointInCell s.gmesh t (cell2At b c) = true ↔ InCell2 d b c t := by
  have hs := h.flat hb
  unfold pointInCell
  rw [if_neg (by rw [(gmesh_dim2 hs).1]; decide), if_pos (gmesh_dim2 hs).1]
  show pointInPolygon t (s.gmesh.cellCoords (c.1 * b.ny + c.2)) = true ↔ _
  rw [coords_at2 hd hb h hi hj]
  exact rect_inside (gridPt_lt hd.x hd.nx (by omega)) (gridPt_lt hd.y hd.ny (by omega)) t

/-- what the construction of sets from regions asks of a mesh in the plane -/
noncomputable def pointGeo2 (s : Source ℝ) (fr : Bool) : Geo Point ℝ :=
  geoOf s.gmesh fr (fun n => (s.j.nodeCells2 n .ALL).getD []) (pointInCell s.gmesh) fun a c => dot (a - c) (a - c)

/-- which node is at a position -/
theorem node_number2 {m : MMesh} (G : Grid2 d b m) {p : Nat × Nat} (hi : p.1 < b.nx + 1) (hj : p.2 < b.ny + 1) :
    ∃ v, m.vmap.at (node2 b p) = some v ∧ G.vo v = mkVert2 d b p.1 p.2 := by
  obtain ⟨i, j⟩ := p
  have e : (List.ofFn G.vo)[i * (b.ny + 1) + j]? = some (mkVert2 d b i j) := by
    rw [G.vlist]
    show ((mkVerts2 d b).flatten)[_]? = _
    have : (mkVerts2 d b).flatten = (loopIdx2 (b.nx + 1) (b.ny + 1)).map fun p => mkVert2 d b p.1 p.2 := by
      simp [mkVerts2, loopIdx2, List.flatMap, List.map_flatten, Function.comp_def]
    rw [this, List.getElem?_map, loopIdx2_get hi hj]; rfl
  obtain ⟨hlt, e⟩ := List.getElem?_eq_some_iff.mp e
  rw [List.length_ofFn] at hlt
  have e : G.vo ⟨_, hlt⟩ = mkVert2 d b i j := by simpa using e
  exact ⟨_, vmap_plain m (fun v => by rw [G.vgid v]) ⟨_, hlt⟩, e⟩

/-- the cell is one of the cells of each of its corners -/
theorem corner_cells2 (hb : GoodBlk2 d b) (h : RegularMesh2 s d b g r) {c n : Nat × Nat} (hi : c.1 < b.nx) (hj : c.2 < b.ny)
    (h1 : n.1 = c.1 ∨ n.1 = c.1 + 1) (h2 : n.2 = c.2 ∨ n.2 = c.2 + 1) : cell2At b c ∈ (s.j.nodeCells2 (node2 b n) .ALL).getD [] := by
  obtain ⟨rfl, ⟨G⟩⟩ := grid_of_build2 hb h.generated h.held
  obtain ⟨hlt, hfo⟩ := cell_number2 G hi hj
  obtain ⟨v, hv, hvo⟩ := node_number2 G (p := n) (by omega) (by omega)
  have hat : (s.j.m.cmap s.j.bg).at (c.1 * b.ny + c.2) = some ⟨_, hlt⟩ := by
    rw [h.plain]; exact cmap_plain s.j.m (fun i => (G.fgid i).2) ⟨_, hlt⟩
  have hst := G.starts hfo
  have hin : G.vo v ∈ ((s.j.m.face ⟨_, hlt⟩).edges.map s.j.m.start).map G.vo := by
    obtain ⟨i, j⟩ := c; obtain ⟨i', j'⟩ := n
    simp only at h1 h2 hvo ⊢
    rw [hst, hvo]
    rcases h1 with rfl | rfl <;> rcases h2 with rfl | rfl <;> simp
  obtain ⟨v', hv', e⟩ := List.mem_map.mp hin
  have hhas : Has (s.j.nodeCells2 (node2 b n) .ALL) (c.1 * b.ny + c.2) := (nodes_cells_agree2 s.j _ _).1
    ((has_cellNodes2 (j := s.j) _ _).2 ⟨_, v, hat, hv, by rw [mfVertices_true]; exact G.vinj e ▸ hv'⟩)
  obtain ⟨l, hl1, hl2⟩ := hhas
  show c.1 * b.ny + c.2 ∈ _
  rw [hl1]; exact hl2

theorem dist_grid2 {x y : ℝ} {p : Point} (hp : p.d = 2) : dot (mk2 x y - p) (mk2 x y - p) = (x - p.x) ^ 2 + (y - p.y) ^ 2 := by
  obtain ⟨d, px, py, pz⟩ := p
  subst hp
  show dot (Point.sub _ _) (Point.sub _ _) = _
  simp [Point.sub, dot, mk2]
  ring

/-- **C175** The set of cells of a point region on a regular mesh in the plane: exactly the cells at positions whose rectangle, without its
left and upper side, contains the point. Cells are wider than 1e-16, and some node is nearer than 1e8. -/
theorem regular_point_set2_partial (hd : GoodDom2 d) (hb : GoodBlk2 d b) (h : RegularMesh2 s d b g r)
    (wide : 1 / 10 ^ 16 < (d.X1 - d.X0) / d.NX ∧ 1 / 10 ^ 16 < (d.Y1 - d.Y0) / d.NY)
    {nm : String} {id : Nat} {p : Point} {lc : LifeCycle} {rg : AnyRegion} (hm : mkPointRegion nm id p lc = .value rg) (h2 : p.d = 2)
    (near : ∃ v ∈ g.verts, (v.x - p.x) ^ 2 + (v.y - p.y) ^ 2 < 10 ^ 16)
    {lab : List Nat × List Nat} {gm : List (Reg.Region Point)} {n : String} (hr : findRegion gm n = some (regionOf lab rg))
    (hl : ∀ q ∈ gm, q.type ≠ .LABELEDSET) {w : World} (hw : Fresh w .CELL (b.nx * b.ny))
    (hv : (w.view .NODE).nAll = (b.nx + 1) * (b.ny + 1)) (fr : Bool) (k : Nat) (rev : Bool) :
    ∃ a w' x, Reg.build (pointGeo2 s fr) gm k w n .CELL rev = .ok (some a, w') ∧ w'.heap[a]? = some x ∧ x.name = n ∧ a ∈ w'.reg ∧
      (MSet.entities x .ALL).Nodup ∧
      ∀ c, c ∈ MSet.entities x .ALL ↔ ∃ q : Nat × Nat, q.1 < b.nx ∧ q.2 < b.ny ∧ c = cell2At b q ∧ InCell2 d b q p := by
  obtain ⟨hg, ⟨G⟩⟩ := grid_of_build2 hb h.generated h.held
  have nr : b.nx * b.ny = s.j.m.nf := by
    have := congrArg List.length G.flist
    rw [List.length_ofFn] at this
    rw [this]
    show _ = ((loopIdx2 b.nx b.ny).map (mkFace d b)).length
    simp [loopIdx2]
  simp only [mkPointRegion, Res.value.injEq] at hm
  subst hm
  have hnc : ∀ v, ((s.j.nodeCells2 v .ALL).getD []).Nodup ∧ ∀ c ∈ (s.j.nodeCells2 v .ALL).getD [], c < b.nx * b.ny := by
    intro v
    cases hc : s.j.nodeCells2 v .ALL with
    | none => simp
    | some l =>
      refine ⟨(cells_listed_once s.j .ALL).2.2.2 v l hc, fun c hm => ?_⟩
      obtain ⟨x, -, hx, -⟩ := (has_cellNodes2 (j := s.j) c v).1 ((nodes_cells_agree2 s.j c v).2 ⟨l, hc, hm⟩)
      rw [nr]
      exact (s.j.m.cnum s.j.bg).lt_of_at hx
  have hf : Fits (pointGeo2 s fr) gm w .CELL := by
    refine ⟨⟨fun e => ?_, fun e => ?_⟩, fun _ v => ?_, fun q hq ht => absurd ht (hl q hq)⟩
    · rw [hw.owned, hw.counts.1]
    · simp only [hw.ghost, MSet.MeshView.nAll, hw.counts.1, hw.counts.2, false_iff]
      omega
    · simp only [MSet.MeshView.nAll, hw.counts.1, hw.counts.2, Nat.add_zero]
      exact hnc v
  have cAll : (w.view .CELL).nAll = b.nx * b.ny := by simp [MSet.MeshView.nAll, hw.counts.1, hw.counts.2]
  have dist : ∀ {I J : Nat}, I < b.nx + 1 → J < b.ny + 1 → (pointGeo2 s fr).dist2 ((pointGeo2 s fr).nodeCoord (node2 b (I, J))) p =
      (gridPt d.X0 d.X1 d.NX (b.i0 + I) - p.x) ^ 2 + (gridPt d.Y0 d.Y1 d.NY (b.j0 + J) - p.y) ^ 2 := by
    intro I J hI hJ
    show dot (s.gmesh.nodeCoord _ - p) (s.gmesh.nodeCoord _ - p) = _
    rw [node_at2 hd hb h (p := (I, J)) hI hJ]; exact dist_grid2 h2
  obtain ⟨w', x, h1, h2', h4, h5, h6, h7⟩ := point_region_exact hf n hr rfl p rfl (by
      obtain ⟨v, hvm, hlt⟩ := near
      rw [hg] at hvm
      have : (genOf2 d b).verts = (loopIdx2 (b.nx + 1) (b.ny + 1)).map fun p => mkVert2 d b p.1 p.2 := by
        show (mkVerts2 d b).flatten = _
        simp [mkVerts2, loopIdx2, List.flatMap, List.map_flatten, Function.comp_def]
      rw [this] at hvm
      obtain ⟨⟨i, j⟩, ht, rfl⟩ := List.mem_map.mp hvm
      rw [mem_loopIdx2] at ht
      refine ⟨node2 b (i, j), by rw [hv]; exact pair_lt ht.1 ht.2, ?_⟩
      rw [dist ht.1 ht.2]
      simpa only [(vx d hd b _ _).1, (vx d hd b _ _).2] using hlt) (by
      rintro m ⟨hm, hmin⟩ c hc hin
      rw [cAll] at hc
      rw [hv] at hm
      obtain ⟨⟨i, j⟩, ⟨hi, hj⟩, rfl⟩ := cell_surj2 hb hc
      obtain ⟨⟨I, J⟩, ⟨hI, hJ⟩, rfl⟩ := node_surj2 hm
      obtain ⟨b1, b2, b3, b4⟩ := (regular_point_in_cell2 hd hb h hi hj p).1 hin
      simp only at hi hj hI hJ b1 b2 b3 b4
      rw [dist hI hJ] at hmin
      have better : ∀ A B, A < b.nx + 1 → B < b.ny + 1 →
          (gridPt d.X0 d.X1 d.NX (b.i0 + I) - p.x) ^ 2 + (gridPt d.Y0 d.Y1 d.NY (b.j0 + J) - p.y) ^ 2 ≤ 1 / 10 ^ 32 ∨
          (gridPt d.X0 d.X1 d.NX (b.i0 + I) - p.x) ^ 2 + (gridPt d.Y0 d.Y1 d.NY (b.j0 + J) - p.y) ^ 2 ≤
            (gridPt d.X0 d.X1 d.NX (b.i0 + A) - p.x) ^ 2 + (gridPt d.Y0 d.Y1 d.NY (b.j0 + B) - p.y) ^ 2 := by
        intro A B hA hB
        refine hmin.imp_right fun hmin => ?_
        have := hmin (node2 b (A, B)) (by rw [hv]; exact pair_lt hA hB)
        rwa [dist hA hB] at this
      have cx : b.i0 + I = b.i0 + i ∨ b.i0 + I = b.i0 + i + 1 := grid_corner hd.x hd.nx b1.le b2 wide.1
        (q := (gridPt d.Y0 d.Y1 d.NY (b.j0 + J) - p.y) ^ 2) (by positivity) (by
          rcases hmin with hs | -
          · exact .inl hs
          · by_cases hs : (gridPt d.X0 d.X1 d.NX (b.i0 + I) - p.x) ^ 2 + (gridPt d.Y0 d.Y1 d.NY (b.j0 + J) - p.y) ^ 2 ≤ 1 / 10 ^ 32
            · exact .inl hs
            · right
              rintro K (rfl | rfl)
              · exact (better i J (by omega) hJ).resolve_left hs
              · exact (better (i + 1) J (by omega) hJ).resolve_left hs)
      have cy : b.j0 + J = b.j0 + j ∨ b.j0 + J = b.j0 + j + 1 := grid_corner hd.y hd.ny b3 b4.le wide.2
        (q := (gridPt d.X0 d.X1 d.NX (b.i0 + I) - p.x) ^ 2) (by positivity) (by
          by_cases hs : (gridPt d.X0 d.X1 d.NX (b.i0 + I) - p.x) ^ 2 + (gridPt d.Y0 d.Y1 d.NY (b.j0 + J) - p.y) ^ 2 ≤ 1 / 10 ^ 32
          · left; linarith
          · right
            rintro K (rfl | rfl)
            · have := (better I j hI (by omega)).resolve_left hs; linarith
            · have := (better I (j + 1) hI (by omega)).resolve_left hs
              rw [← Nat.add_assoc] at this; linarith)
      exact corner_cells2 hb h hi hj (by simp only; omega) (by simp only; omega)) k rev
  refine ⟨_, w', x, h1, by rw [h2']; simp, h5, by rw [h4]; simp, h7, fun c => ?_⟩
  rw [h6, cAll]
  constructor
  · rintro ⟨hc, hin⟩
    obtain ⟨q, ⟨hi, hj⟩, rfl⟩ := cell_surj2 hb hc
    exact ⟨q, hi, hj, rfl, (regular_point_in_cell2 hd hb h hi hj p).1 hin⟩
  · rintro ⟨q, hi, hj, rfl, hin⟩
    exact ⟨pair_lt hi hj, (regular_point_in_cell2 hd hb h hi hj p).2 hin⟩

/-- **C175** the cells of the set: one position if the point is in the rectangle of the block without its left and upper side, else none -/
theorem one_position2 (hd : GoodDom2 d) (t : Point) :
    ((∃ q : Nat × Nat, q.1 < b.nx ∧ q.2 < b.ny ∧ InCell2 d b q t) ↔
      gridPt d.X0 d.X1 d.NX b.i0 < t.x ∧ t.x ≤ gridPt d.X0 d.X1 d.NX (b.i0 + b.nx) ∧
      gridPt d.Y0 d.Y1 d.NY b.j0 ≤ t.y ∧ t.y < gridPt d.Y0 d.Y1 d.NY (b.j0 + b.ny)) ∧
    ∀ q q', InCell2 d b q t → InCell2 d b q' t → q = q' := by
  have mx : ∀ {i j : Nat}, i < j → gridPt d.X0 d.X1 d.NX i < gridPt d.X0 d.X1 d.NX j := fun h => gridPt_lt hd.x hd.nx h
  have my : ∀ {i j : Nat}, i < j → gridPt d.Y0 d.Y1 d.NY i < gridPt d.Y0 d.Y1 d.NY j := fun h => gridPt_lt hd.y hd.ny h
  have mx' : ∀ {i j : Nat}, i ≤ j → gridPt d.X0 d.X1 d.NX i ≤ gridPt d.X0 d.X1 d.NX j := fun h => by
    rcases h.lt_or_eq with h | rfl
    exacts [(mx h).le, le_refl _]
  have my' : ∀ {i j : Nat}, i ≤ j → gridPt d.Y0 d.Y1 d.NY i ≤ gridPt d.Y0 d.Y1 d.NY j := fun h => by
    rcases h.lt_or_eq with h | rfl
    exacts [(my h).le, le_refl _]
  refine ⟨⟨?_, ?_⟩, ?_⟩
  · rintro ⟨⟨i, j⟩, hi, hj, h1, h2, h3, h4⟩
    exact ⟨(mx' (by omega)).trans_lt h1, h2.trans (mx' (by simp only at hi ⊢; omega)), (my' (by omega)).trans h3,
      h4.trans_le (my' (by simp only at hj ⊢; omega))⟩
  · rintro ⟨h1, h2, h3, h4⟩
    have ex : ∀ n, t.x ≤ gridPt d.X0 d.X1 d.NX (b.i0 + n) → ∃ i < n, gridPt d.X0 d.X1 d.NX (b.i0 + i) < t.x ∧
        t.x ≤ gridPt d.X0 d.X1 d.NX (b.i0 + i + 1) := by
      intro n
      induction n with
      | zero => intro h; exact absurd h1 (not_lt.2 h)
      | succ n ih =>
        intro h
        rcases le_or_gt t.x (gridPt d.X0 d.X1 d.NX (b.i0 + n)) with h' | h'
        · obtain ⟨i, hi, k⟩ := ih h'
          exact ⟨i, by omega, k⟩
        · exact ⟨n, by omega, h', h⟩
    have ey : ∀ n, t.y < gridPt d.Y0 d.Y1 d.NY (b.j0 + n) → ∃ i < n, gridPt d.Y0 d.Y1 d.NY (b.j0 + i) ≤ t.y ∧
        t.y < gridPt d.Y0 d.Y1 d.NY (b.j0 + i + 1) := by
      intro n
      induction n with
      | zero => intro h; exact absurd h3 (not_le.2 h)
      | succ n ih =>
        intro h
        rcases lt_or_ge t.y (gridPt d.Y0 d.Y1 d.NY (b.j0 + n)) with h' | h'
        · obtain ⟨i, hi, k⟩ := ih h'
          exact ⟨i, by omega, k⟩
        · exact ⟨n, by omega, h', h⟩
    obtain ⟨i, hi, k1, k2⟩ := ex _ h2
    obtain ⟨j, hj, k3, k4⟩ := ey _ h4
    exact ⟨(i, j), hi, hj, k1, k2, k3, k4⟩
  · rintro ⟨i, j⟩ ⟨i', j'⟩ ⟨a1, a2, a3, a4⟩ ⟨b1, b2, b3, b4⟩
    simp only at a1 a2 a3 a4 b1 b2 b3 b4
    have hi : i = i' := by
      rcases Nat.lt_trichotomy i i' with hlt | rfl | hlt
      · exact absurd (a2.trans (mx' (show b.i0 + i + 1 ≤ b.i0 + i' by omega))) (not_le.2 b1)
      · rfl
      · exact absurd (b2.trans (mx' (show b.i0 + i' + 1 ≤ b.i0 + i by omega))) (not_le.2 a1)
    have hj : j = j' := by
      rcases Nat.lt_trichotomy j j' with hlt | rfl | hlt
      · exact absurd (a4.trans_le (my' (show b.j0 + j + 1 ≤ b.j0 + j' by omega))) (not_lt.2 b3)
      · rfl
      · exact absurd (b4.trans_le (my' (show b.j0 + j' + 1 ≤ b.j0 + j by omega))) (not_lt.2 a3)
    rw [hi, hj]

/-- **C175** False of the code: a point on the left or the upper side of the block is in the closed rectangle of a cell, and the set holds
no cell. -/
theorem regular_point_set2_side_false (hd : GoodDom2 d) (hb : GoodBlk2 d b) (h : RegularMesh2 s d b g r)
    (wide : 1 / 10 ^ 16 < (d.X1 - d.X0) / d.NX ∧ 1 / 10 ^ 16 < (d.Y1 - d.Y0) / d.NY) {p : Point} (h2 : p.d = 2)
    (near : ∃ v ∈ g.verts, (v.x - p.x) ^ 2 + (v.y - p.y) ^ 2 < 10 ^ 16)
    (side : p.x = gridPt d.X0 d.X1 d.NX b.i0 ∨ p.y = gridPt d.Y0 d.Y1 d.NY (b.j0 + b.ny))
    {nm : String} {id : Nat} {lc : LifeCycle} {rg : AnyRegion} (hm : mkPointRegion nm id p lc = .value rg)
    {lab : List Nat × List Nat} {gm : List (Reg.Region Point)} {n : String} (hr : findRegion gm n = some (regionOf lab rg))
    (hl : ∀ q ∈ gm, q.type ≠ .LABELEDSET) {w : World} (hw : Fresh w .CELL (b.nx * b.ny))
    (hv : (w.view .NODE).nAll = (b.nx + 1) * (b.ny + 1)) (fr : Bool) (k : Nat) (rev : Bool) :
    ∃ a w' x, Reg.build (pointGeo2 s fr) gm k w n .CELL rev = .ok (some a, w') ∧ w'.heap[a]? = some x ∧
      ∀ c, c ∉ MSet.entities x .ALL := by
  obtain ⟨a, w', x, e1, e2, -, -, -, e3⟩ := regular_point_set2_partial hd hb h wide hm h2 near hr hl hw hv fr k rev
  refine ⟨a, w', x, e1, e2, fun c hx => ?_⟩
  obtain ⟨q, q1, q2, -, hq⟩ := (e3 c).1 hx
  obtain ⟨k1, -, -, k4⟩ := (one_position2 (b := b) hd p).1.1 ⟨q, q1, q2, hq⟩
  rcases side with e | e
  · exact absurd k1 (by rw [e]; exact lt_irrefl _)
  · exact absurd k4 (by rw [e]; exact lt_irrefl _)

/-- the second and third column of the mesh of 3 x 2 cells of (0,0) - (3,2): a point on the vertical face between the cells 0 and 2 is in
cell 0 only; a point on the left side of the block is in none -/
example : ∃ (s : Source ℝ), (∃ (a : Nat) (w' : World) (x : MSet.Obj),
    Reg.build (pointGeo2 s true) [regionOf ([], []) (.point ⟨"P", 1, 0, .PERMANENT⟩ (mk2 2 (1 / 2)))] 0 (freshWorld3 4 9) "P" .CELL true =
      .ok (some a, w') ∧ w'.heap[a]? = some x ∧ 0 ∈ MSet.entities x .ALL ∧ 2 ∉ MSet.entities x .ALL) ∧
    ∃ (a : Nat) (w' : World) (x : MSet.Obj),
    Reg.build (pointGeo2 s true) [regionOf ([], []) (.point ⟨"P", 1, 0, .PERMANENT⟩ (mk2 1 (1 / 2)))] 0 (freshWorld3 4 9) "P" .CELL true =
      .ok (some a, w') ∧ w'.heap[a]? = some x ∧ ∀ c, c ∉ MSet.entities x .ALL := by
  have hb : GoodBlk2 (⟨0, 0, 3, 2, 3, 2⟩ : Dom2 ℝ) ⟨1, 0, 2, 2⟩ := ⟨by norm_num, by norm_num, by norm_num, by norm_num⟩
  have hd : GoodDom2 (⟨0, 0, 3, 2, 3, 2⟩ : Dom2 ℝ) := by constructor <;> norm_num
  obtain ⟨s, g, r, h, -⟩ := regular2_exists hb
  have hg : g = genOf2 _ _ := Option.some.inj (h.generated.symm.trans (generate2_eq _ hb.nx hb.ny))
  have hmem : mkVert2 (⟨0, 0, 3, 2, 3, 2⟩ : Dom2 ℝ) ⟨1, 0, 2, 2⟩ 0 0 ∈ g.verts := by
    rw [hg]; simp [genOf2, mkVerts2, List.range_succ]
  have near : ∀ p : Point, (p = mk2 2 (1 / 2) ∨ p = mk2 1 (1 / 2)) → ∃ v ∈ g.verts, (v.x - p.x) ^ 2 + (v.y - p.y) ^ 2 < 10 ^ 16 := by
    intro p hp
    refine ⟨_, hmem, ?_⟩
    rw [(vx _ hd _ _ _).1, (vx _ hd _ _ _).2]
    rcases hp with rfl | rfl <;> norm_num [gridPt, mk2]
  refine ⟨s, ?_, ?_⟩
  · obtain ⟨a, w', x, e1, e2, -, -, -, e3⟩ := regular_point_set2_partial hd hb h (by norm_num) (nm := "P") (id := 1) (p := mk2 2 (1 / 2))
      (lc := .PERMANENT) rfl rfl (near _ (.inl rfl)) (gm := [regionOf ([], []) (.point ⟨"P", 1, 0, .PERMANENT⟩ (mk2 2 (1 / 2)))]) (n := "P")
      (lab := ([], [])) (by simp [findRegion, regionOf, AnyRegion.name, AnyRegion.base]) (by simp [regionOf, AnyRegion.type])
      (w := freshWorld3 4 9) (fresh_freshWorld3 4 9) rfl true 0 true
    have in0 : InCell2 (⟨0, 0, 3, 2, 3, 2⟩ : Dom2 ℝ) ⟨1, 0, 2, 2⟩ (0, 0) (mk2 2 (1 / 2)) := by norm_num [InCell2, gridPt, mk2]
    refine ⟨a, w', x, e1, e2, (e3 0).2 ⟨(0, 0), by decide, by decide, rfl, in0⟩, fun hx => ?_⟩
    obtain ⟨q, -, -, e, hq⟩ := (e3 2).1 hx
    rw [(one_position2 hd _).2 q (0, 0) hq in0] at e
    exact absurd e (by decide)
  · exact regular_point_set2_side_false hd hb h (by norm_num) (nm := "P") (id := 1) (p := mk2 1 (1 / 2))
      (lc := .PERMANENT) rfl (near _ (.inr rfl)) (.inl (by norm_num [gridPt, mk2])) rfl (gm := [regionOf ([], []) (.point ⟨"P", 1, 0, .PERMANENT⟩ (mk2 1 (1 / 2)))]) (n := "P")
      (lab := ([], [])) (by simp [findRegion, regionOf, AnyRegion.name, AnyRegion.base]) (by simp [regionOf, AnyRegion.type])
      (w := freshWorld3 4 9) (fresh_freshWorld3 4 9) rfl true 0 true

end Jali.MstkGen
