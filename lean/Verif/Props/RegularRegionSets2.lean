import Verif.Props.RegularRegionSets
import Verif.Props.BlockSearchMstk2
/-! C172: which cells, faces and nodes of a regular mesh in the plane the set of a box or a line holds. -/
namespace Jali.MstkGen
open Spec Jali.Mstk Jali.Geom Jali.Geom.Point Jali.Geom.Spec Jali.MeshGeom Jali.Reg

variable {d : Dom2 ℝ} {b : Blk2} {s : Source ℝ} {g : RegMesh2 ℝ} {r : MeshCache.Request}

/-- the point is in the rectangle with two opposite corners `p0`, `p1`, up to 1e-8 -/
def InBox2 (p0 p1 : Point) (x y : ℝ) : Prop :=
  (min p0.x p1.x - 1 / 10 ^ 8 ≤ x ∧ x ≤ max p0.x p1.x + 1 / 10 ^ 8) ∧ (min p0.y p1.y - 1 / 10 ^ 8 ≤ y ∧ y ≤ max p0.y p1.y + 1 / 10 ^ 8)

/-- the point is on the line through `q` with normal `n`, up to 1e-12 -/
def OnLine2 (q n : Point) (x y : ℝ) : Prop := |n.x * (x - q.x) + n.y * (y - q.y)| ≤ 1 / 10 ^ 12

theorem regionOf_box2 {nm : String} {id : Nat} {p0 p1 : Point} {lc : LifeCycle} {rg : AnyRegion} (h : mkBox nm id p0 p1 lc = .value rg)
    (h2 : p0.d = 2) (lab : List Nat × List Nat) : (regionOf lab rg).type = .BOX ∧
      ∀ p : Point, p.d = 2 → ((regionOf lab rg).inside p = true ↔ InBox2 p0 p1 p.x p.y) := by
  constructor
  · unfold mkBox at h
    split at h
    · cases h
    · simp only [Res.value.injEq] at h; subst h; rfl
  · intro p hp
    obtain ⟨b, hb, e⟩ := (box_region_inside nm id p0 p1 lc rg h p).2 (hp.trans h2.symm)
    simp only [regionOf, hb, e, hp]
    constructor
    · intro k; exact ⟨k 0 (by omega), k 1 (by omega)⟩
    · rintro ⟨k0, k1⟩ i hi
      obtain rfl | rfl : i = 0 ∨ i = 1 := by omega
      exacts [k0, k1]

theorem regionOf_line {nm : String} {id : Nat} {q n : Point} {lc : LifeCycle} {rg : AnyRegion} (h : mkPlane nm id q n lc = .value rg)
    (h2 : q.d = 2) (lab : List Nat × List Nat) : (regionOf lab rg).type = .PLANE ∧
      ∀ p : Point, p.d = 2 → ((regionOf lab rg).inside p = true ↔ OnLine2 q n p.x p.y) := by
  constructor
  · unfold mkPlane at h
    split at h
    · cases h
    · simp only [Res.value.injEq] at h; subst h; rfl
  · intro p hp
    obtain ⟨b, hb, e⟩ := (plane_inside nm id q n lc rg h p).2 (hp.trans h2.symm)
    simp only [regionOf, hb, e, hp]
    simp [OnLine2, List.range_succ, Point.coord]

/-- middle between two neighbouring lines of the grid -/
noncomputable def mid2 (a e : ℝ) (n i : Nat) : ℝ := (gridPt a e n i + gridPt a e n (i + 1)) / 2

/-- number of the node at a position of the block -/
def node2 (b : Blk2) (p : Nat × Nat) : Nat := p.1 * (b.ny + 1) + p.2
/-- number of the cell at a position of the block -/
def cell2At (b : Blk2) (p : Nat × Nat) : Nat := p.1 * b.ny + p.2

theorem rect_points {x0 x1 y0 y1 : ℝ} : ∀ p ∈ rect x0 x1 y0 y1, p.d = 2 := by
  intro p hp
  simp only [rect, List.mem_cons, List.not_mem_nil, or_false] at hp
  rcases hp with rfl | rfl | rfl | rfl <;> rfl

/-- the centroid of a cell -/
theorem centroid_at2 (hd : GoodDom2 d) (hb : GoodBlk2 d b) (h : RegularMesh2 s d b g r) {p : Nat × Nat} (hi : p.1 < b.nx) (hj : p.2 < b.ny) :
    ∃ cen, ((computeCellGeometry s.gmesh (cell2At b p)).map Prod.snd).getD (Point.zero 0) = cen ∧ cen.d = 2 ∧
      cen.x = mid2 d.X0 d.X1 d.NX (b.i0 + p.1) ∧ cen.y = mid2 d.Y0 d.Y1 d.NY (b.j0 + p.2) := by
  obtain ⟨i, j⟩ := p
  obtain ⟨hg, ⟨G⟩⟩ := grid_of_build2 hb h.generated h.held
  obtain ⟨hlt, hfo⟩ := cell_number2 G hi hj
  have hc : g.faces[i * b.ny + j]? = some (mkFace d b (i, j)) := by
    rw [hg, ← hfo]; exact Grid2.lookup G.flist ⟨_, hlt⟩
  obtain ⟨lo, hi', area, cen, e1, e2, e3, -, -, e4, e5⟩ := generated_cell_area hd hb h hc
  have hst : (mkFace d b (i, j)).es.map start = [mkVert2 d b i j, mkVert2 d b (i + 1) j, mkVert2 d b (i + 1) (j + 1), mkVert2 d b i (j + 1)] := by
    rcases i with _ | i <;> rcases j with _ | j <;> simp [mkFace, start, hE, vE, bot, rgt, top, lft]
  rw [hst] at e1 e2
  simp only [List.getElem?_cons_zero, List.getElem?_cons_succ, Option.some.injEq] at e1 e2
  subst e1 e2
  simp only [(vx d hd b _ _).1, (vx d hd b _ _).2, ← Nat.add_assoc] at e4 e5
  have hco := coords_at2 hd hb h hi hj
  have e6 := e3
  unfold computeCellGeometry at e6
  simp only [(gmesh_dim2 (h.flat hb)).1, show ¬ (2 : Nat) = 3 by decide, if_false, if_true, hco] at e6
  rw [polygon_loop _ (by simp [rect])] at e6
  simp only [Option.some.injEq, Prod.mk.injEq] at e6
  refine ⟨cen, ?_, ?_, e4, e5⟩
  · show ((computeCellGeometry s.gmesh (i * b.ny + j)).map Prod.snd).getD _ = _
    rw [e3]; rfl
  · rw [← e6.2]
    simp only [divAssign, mulAssign]
    exact foldl_addAssign_d _ _

theorem cell_surj2 (hb : GoodBlk2 d b) {c : Nat} (hc : c < b.nx * b.ny) : ∃ p : Nat × Nat, (p.1 < b.nx ∧ p.2 < b.ny) ∧ cell2At b p = c :=
  ⟨(c / b.ny, c % b.ny), ⟨Nat.div_lt_of_lt_mul (by rwa [Nat.mul_comm]), Nat.mod_lt _ hb.ny⟩, Nat.div_add_mod' c b.ny⟩

theorem pair_lt {i j n m : Nat} (hi : i < n) (hj : j < m) : i * m + j < n * m := by
  have : (i + 1) * m ≤ n * m := Nat.mul_le_mul_right _ hi
  nlinarith

theorem node_surj2 {c : Nat} (hc : c < (b.nx + 1) * (b.ny + 1)) : ∃ p : Nat × Nat, (p.1 < b.nx + 1 ∧ p.2 < b.ny + 1) ∧ node2 b p = c :=
  ⟨(c / (b.ny + 1), c % (b.ny + 1)), ⟨Nat.div_lt_of_lt_mul (by rwa [Nat.mul_comm]), Nat.mod_lt _ (by omega)⟩, Nat.div_add_mod' c (b.ny + 1)⟩

/-- the position of a node -/
theorem node_at2 (hd : GoodDom2 d) (hb : GoodBlk2 d b) (h : RegularMesh2 s d b g r) {p : Nat × Nat} (hi : p.1 < b.nx + 1) (hj : p.2 < b.ny + 1) :
    s.gmesh.nodeCoord (node2 b p) = mk2 (gridPt d.X0 d.X1 d.NX (b.i0 + p.1)) (gridPt d.Y0 d.Y1 d.NY (b.j0 + p.2)) := by
  obtain ⟨i, j⟩ := p
  obtain ⟨hg, ⟨G⟩⟩ := grid_of_build2 hb h.generated h.held
  have e : (List.ofFn G.vo)[i * (b.ny + 1) + j]? = some (mkVert2 d b i j) := by
    rw [G.vlist]
    show ((mkVerts2 d b).flatten)[_]? = _
    have : (mkVerts2 d b).flatten = (loopIdx2 (b.nx + 1) (b.ny + 1)).map fun p => mkVert2 d b p.1 p.2 := by
      simp [mkVerts2, loopIdx2, List.flatMap, List.map_flatten, Function.comp_def]
    rw [this, List.getElem?_map, loopIdx2_get hi hj]; rfl
  obtain ⟨hlt, e⟩ := List.getElem?_eq_some_iff.mp e
  rw [List.length_ofFn] at hlt
  have e : G.vo ⟨_, hlt⟩ = mkVert2 d b i j := by simpa using e
  have hat : s.j.m.vmap.at (i * (b.ny + 1) + j) = some ⟨_, hlt⟩ := vmap_plain s.j.m (fun v => by rw [G.vgid v]) ⟨_, hlt⟩
  show ((s.nodeGet (i * (b.ny + 1) + j)).map asPoint).getD _ = _
  unfold Source.nodeGet
  rw [hat, Option.bind_some, asPoint_pointAt s (.inr h.space), Option.getD_some, place_pt2 G (hg ▸ h.placed) h.space, e,
    (vx d hd b i j).1, (vx d hd b i j).2]

/-- the end points of an edge, as sets of regions see them -/
theorem edge_at2 (hb : GoodBlk2 d b) (h : RegularMesh2 s d b g r) {e : Nat} {edge : Edge2 ℝ} (he : g.edges[e]? = some edge) :
    (∀ x, x ∈ s.gmesh.faceCoords e ↔ x = mk2 edge.v0.x edge.v0.y ∨ x = mk2 edge.v1.x edge.v1.y) ∧
    ∃ cen, ((computeFaceGeometry s.gmesh e).map fun r => r.2.1).getD (Point.zero 0) = cen ∧ cen.d = 2 ∧
      cen.x = (edge.v0.x + edge.v1.x) / 2 ∧ cen.y = (edge.v0.y + edge.v1.y) / 2 := by
  obtain ⟨rfl, ⟨G⟩⟩ := grid_of_build2 hb h.generated h.held
  have hs := h.flat hb
  have he' := (List.getElem?_eq_some_iff.mp he).1
  rw [← G.elist, List.length_ofFn] at he'
  have e1 : G.eo ⟨e, he'⟩ = edge := Option.some.inj ((Grid2.lookup G.elist ⟨e, he'⟩).symm.trans he)
  have hid := eid_plain (fun i => (G.egid i).2) ⟨e, he'⟩
  have hco := gmesh_faceCoords2 hs ⟨e, he'⟩
  have good := good_face2 hs ⟨e, he'⟩
  have lst := listed2 hs ⟨e, he'⟩
  rw [hid] at hco good lst
  simp only [place_pt2 G h.placed h.space, G.v0, G.v1, e1] at hco
  refine ⟨fun x => ?_, ?_⟩
  · rw [hco]
    split <;> simp [or_comm]
  · obtain ⟨area, cen, hq⟩ := computeFace_normals s.gmesh e good lst
    obtain ⟨k1, k2⟩ := edge_centroid2 hb h G ⟨e, he'⟩ hq
    rw [e1] at k1 k2
    refine ⟨cen, by rw [hq]; rfl, ?_, k1, k2⟩
    obtain ⟨dm, ds⟩ := gmesh_dim2 hs
    unfold computeFaceGeometry at hq
    simp only [dm, ds, show ¬ (2 : Nat) = 3 by decide, if_false, if_true, Option.map_eq_some_iff, hco] at hq
    obtain ⟨n, _, hq⟩ := hq
    simp only [Prod.mk.injEq] at hq
    rw [← hq.2.1]
    split <;> rfl

/-- **C172** On a block of a regular mesh in the plane, with nothing but regions given by positions: the set of cells of a box holds exactly
the cells with their centres in the box; that of a line the cells with all four corners on the line; the set of nodes exactly those in the
box or on the line; the set of faces of a box those with their mid-points in the box, that of a line those with both ends on it. Cell
`(i, j)` of the block has number `i * ny + j`, node `(i, j)` number `i * (ny + 1) + j`; the faces are those generated, in this order. -/
theorem regular_region_sets2 (hd : GoodDom2 d) (hb : GoodBlk2 d b) (h : RegularMesh2 s d b g r)
    {gm : List (Reg.Region Point)} (hl : ∀ r ∈ gm, r.type ≠ .LABELEDSET) {fr : Bool} {nc : Nat → List Nat} {pic : Point → Nat → Bool}
    {ds : Point → Point → Rat} (hnc : ∀ v, (nc v).Nodup ∧ ∀ c ∈ nc v, c < b.nx * b.ny) :
    (∀ nm id p0 p1 lc rg lab n w, mkBox nm id p0 p1 lc = .value rg → p0.d = 2 → findRegion gm n = some (regionOf lab rg) →
      (Fresh w .CELL (b.nx * b.ny) → SetIs (geoOf s.gmesh fr nc pic ds) gm w n .CELL (fun p : Nat × Nat => p.1 < b.nx ∧ p.2 < b.ny) (cell2At b)
        (fun p => InBox2 p0 p1 (mid2 d.X0 d.X1 d.NX (b.i0 + p.1)) (mid2 d.Y0 d.Y1 d.NY (b.j0 + p.2)))) ∧
      (Fresh w .NODE ((b.nx + 1) * (b.ny + 1)) →
        SetIs (geoOf s.gmesh fr nc pic ds) gm w n .NODE (fun p : Nat × Nat => p.1 < b.nx + 1 ∧ p.2 < b.ny + 1) (node2 b)
          (fun p => InBox2 p0 p1 (gridPt d.X0 d.X1 d.NX (b.i0 + p.1)) (gridPt d.Y0 d.Y1 d.NY (b.j0 + p.2)))) ∧
      (Fresh w .FACE g.edges.length → SetIs (geoOf s.gmesh fr nc pic ds) gm w n .FACE (fun e => e < g.edges.length) (fun e => e)
          (fun e => ∃ edge, g.edges[e]? = some edge ∧ InBox2 p0 p1 ((edge.v0.x + edge.v1.x) / 2) ((edge.v0.y + edge.v1.y) / 2)))) ∧
    (∀ nm id q v lc rg lab n w, mkPlane nm id q v lc = .value rg → q.d = 2 → findRegion gm n = some (regionOf lab rg) →
      (Fresh w .CELL (b.nx * b.ny) → SetIs (geoOf s.gmesh fr nc pic ds) gm w n .CELL (fun p : Nat × Nat => p.1 < b.nx ∧ p.2 < b.ny) (cell2At b)
        (fun p => ∀ i ∈ [p.1, p.1 + 1], ∀ j ∈ [p.2, p.2 + 1],
          OnLine2 q v (gridPt d.X0 d.X1 d.NX (b.i0 + i)) (gridPt d.Y0 d.Y1 d.NY (b.j0 + j)))) ∧
      (Fresh w .NODE ((b.nx + 1) * (b.ny + 1)) →
        SetIs (geoOf s.gmesh fr nc pic ds) gm w n .NODE (fun p : Nat × Nat => p.1 < b.nx + 1 ∧ p.2 < b.ny + 1) (node2 b)
          (fun p => OnLine2 q v (gridPt d.X0 d.X1 d.NX (b.i0 + p.1)) (gridPt d.Y0 d.Y1 d.NY (b.j0 + p.2)))) ∧
      (Fresh w .FACE g.edges.length → SetIs (geoOf s.gmesh fr nc pic ds) gm w n .FACE (fun e => e < g.edges.length) (fun e => e)
          (fun e => ∃ edge, g.edges[e]? = some edge ∧ OnLine2 q v edge.v0.x edge.v0.y ∧ OnLine2 q v edge.v1.x edge.v1.y))) := by
  have h2 : s.gmesh.manifoldDim = 2 := (gmesh_dim2 (h.flat hb)).1
  refine ⟨fun nm id p0 p1 lc rg lab n w hm hp hr => ?_, fun nm id q v lc rg lab n w hm hp hr => ?_⟩
  · obtain ⟨t, hin⟩ := regionOf_box2 hm hp lab
    refine ⟨fun hw => ?_, fun hw => ?_, fun hw => ?_⟩
    · refine setIs_of (hw.fits (fun _ => hnc) hl) hr (by rw [t]; rfl) fun e => ?_
      simp only [InRegion, t, MSet.MeshView.nAll, hw.counts.1, hw.counts.2, Nat.add_zero, geoOf]
      constructor
      · rintro ⟨k1, k2⟩
        obtain ⟨p, hq, rfl⟩ := cell_surj2 hb k1
        obtain ⟨cen, c1, c2, c3, c4⟩ := centroid_at2 hd hb h hq.1 hq.2
        rw [c1, hin _ c2, c3, c4] at k2
        exact ⟨p, hq, rfl, k2⟩
      · rintro ⟨p, hq, rfl, k2⟩
        obtain ⟨cen, c1, c2, c3, c4⟩ := centroid_at2 hd hb h hq.1 hq.2
        rw [c1, hin _ c2, c3, c4]
        exact ⟨pair_lt hq.1 hq.2, k2⟩
    · refine setIs_of (hw.fits (fun k => (by cases k)) hl) hr (by rw [t]; rfl) fun e => ?_
      simp only [InRegion, t, MSet.MeshView.nAll, hw.counts.1, hw.counts.2, Nat.add_zero, geoOf]
      constructor
      · rintro ⟨k1, k2⟩
        obtain ⟨p, hq, rfl⟩ := node_surj2 k1
        rw [node_at2 hd hb h hq.1 hq.2, hin _ rfl] at k2
        exact ⟨p, hq, rfl, k2⟩
      · rintro ⟨p, hq, rfl, k2⟩
        rw [node_at2 hd hb h hq.1 hq.2, hin _ rfl]
        exact ⟨pair_lt hq.1 hq.2, k2⟩
    · refine setIs_of (hw.fits (fun k => (by cases k)) hl) hr (by rw [t]; rfl) fun e => ?_
      simp only [InRegion, t, MSet.MeshView.nAll, hw.counts.1, hw.counts.2, Nat.add_zero, geoOf]
      constructor
      · rintro ⟨k1, k2⟩
        obtain ⟨-, cen, c1, c2, c3, c4⟩ := edge_at2 hb h (List.getElem?_eq_getElem k1)
        rw [c1, hin _ c2, c3, c4] at k2
        exact ⟨e, k1, rfl, _, List.getElem?_eq_getElem k1, k2⟩
      · rintro ⟨p, hq, rfl, edge, k1, k2⟩
        obtain ⟨-, cen, c1, c2, c3, c4⟩ := edge_at2 hb h k1
        rw [c1, hin _ c2, c3, c4]
        exact ⟨hq, k2⟩
  · obtain ⟨t, hin⟩ := regionOf_line hm hp lab
    refine ⟨fun hw => ?_, fun hw => ?_, fun hw => ?_⟩
    · refine setIs_of (hw.fits (fun _ => hnc) hl) hr (by rw [t]; rfl) fun e => ?_
      simp only [InRegion, t, MSet.MeshView.nAll, hw.counts.1, hw.counts.2, Nat.add_zero, geoOf, h2, true_and]
      have key : ∀ p : Nat × Nat, p.1 < b.nx → p.2 < b.ny → ((∀ x ∈ s.gmesh.cellCoords (cell2At b p), (regionOf lab rg).inside x = true) ↔
          ∀ i ∈ [p.1, p.1 + 1], ∀ j ∈ [p.2, p.2 + 1], OnLine2 q v (gridPt d.X0 d.X1 d.NX (b.i0 + i)) (gridPt d.Y0 d.Y1 d.NY (b.j0 + j))) := by
        rintro ⟨i, j⟩ hi hj
        rw [show cell2At b (i, j) = i * b.ny + j from rfl, coords_at2 hd hb h hi hj]
        simp only [rect, List.forall_mem_cons, List.not_mem_nil, false_imp_iff, implies_true, and_true]
        rw [hin _ rfl, hin _ rfl, hin _ rfl, hin _ rfl]
        simp only [mk2, ← Nat.add_assoc]
        tauto
      constructor
      · rintro ⟨k1, k2⟩
        obtain ⟨p, hq, rfl⟩ := cell_surj2 hb k1
        exact ⟨p, hq, rfl, (key p hq.1 hq.2).1 k2⟩
      · rintro ⟨p, hq, rfl, k2⟩
        exact ⟨pair_lt hq.1 hq.2, (key p hq.1 hq.2).2 k2⟩
    · refine setIs_of (hw.fits (fun k => (by cases k)) hl) hr (by rw [t]; rfl) fun e => ?_
      simp only [InRegion, t, MSet.MeshView.nAll, hw.counts.1, hw.counts.2, Nat.add_zero, geoOf]
      constructor
      · rintro ⟨k1, k2⟩
        obtain ⟨p, hq, rfl⟩ := node_surj2 k1
        rw [node_at2 hd hb h hq.1 hq.2, hin _ rfl] at k2
        exact ⟨p, hq, rfl, k2⟩
      · rintro ⟨p, hq, rfl, k2⟩
        rw [node_at2 hd hb h hq.1 hq.2, hin _ rfl]
        exact ⟨pair_lt hq.1 hq.2, k2⟩
    · refine setIs_of (hw.fits (fun k => (by cases k)) hl) hr (by rw [t]; rfl) fun e => ?_
      simp only [InRegion, t, MSet.MeshView.nAll, hw.counts.1, hw.counts.2, Nat.add_zero, geoOf]
      have key : ∀ e edge, g.edges[e]? = some edge → ((∀ x ∈ s.gmesh.faceCoords e, (regionOf lab rg).inside x = true) ↔
          OnLine2 q v edge.v0.x edge.v0.y ∧ OnLine2 q v edge.v1.x edge.v1.y) := by
        intro e edge k1
        simp only [(edge_at2 hb h k1).1, forall_eq_or_imp, forall_eq]
        rw [hin _ rfl, hin _ rfl]; rfl
      constructor
      · rintro ⟨k1, k2⟩
        exact ⟨e, k1, rfl, _, List.getElem?_eq_getElem k1, (key _ _ (List.getElem?_eq_getElem k1)).1 k2⟩
      · rintro ⟨p, hq, rfl, edge, k1, k2⟩
        exact ⟨hq, (key _ _ k1).2 k2⟩

/-- **C172** No cell is on a line, unless the cells or the normal are tiny: the products of the components of the normal with the sides of
the cells are at most 2e-12. -/
theorem cell_on_line {q v : Point} {p : Nat × Nat}
    (h : ∀ i ∈ [p.1, p.1 + 1], ∀ j ∈ [p.2, p.2 + 1], OnLine2 q v (gridPt d.X0 d.X1 d.NX (b.i0 + i)) (gridPt d.Y0 d.Y1 d.NY (b.j0 + j))) :
    |v.x * ((d.X1 - d.X0) / d.NX)| ≤ 2 / 10 ^ 12 ∧ |v.y * ((d.Y1 - d.Y0) / d.NY)| ≤ 2 / 10 ^ 12 := by
  have a := h p.1 (by simp) p.2 (by simp)
  have c := h (p.1 + 1) (by simp) p.2 (by simp)
  have e := h p.1 (by simp) (p.2 + 1) (by simp)
  have sx := gridPt_step d.X0 d.X1 d.NX (b.i0 + p.1)
  have sy := gridPt_step d.Y0 d.Y1 d.NY (b.j0 + p.2)
  simp only [OnLine2, ← Nat.add_assoc] at a c e
  rw [abs_le] at a c e
  rw [← sx, ← sy, abs_le, abs_le]
  constructor <;> constructor <;> nlinarith

/-- the line x = 1 -/
noncomputable def exLine : AnyRegion := .plane ⟨"L", 1, 1, .PERMANENT⟩ (mk2 1 0) (mk2 1 0)

/-- the second and third column of the mesh of 3 x 2 cells of (0,0) - (3,2): node 0 is on the line x = 1, node 3 is not -/
example : ∃ (s : Source ℝ) (g : RegMesh2 ℝ) (r : MeshCache.Request), RegularMesh2 s ⟨0, 0, 3, 2, 3, 2⟩ ⟨1, 0, 2, 2⟩ g r ∧ ∃ a w' x,
    Reg.build (geoOf s.gmesh true (fun _ => []) (fun _ _ => false) (fun _ _ => (0 : Rat))) [regionOf ([], []) exLine] 0 (freshWorld 9) "L" .NODE true =
      .ok (some a, w') ∧ w'.heap[a]? = some x ∧ 0 ∈ MSet.entities x .ALL ∧ 3 ∉ MSet.entities x .ALL := by
  have hb : GoodBlk2 (⟨0, 0, 3, 2, 3, 2⟩ : Dom2 ℝ) ⟨1, 0, 2, 2⟩ := ⟨by norm_num, by norm_num, by norm_num, by norm_num⟩
  have hd : GoodDom2 (⟨0, 0, 3, 2, 3, 2⟩ : Dom2 ℝ) := by constructor <;> norm_num
  obtain ⟨s, g, r, h, -⟩ := regular2_exists hb
  refine ⟨s, g, r, h, ?_⟩
  obtain ⟨-, h2⟩ := regular_region_sets2 hd hb h (gm := [regionOf ([], []) exLine]) (by simp [regionOf, exLine, AnyRegion.type])
    (fr := true) (nc := fun _ => []) (pic := fun _ _ => false) (ds := fun _ _ => 0) (by simp)
  obtain ⟨-, h3, -⟩ := h2 "L" 1 (mk2 1 0) (mk2 1 0) .PERMANENT exLine ([], []) "L" (freshWorld 9) (by simp [mkPlane, mk2, exLine]) rfl
    (by simp [findRegion, regionOf, exLine, AnyRegion.name, AnyRegion.base])
  obtain ⟨a, w', x, e1, e2, -, -, -, e3⟩ := h3 (fresh_freshWorld 9 .NODE) 0 true
  refine ⟨a, w', x, e1, e2, (e3 0).2 ⟨(0, 0), by simp, rfl, ?_⟩, fun k => ?_⟩
  · norm_num [OnLine2, mk2, gridPt]
  · obtain ⟨⟨i, j⟩, ⟨q1, q2⟩, e, k1⟩ := (e3 3).1 k
    simp only [node2] at e
    simp only at q1 q2
    have : i = 1 := by omega
    subst this
    norm_num [OnLine2, mk2, gridPt] at k1

end Jali.MstkGen
