import Verif.Props.MstkBuild2D
import Verif.Props.MstkBuildGeom
/-
C156, geometry: areas, centroids and normals of the cells of a regular mesh in the plane.
-/
namespace Jali.MstkGen
open Spec Jali.Mstk Jali.Geom Jali.Geom.Point Jali.Geom.Spec Jali.MeshGeom

/-- a block of a regular mesh in the plane, as made by the constructor of regular meshes of Mesh_MSTK (Mesh_MSTK.cc:384-512) with
faces requested: MSTK holds the generated mesh `g` -/
structure RegularMesh2 (s : Source ℝ) (d : Dom2 ℝ) (b : Blk2) (g : RegMesh2 ℝ) (r : MeshCache.Request) : Prop where
  made : s.j.Made2 r
  faces : r.faces = true
  dim : s.dim3 = false
  space : s.spaceDim = 2
  plain : s.j.bg = false
  generated : generate2 d b = some g
  held : build2 g = some s.j.m
  placed : Placed2 s g

variable {d : Dom2 ℝ} {b : Blk2} {s : Source ℝ} {g : RegMesh2 ℝ} {r : MeshCache.Request}

/-- a regular mesh is a mesh as assumed in property C132 -/
theorem RegularMesh2.flat (hb : GoodBlk2 d b) (h : RegularMesh2 s d b g r) : s.Flat r := by
  obtain ⟨h1, h2, _⟩ := generated_mesh2_is_polygonal d b hb g h.generated s.j.m h.held
  exact ⟨h.made, h.faces, h.dim, h.space, h1, h2⟩

theorem place_pt2 (G : Grid2 d b s.j.m) (hp : Placed2 s (genOf2 d b)) (h2 : s.spaceDim = 2) (v : Fin s.j.m.nv) :
    s.place v = mk2 (G.vo v).x (G.vo v).y := by
  obtain ⟨w, hw, hx, hy⟩ := hp v
  rw [Grid2.lookup G.vlist] at hw
  cases hw
  unfold Source.place
  rw [if_neg (by omega), hx, hy]

/-- the rectangle, counterclockwise from the lower left -/
noncomputable def rect (x0 x1 y0 y1 : ℝ) : List Point := [mk2 x0 y0, mk2 x1 y0, mk2 x1 y1, mk2 x0 y1]

theorem rect_edges (x0 x1 y0 y1 : ℝ) : polyEdges (rect x0 x1 y0 y1) =
    [(mk2 x0 y0, mk2 x1 y0), (mk2 x1 y0, mk2 x1 y1), (mk2 x1 y1, mk2 x0 y1), (mk2 x0 y1, mk2 x0 y0)] := by
  simp [polyEdges, rect]

theorem rect_star {x0 x1 y0 y1 : ℝ} (hx : x0 < x1) (hy : y0 < y1) : StarShaped (rect x0 x1 y0 y1) := by
  intro e he
  rw [rect_edges] at he
  have hp : 0 < (x1 - x0) * (y1 - y0) := mul_pos (sub_pos.2 hx) (sub_pos.2 hy)
  have hm : vertexMean 2 (rect x0 x1 y0 y1) = ⟨2, (x0 + x1) / 2, (y0 + y1) / 2, 0⟩ := by
    simp only [vertexMean, mean, rect, mk2, List.map_cons, List.map_nil, List.sum_cons, List.sum_nil, List.length_cons, List.length_nil,
      Point.mk.injEq, true_and]
    refine ⟨?_, ?_, ?_⟩ <;> (push_cast; ring)
  have key : ∀ e ∈ polyEdges (rect x0 x1 y0 y1), orient2 (vertexMean 2 (rect x0 x1 y0 y1)) e.1 e.2 = (x1 - x0) * (y1 - y0) / 2 := by
    intro e he
    rw [rect_edges] at he
    rw [hm]
    simp only [List.mem_cons, List.not_mem_nil, or_false] at he
    rcases he with rfl | rfl | rfl | rfl <;> (simp only [orient2, mk2]; ring)
  have := key e (by rw [rect_edges]; exact he)
  linarith

theorem rect_area (x0 x1 y0 y1 : ℝ) : shoelace (rect x0 x1 y0 y1) = (x1 - x0) * (y1 - y0) ∧
    momentX (rect x0 x1 y0 y1) = (x1 - x0) * (y1 - y0) * ((x0 + x1) / 2) ∧
    momentY (rect x0 x1 y0 y1) = (x1 - x0) * (y1 - y0) * ((y0 + y1) / 2) := by
  unfold shoelace momentX momentY
  rw [rect_edges]
  simp only [List.map_cons, List.map_nil, List.sum_cons, List.sum_nil, mk2]
  refine ⟨?_, ?_, ?_⟩ <;> ring

theorem corners_rect (hd : GoodDom2 d) (G : Grid2 d b s.j.m) (hp : Placed2 s (genOf2 d b)) (h2 : s.spaceDim = 2) {f : Fin s.j.m.nf}
    {i j : Nat} (hf : G.fo f = mkFace d b (i, j)) :
    s.corners f = rect (gridPt d.X0 d.X1 d.NX (b.i0 + i)) (gridPt d.X0 d.X1 d.NX (b.i0 + i + 1))
      (gridPt d.Y0 d.Y1 d.NY (b.j0 + j)) (gridPt d.Y0 d.Y1 d.NY (b.j0 + j + 1)) := by
  have e : s.corners f = (((s.j.m.face f).edges.map s.j.m.start).map G.vo).map fun v => mk2 v.x v.y := by
    unfold Source.corners
    conv_rhs => rw [List.map_map]
    exact List.map_congr_left fun v _ => place_pt2 G hp h2 v
  rw [e, G.starts hf]
  simp only [List.map_cons, List.map_nil, (vx d hd b _ _).1, (vx d hd b _ _).2]
  rfl

/-- **C156** the area of a cell is the area of the domain divided by the number of cells in it, also the product of the extents of the cell
along the axes; the centroid is the middle between the first and the third corner -/
theorem generated_cell_area (hd : GoodDom2 d) (hb : GoodBlk2 d b) (h : RegularMesh2 s d b g r) {c : Nat} {cell : Face2 ℝ}
    (hc : g.faces[c]? = some cell) :
    ∃ lo hi area cen, (cell.es.map start)[0]? = some lo ∧ (cell.es.map start)[2]? = some hi ∧
      computeCellGeometry s.gmesh c = some (area, cen) ∧ area = (hi.x - lo.x) * (hi.y - lo.y) ∧
      area = (d.X1 - d.X0) * (d.Y1 - d.Y0) / (d.NX * d.NY) ∧ cen.x = (lo.x + hi.x) / 2 ∧ cen.y = (lo.y + hi.y) / 2 := by
  obtain ⟨rfl, ⟨G⟩⟩ := grid_of_build2 hb h.generated h.held
  have hc' := (List.getElem?_eq_some_iff.mp hc).1
  rw [← G.flist, List.length_ofFn] at hc'
  have e : G.fo ⟨c, hc'⟩ = cell := Option.some.inj ((Grid2.lookup G.flist ⟨c, hc'⟩).symm.trans hc)
  obtain ⟨i, j, _, _, hf⟩ := G.fo_is ⟨c, hc'⟩
  have hat : (s.j.m.cmap s.j.bg).at c = some ⟨c, hc'⟩ := by
    rw [h.plain]; exact cmap_plain s.j.m (fun i => (G.fgid i).2) ⟨c, hc'⟩
  have hco := corners_rect hd G h.placed h.space hf
  obtain ⟨area, cen, h1, h2, _⟩ := area_of_mesh (h.flat hb) hat (by rw [G.four]; omega)
  have hx : gridPt d.X0 d.X1 d.NX (b.i0 + i) < gridPt d.X0 d.X1 d.NX (b.i0 + i + 1) := gridPt_lt hd.x hd.nx (by omega)
  have hy : gridPt d.Y0 d.Y1 d.NY (b.j0 + j) < gridPt d.Y0 d.Y1 d.NY (b.j0 + j + 1) := gridPt_lt hd.y hd.ny (by omega)
  rw [hco] at h2
  obtain ⟨hpos, ha, hmx, hmy⟩ := h2 (rect_star hx hy)
  obtain ⟨r1, r2, r3⟩ := rect_area (gridPt d.X0 d.X1 d.NX (b.i0 + i)) (gridPt d.X0 d.X1 d.NX (b.i0 + i + 1))
      (gridPt d.Y0 d.Y1 d.NY (b.j0 + j)) (gridPt d.Y0 d.Y1 d.NY (b.j0 + j + 1))
  rw [r1] at ha
  rw [r2, ← ha] at hmx
  rw [r3, ← ha] at hmy
  have hst : cell.es.map start = [mkVert2 d b i j, mkVert2 d b (i + 1) j, mkVert2 d b (i + 1) (j + 1), mkVert2 d b i (j + 1)] := by
    rw [← e, hf]
    rcases i with _ | i <;> rcases j with _ | j <;> simp [mkFace, start, hE, vE, bot, rgt, top, lft]
  refine ⟨mkVert2 d b i j, mkVert2 d b (i + 1) (j + 1), area, cen, by rw [hst]; rfl, by rw [hst]; rfl, h1, ?_, ?_, ?_, ?_⟩
  · simp only [(vx d hd b _ _).1, (vx d hd b _ _).2]; exact ha
  · rw [ha, gridPt_step, gridPt_step]; ring
  · simp only [(vx d hd b _ _).1]; exact mul_left_cancel₀ (ne_of_gt hpos) hmx
  · simp only [(vx d hd b _ _).2]; exact mul_left_cancel₀ (ne_of_gt hpos) hmy

/-- **C156** the outward normals of the four sides of a cell, in the order of `cell_get_faces`: bottom, right, top, left, each with the
length of the side -/
theorem generated_cell_normals2 (hd : GoodDom2 d) (hb : GoodBlk2 d b) (h : RegularMesh2 s d b g r) {c : Nat} {cell : Face2 ℝ}
    (hc : g.faces[c]? = some cell) :
    let dx := (d.X1 - d.X0) / d.NX
    let dy := (d.Y1 - d.Y0) / d.NY
    (s.gmesh.cellFaces c).mapM (fun fd => faceNormal s.gmesh fd.1 (some c)) = some [mk2 0 (-dx), mk2 dy 0, mk2 0 dx, mk2 (-dy) 0] := by
  intro dx dy
  obtain ⟨rfl, ⟨G⟩⟩ := grid_of_build2 hb h.generated h.held
  have hc' := (List.getElem?_eq_some_iff.mp hc).1
  rw [← G.flist, List.length_ofFn] at hc'
  obtain ⟨i, j, _, _, hf⟩ := G.fo_is ⟨c, hc'⟩
  have hat : (s.j.m.cmap s.j.bg).at c = some ⟨c, hc'⟩ := by
    rw [h.plain]; exact cmap_plain s.j.m (fun i => (G.fgid i).2) ⟨c, hc'⟩
  have hs := h.flat hb
  rw [gmesh_cellFaces2 hs hat, mapM_bind_map]
  rw [mapM_total (g := fun p => edgeNormal (s.place (s.j.m.start p)) (s.place (s.j.m.finish p))) fun p hp => plane_normals_of_mesh hs hat hp]
  have e1 : (s.j.m.face ⟨c, hc'⟩).edges.map (fun p => edgeNormal (s.place (s.j.m.start p)) (s.place (s.j.m.finish p))) =
      ((s.j.m.face ⟨c, hc'⟩).edges.map fun p => (G.eo p.1, p.2)).map fun q =>
        edgeNormal (mk2 (start q).x (start q).y) (mk2 (finish q).x (finish q).y) := by
    rw [List.map_map]
    refine List.map_congr_left fun p _ => ?_
    simp only [Function.comp_apply, place_pt2 G h.placed h.space, G.start, G.finish]
  rw [e1, G.es, hf]
  have hx := gridPt_step d.X0 d.X1 d.NX (b.i0 + i)
  have hy := gridPt_step d.Y0 d.Y1 d.NY (b.j0 + j)
  have key : ∀ l : List (Edge2 ℝ × Bool), (l.map fun q => edgeNormal (mk2 (start q).x (start q).y) (mk2 (finish q).x (finish q).y)) =
      ((l.map start).zip (l.map finish)).map fun q => edgeNormal (mk2 q.1.x q.1.y) (mk2 q.2.x q.2.y) := by
    intro l
    induction l with
    | nil => rfl
    | cons a l ih => simp only [List.map_cons, List.zip_cons_cons, ih]
  have hst : (mkFace d b (i, j)).es.map start =
      [mkVert2 d b i j, mkVert2 d b (i + 1) j, mkVert2 d b (i + 1) (j + 1), mkVert2 d b i (j + 1)] := by
    rcases i with _ | i <;> rcases j with _ | j <;> simp [mkFace, start, hE, vE, bot, rgt, top, lft]
  have hfi : (mkFace d b (i, j)).es.map finish =
      [mkVert2 d b (i + 1) j, mkVert2 d b (i + 1) (j + 1), mkVert2 d b i (j + 1), mkVert2 d b i j] := by
    rcases i with _ | i <;> rcases j with _ | j <;> simp [mkFace, finish, hE, vE, bot, rgt, top, lft]
  rw [key, hst, hfi]
  simp only [List.zip_cons_cons, List.zip_nil_right, List.map_cons, List.map_nil, edgeNormal, (vx d hd b _ _).1, (vx d hd b _ _).2]
  congr 1
  simp only [List.cons.injEq, and_true, mk2, Point.mk.injEq, true_and]
  rw [show b.i0 + (i + 1) = b.i0 + i + 1 by omega, show b.j0 + (j + 1) = b.j0 + j + 1 by omega]
  refine ⟨⟨?_, ?_⟩, ⟨?_, ?_⟩, ⟨?_, ?_⟩, ?_, ?_⟩ <;> first | linarith | (simp only [dx, dy]; linarith)

/-- **C156** the areas of all cells add up to the area of the block -/
theorem generated_total_area (hd : GoodDom2 d) (hb : GoodBlk2 d b) (h : RegularMesh2 s d b g r) :
    ∃ as : List (ℝ × Point), (List.range g.faces.length).mapM (computeCellGeometry s.gmesh) = some as ∧ (∀ v ∈ as, 0 < v.1) ∧
      (as.map Prod.fst).sum = (gridPt d.X0 d.X1 d.NX (b.i0 + b.nx) - gridPt d.X0 d.X1 d.NX b.i0) *
        (gridPt d.Y0 d.Y1 d.NY (b.j0 + b.ny) - gridPt d.Y0 d.Y1 d.NY b.j0) := by
  have key : ∀ c ∈ List.range g.faces.length, ∃ v : ℝ × Point, computeCellGeometry s.gmesh c = some v ∧
      v.1 = (d.X1 - d.X0) * (d.Y1 - d.Y0) / (d.NX * d.NY) := by
    intro c hc
    rw [List.mem_range] at hc
    obtain ⟨_, _, vol, cen, _, _, h1, _, h2, _⟩ := generated_cell_area hd hb h (List.getElem?_eq_getElem hc)
    exact ⟨_, h1, h2⟩
  have hpos : 0 < (d.X1 - d.X0) * (d.Y1 - d.Y0) / (d.NX * d.NY : ℝ) := by
    have := hd.nx
    have := hd.ny
    have := sub_pos.2 hd.x
    have := sub_pos.2 hd.y
    positivity
  obtain ⟨as, h1, h2, h3⟩ := mapM_const (computeCellGeometry s.gmesh) _ _ key
  refine ⟨as, h1, fun v hv => by rw [h2 v hv]; exact hpos, ?_⟩
  rw [sum_const _ _ h2, h3, List.length_range]
  obtain ⟨rfl, _⟩ := grid_of_build2 hb h.generated h.held
  have hlen : (genOf2 d b).faces.length = b.nx * b.ny := by
    show ((loopIdx2 b.nx b.ny).map (mkFace d b)).length = _
    rw [List.length_map]
    simp [loopIdx2]
  rw [hlen]
  have := hd.nx
  have := hd.ny
  unfold gridPt
  push_cast
  field_simp
  ring

/-- the hypotheses are met: every block of every grid is a regular mesh -/
theorem regular2_exists (hb : GoodBlk2 d b) : ∃ (s : Source ℝ) (g : RegMesh2 ℝ) (r : MeshCache.Request),
    RegularMesh2 s d b g r ∧ g.faces.length = b.nx * b.ny := by
  obtain ⟨m, h1, ⟨G⟩⟩ := build_grid2 d b hb.nx hb.ny
  refine ⟨⟨⟨m, true, true, false, true, List.replicate m.ne false, List.replicate m.ne false⟩, false, 2,
    fun v => ⟨(G.vo v).x, (G.vo v).y, 0⟩⟩, genOf2 d b, MeshCache.closure ⟨true, true, true, true, true⟩,
    ⟨⟨⟨_, rfl⟩, rfl, rfl, fun _ => by simp, fun _ => by simp⟩, rfl, rfl, rfl, rfl,
      generate2_eq d hb.nx hb.ny, h1, fun v => ⟨_, Grid2.lookup G.vlist v, rfl, rfl⟩⟩, ?_⟩
  show ((loopIdx2 b.nx b.ny).map (mkFace d b)).length = _
  rw [List.length_map]
  simp [loopIdx2]

example : ∃ (s : Source ℝ) (g : RegMesh2 ℝ) (r : MeshCache.Request),
    RegularMesh2 s ⟨0, 0, 1, 2, 3, 2⟩ ⟨1, 0, 2, 2⟩ g r ∧ g.faces.length = 4 :=
  regular2_exists ⟨by norm_num, by norm_num, by norm_num, by norm_num⟩

end Jali.MstkGen
