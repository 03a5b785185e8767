import Verif.Props.MstkBuild2DGeom
import Verif.Props.MstkSideGeometry2
import Verif.Proof.WedgeCount
/-
C173 in the plane: sides, wedges and corners of regular MSTK meshes.
-/
namespace Jali.MstkGen
open Spec Jali.Mstk Jali.Geom Jali.Geom.Point Jali.Geom.Spec Jali.MeshGeom Jali.Sides Jali.Sides.Spec

variable {d : Dom2 ℝ} {b : Blk2} {s : Source ℝ} {g : RegMesh2 ℝ} {r : MeshCache.Request}

/-- a cell of a regular mesh in the plane is a rectangle, its centroid the middle -/
theorem cell_rect (hd : GoodDom2 d) (hb : GoodBlk2 d b) (h : RegularMesh2 s d b g r) {c : Types.Caches}
    (hc : Types.cacheExtra (s.base r) = some c) {cell : Nat} {f : Fin s.j.m.nf} (hr : (s.j.m.cmap s.j.bg).at cell = some f) :
    ∃ x0 x1 y0 y1 : ℝ, x0 < x1 ∧ y0 < y1 ∧ x1 - x0 = (d.X1 - d.X0) / d.NX ∧ y1 - y0 = (d.Y1 - d.Y0) / d.NY ∧
      s.corners f = rect x0 x1 y0 y1 ∧ ((s.coords c.types).cellCentroid cell).x = (x0 + x1) / 2 ∧
      ((s.coords c.types).cellCentroid cell).y = (y0 + y1) / 2 := by
  obtain ⟨rfl, ⟨G⟩⟩ := grid_of_build2 hb h.generated h.held
  obtain ⟨i, j, _, _, hf⟩ := G.fo_is f
  have hF := h.flat hb
  have hco := corners_rect hd G h.placed h.space hf
  obtain ⟨area, cen, h1, h2, _⟩ := area_of_mesh hF hr (by rw [G.four]; omega)
  have hx : gridPt d.X0 d.X1 d.NX (b.i0 + i) < gridPt d.X0 d.X1 d.NX (b.i0 + i + 1) := gridPt_lt hd.x hd.nx (by omega)
  have hy : gridPt d.Y0 d.Y1 d.NY (b.j0 + j) < gridPt d.Y0 d.Y1 d.NY (b.j0 + j + 1) := gridPt_lt hd.y hd.ny (by omega)
  rw [hco] at h2
  obtain ⟨hpos, ha, hmx, hmy⟩ := h2 (rect_star hx hy)
  obtain ⟨r1, r2, r3⟩ := rect_area (gridPt d.X0 d.X1 d.NX (b.i0 + i)) (gridPt d.X0 d.X1 d.NX (b.i0 + i + 1))
      (gridPt d.Y0 d.Y1 d.NY (b.j0 + j)) (gridPt d.Y0 d.Y1 d.NY (b.j0 + j + 1))
  rw [r1] at ha
  rw [r2, ← ha] at hmx
  rw [r3, ← ha] at hmy
  have hcen : (s.coords c.types).cellCentroid cell = cen := by
    obtain ⟨l', hl'⟩ := cellGet_some2 hF hr
    unfold Source.coords; dsimp only
    rw [hl', Option.bind_some]
    unfold Source.cellGeo
    rw [if_neg (real_type2 hF hc hr (by intro hbg; rw [h.plain] at hbg; cases hbg)), h1]; rfl
  refine ⟨_, _, _, _, hx, hy, gridPt_step _ _ _ _, gridPt_step _ _ _ _, hco, ?_, ?_⟩
  · rw [hcen]; exact mul_left_cancel₀ (ne_of_gt hpos) hmx
  · rw [hcen]; exact mul_left_cancel₀ (ne_of_gt hpos) hmy

theorem rect_orient {x0 x1 y0 y1 : ℝ} {C : Point} (cx : C.x = (x0 + x1) / 2) (cy : C.y = (y0 + y1) / 2) {e : Point × Point}
    (he : e ∈ polyEdges (rect x0 x1 y0 y1)) : orient2 C e.1 e.2 = (x1 - x0) * (y1 - y0) / 2 := by
  rw [rect_edges] at he
  simp only [List.mem_cons, List.not_mem_nil, or_false] at he
  rcases he with rfl | rfl | rfl | rfl <;> (simp only [orient2, mk2, cx, cy]; ring)

theorem rect_corner {x0 x1 y0 y1 : ℝ} (hx : x0 < x1) (hy : y0 < y1) {C : Point} (cx : C.x = (x0 + x1) / 2) (cy : C.y = (y0 + y1) / 2)
    {e f : Point × Point} (he : e ∈ polyEdges (rect x0 x1 y0 y1)) (hf : f ∈ polyEdges (rect x0 x1 y0 y1)) (hef : e.1 = f.2) :
    shoelace [e.1, SideGeom.Spec.mid2 e.1 e.2, C, SideGeom.Spec.mid2 f.1 f.2] = (x1 - x0) * (y1 - y0) / 4 := by
  have a := hx.ne
  have b := hy.ne
  have a' := hx.ne'
  have b' := hy.ne'
  rw [rect_edges] at he hf
  simp only [List.mem_cons, List.not_mem_nil, or_false] at he hf
  rcases he with rfl | rfl | rfl | rfl <;> rcases hf with rfl | rfl | rfl | rfl <;>
    first
    | (exfalso; simp [mk2, a, b, a', b'] at hef; done)
    | (simp only [shoelace, polyEdges, SideGeom.Spec.mid2, mk2, cx, cy, List.rotate_cons_succ, List.rotate_zero, List.cons_append,
        List.nil_append, List.zip_cons_cons, List.zip_nil_right, List.map_cons, List.map_nil, List.sum_cons, List.sum_nil]
       ring)

theorem edge_rect (hF : s.Flat r) {f : Fin s.j.m.nf} {x0 x1 y0 y1 : ℝ} (hco : s.corners f = rect x0 x1 y0 y1) {p : Fin s.j.m.ne × Bool}
    (hp : p ∈ (s.j.m.face f).edges) : (s.place (s.j.m.start p), s.place (s.j.m.finish p)) ∈ polyEdges (rect x0 x1 y0 y1) := by
  rw [← hco, corners_edges hF.polygons]
  exact List.mem_map.mpr ⟨p, hp, rfl⟩

/-- **C173** in the plane a side has a quarter of the area of a cell, and its normal is that of its face with respect to its cell -/
theorem regular_side2 (hd : GoodDom2 d) (hb : GoodBlk2 d b) (h : RegularMesh2 s d b g r) (hs : r.sides = true)
    (hfl : s.j.faceflip = s.j.edgeflip) {c : Types.Caches} {i : Info} (hc : Types.cacheExtra (s.base r) = some c) (hi : c.side = some i)
    (k : CornerInfo) {x : Nat} {rec : Rec} (hx : i.side x = some rec) :
    s.sideVolume r c i k x = some ((d.X1 - d.X0) * (d.Y1 - d.Y0) / (d.NX * d.NY) / 4) ∧
    s.sideNormal r c i k x = faceNormal s.gmesh rec.face (some rec.cell) := by
  have hF := h.flat hb
  obtain ⟨_, _, h4⟩ := generated_mesh2_is_polygonal d b hb g h.generated s.j.m h.held
  obtain ⟨f, p, hr, hp, _, _, H⟩ := plane_side_of_mesh hF hs hfl (fun f => by rw [h4 f]; omega) hc hi k hx
  obtain ⟨hv, hn, _⟩ := H (by intro hbg; rw [h.plain] at hbg; cases hbg)
  obtain ⟨x0, x1, y0, y1, hx', hy', ex, ey, hco, cx, cy⟩ := cell_rect hd hb h hc hr
  refine ⟨?_, hn⟩
  have hpos : 0 < (x1 - x0) * (y1 - y0) := mul_pos (sub_pos.2 hx') (sub_pos.2 hy')
  rw [hv, rect_orient cx cy (edge_rect hF hco hp), abs_of_pos (by linarith), ex, ey]
  congr 1; ring

/-- **C173** in the plane a wedge has half the area of a side -/
theorem regular_wedge2 (hd : GoodDom2 d) (hb : GoodBlk2 d b) (h : RegularMesh2 s d b g r) (hs : r.sides = true)
    (hfl : s.j.faceflip = s.j.edgeflip) {c : Types.Caches} {i : Info} (hc : Types.cacheExtra (s.base r) = some c) (hi : c.side = some i)
    (k : CornerInfo) {w : Nat} {rec : Rec} (hw : i.wedge w = some rec) :
    s.wedgeVolume r c i k w = some ((d.X1 - d.X0) * (d.Y1 - d.Y0) / (d.NX * d.NY) / 8) := by
  unfold Source.wedgeVolume
  rw [(regular_side2 hd hb h hs hfl hc hi k (x := w / 2) hw).1, Option.map_some]
  congr 1; ring

/-- **C173** in the plane a corner has a quarter of the area of a cell -/
theorem regular_corner2 (hd : GoodDom2 d) (hb : GoodBlk2 d b) (h : RegularMesh2 s d b g r) (hs : r.sides = true) (hco : r.corners = true)
    (hfl : s.j.faceflip = s.j.edgeflip) {c : Types.Caches} {i : Info} (hc : Types.cacheExtra (s.base r) = some c) (hi : c.side = some i) :
    ∃ k, c.corner = some k ∧ ∀ (cn cell : Nat), cornerGetCell i k cn = some cell → cell < g.faces.length →
      s.cornerVolume r c i k cn = some ((d.X1 - d.X0) * (d.Y1 - d.Y0) / (d.NX * d.NY) / 4) := by
  have hF := h.flat hb
  obtain ⟨_, _, h4⟩ := generated_mesh2_is_polygonal d b hb g h.generated s.j.m h.held
  obtain ⟨k, hk, H⟩ := plane_corner_of_mesh hF hs hco hfl (fun f => by rw [h4 f]; omega) hc hi
  refine ⟨k, hk, fun cn cell hcn hlt => ?_⟩
  obtain ⟨hg, ⟨G⟩⟩ := grid_of_build2 hb h.generated h.held
  rw [hg, ← G.flist, List.length_ofFn] at hlt
  have hat : (s.j.m.cmap s.j.bg).at cell = some ⟨cell, hlt⟩ := by
    rw [h.plain]; exact cmap_plain s.j.m (fun i => (G.fgid i).2) ⟨cell, hlt⟩
  obtain ⟨x0, x1, y0, y1, hx', hy', ex, ey, hcr, cx, cy⟩ := cell_rect hd hb h hc hat
  have hpos : 0 < (x1 - x0) * (y1 - y0) := mul_pos (sub_pos.2 hx') (sub_pos.2 hy')
  obtain ⟨p, q, hp, hq, hpq, _, _, hv, _⟩ := H cn cell ⟨cell, hlt⟩ hcn hat (by intro hbg; rw [h.plain] at hbg; cases hbg) (by
    intro p hp
    have := rect_orient cx cy (edge_rect hF hcr hp)
    dsimp only at this
    rw [this]; linarith)
  have := rect_corner hx' hy' cx cy (edge_rect hF hcr hp) (edge_rect hF hcr hq) (congrArg s.place hpq)
  dsimp only at this
  rw [hv, this, ex, ey]
  congr 1; ring

/-- **C173** a cell of a regular mesh in the plane has four sides and four corners -/
theorem regular_counts2 (hb : GoodBlk2 d b) (h : RegularMesh2 s d b g r) (hs : r.sides = true) (hco : r.corners = true)
    {c : Types.Caches} {i : Info} (hc : Types.cacheExtra (s.base r) = some c) (hi : c.side = some i) {cell : Nat}
    (hcell : cell < g.faces.length) :
    ∃ k ls lc, c.corner = some k ∧ i.cellGetSides cell = some ls ∧ ls.length = 4 ∧ ls.Nodup ∧ (∀ x ∈ ls, ∃ rec, i.side x = some rec ∧ rec.cell = cell) ∧
      k.cellCorners[cell]? = some lc ∧ lc.length = 4 ∧ lc.Nodup ∧ ∀ cn ∈ lc, cn < k.cornerWedges.length ∧ cornerGetCell i k cn = some cell := by
  have hF := h.flat hb
  obtain ⟨hci, hv, ho, hn⟩ := caches2 hF hs hc hi
  obtain ⟨k, hk, hck⟩ := corner_cache (by rw [base_eq2 hF]; exact mesh_ok2 s.j r hF.made hF.polygons hF.cells) hc hi
    (by rw [base_req]; exact hco) (by rw [base_req]; exact hs)
  rw [base_eq2 hF] at hck
  obtain ⟨hg, ⟨G⟩⟩ := grid_of_build2 hb h.generated h.held
  rw [hg, ← G.flist, List.length_ofFn] at hcell
  have hr : (s.j.m.cmap s.j.bg).at cell = some ⟨cell, hcell⟩ := by
    rw [h.plain]; exact cmap_plain s.j.m (fun i => (G.fgid i).2) ⟨cell, hcell⟩
  have hlt := (s.j.m.cnum s.j.bg).lt_of_at hr
  have hmem : cell ∈ (Types.source (s.j.base2 r) c.types).cells := by
    show cell ∈ (s.j.base2 r).cells.all
    rw [cells2_range]; exact List.mem_range.mpr hlt
  obtain ⟨lc, hlc, elc, hnd, hlin⟩ := corner_count hv hn hci hck hmem
  obtain ⟨i', e', _, _, _, _, hcs, _⟩ := sides_are_incidences _ hv
  rw [hci] at e'; cases e'
  obtain ⟨ls, hls, hpw, hlsin⟩ := hcs cell (hv.cells_lt cell hmem)
  refine ⟨k, ls, lc, hk, hls, ?_, hpw.imp fun h => Nat.ne_of_lt h, fun x hx => (hlsin x).mp hx, hlc, ?_, hnd, fun cn hcn => (hlin cn).mp hcn⟩
  · rw [side_count hv hci hmem hls]
    obtain ⟨hf, he⟩ := closure_sides hF.made.closed hs
    have e0 : (Types.source (s.j.base2 r) c.types).cellFaces cell = (s.j.m.face ⟨cell, hcell⟩).edges.map fun p =>
        (s.j.m.emap.id p.1 - 1, flipDir s.j.faceflip (s.j.m.emap.id p.1 - 1) p.2) := by
      show (s.j.cellGetFaces2 cell).getD [] = _
      rw [(public2 hF.ready).1 cell hlt, cellFaces2_eq hF.ready hr, Option.getD_some]
    rw [e0, List.map_map]
    have h1 : ∀ p ∈ (s.j.m.face ⟨cell, hcell⟩).edges, ((fun fd : Nat × Int => ((Types.source (s.j.base2 r) c.types).faceEdges fd.1).length) ∘
        fun p : Fin s.j.m.ne × Bool => (s.j.m.emap.id p.1 - 1, flipDir s.j.faceflip (s.j.m.emap.id p.1 - 1) p.2)) p = 1 := by
      intro p _
      have e1 : (Types.source (s.j.base2 r) c.types).faceEdges (s.j.m.emap.id p.1 - 1) = _ :=
        faceEdges2_of (r := r) hF.ready (hF.made.readyE he) p.1
      rw [Function.comp_apply, e1]; rfl
    rw [List.map_congr_left h1, List.map_const', List.sum_replicate, G.four]; rfl
  · rw [elc, cell_nodes2 hr, List.length_map, List.length_map, G.four]

/-- on one rank every block of every grid in the plane is a regular mesh without flipped faces -/
theorem regular2_exists_serial (hb : GoodBlk2 d b) : ∃ (s : Source ℝ) (g : RegMesh2 ℝ) (r : MeshCache.Request),
    RegularMesh2 s d b g r ∧ g.faces.length = b.nx * b.ny ∧ r.sides = true ∧ r.corners = true ∧ s.j.faceflip = s.j.edgeflip := by
  obtain ⟨m, h1, ⟨G⟩⟩ := build_grid2 d b hb.nx hb.ny
  refine ⟨⟨⟨m, true, true, false, true, List.replicate m.ne false, List.replicate m.ne false⟩, false, 2,
    fun v => ⟨(G.vo v).x, (G.vo v).y, 0⟩⟩, genOf2 d b, MeshCache.closure ⟨true, true, true, true, true⟩,
    ⟨⟨⟨_, rfl⟩, rfl, rfl, fun _ => by simp, fun _ => by simp⟩, rfl, rfl, rfl, rfl,
      generate2_eq d hb.nx hb.ny, h1, fun v => ⟨_, Grid2.lookup G.vlist v, rfl, rfl⟩⟩, ?_, rfl, rfl, rfl⟩
  show ((loopIdx2 b.nx b.ny).map (mkFace d b)).length = _
  rw [List.length_map]
  simp [loopIdx2]

/-- the hypotheses are met: sides and corners of a cell of a block of a grid of cells with area 1/2 -/
example : ∃ (s : Source ℝ) (g : RegMesh2 ℝ) (r : MeshCache.Request) (c : Types.Caches) (i : Info) (k : CornerInfo) (ls lc : List Nat),
    RegularMesh2 s ⟨0, 0, 1, 3, 3, 2⟩ ⟨1, 0, 2, 2⟩ g r ∧ Types.cacheExtra (s.base r) = some c ∧ c.side = some i ∧
      c.corner = some k ∧ i.cellGetSides 3 = some ls ∧ ls.length = 4 ∧ k.cellCorners[3]? = some lc ∧ lc.length = 4 ∧
      (∀ x ∈ ls, s.sideVolume r c i k x = some (1 / 8)) ∧ ∀ cn ∈ lc, s.cornerVolume r c i k cn = some (1 / 8) := by
  have hd : GoodDom2 (⟨0, 0, 1, 3, 3, 2⟩ : Dom2 ℝ) := ⟨by norm_num, by norm_num, by norm_num, by norm_num⟩
  have hb : GoodBlk2 (⟨0, 0, 1, 3, 3, 2⟩ : Dom2 ℝ) ⟨1, 0, 2, 2⟩ := ⟨by norm_num, by norm_num, by norm_num, by norm_num⟩
  obtain ⟨s, g, r, h, hlen, hs, hco, hfl⟩ := regular2_exists_serial hb
  obtain ⟨c, i, hc, hi⟩ := caches2_exist (h.flat hb) hs
  obtain ⟨k, ls, lc, hk, hls, h24, _, hrec, hlc, h8, _, hcn⟩ := regular_counts2 hb h hs hco hc hi (cell := 3) (by rw [hlen]; norm_num)
  refine ⟨s, g, r, c, i, k, ls, lc, h, hc, hi, hk, hls, h24, hlc, h8, fun x hx => ?_, fun cn hc' => ?_⟩
  · obtain ⟨rec, hrec, _⟩ := hrec x hx
    rw [(regular_side2 hd hb h hs hfl hc hi k hrec).1]
    norm_num
  · obtain ⟨k', hk', H⟩ := regular_corner2 hd hb h hs hco hfl hc hi
    rw [hk] at hk'; cases hk'
    rw [H cn 3 (hcn cn hc').2 (by rw [hlen]; norm_num)]
    norm_num

end Jali.MstkGen
