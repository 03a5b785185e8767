import Verif.Proof.RegularSides
import Verif.Proof.WedgeCount
/-
C173: sides, wedges and corners of regular MSTK meshes.
-/
namespace Jali.MstkGen
open Spec Jali.Mstk Jali.Geom Jali.Geom.Point Jali.Geom.Spec Jali.MeshGeom Jali.Sides Jali.Sides.Spec

variable {d : Dom ℝ} {b : Blk} {s : Source ℝ} {g : RegMesh ℝ} {r : MeshCache.Request}

/-- every region of a regular mesh is a cell of the generated mesh -/
theorem region_box (hd : GoodDom d) (hb : GoodBlk d b) (h : RegularMesh s d b g r) {c : Nat} {rg : Fin s.j.m.nr}
    (hr : (s.j.m.rmap s.j.bg).at c = some rg) :
    ∃ (G : Grid d b s.j.m) (I J L : Nat), g = genOf d b ∧ G.ro rg = RG d I J L := by
  obtain ⟨rfl, ⟨G⟩⟩ := grid_of_build hd hb h.generated h.held
  obtain ⟨I, J, L, hr, _⟩ := G.ro_is rg
  exact ⟨G, I, J, L, rfl, hr⟩

/-- the centroid of a cell as reported to the geometry of sides -/
theorem centroid_reported (h : s.Solid r) {c : Types.Caches} (hc : Types.cacheExtra (s.base r) = some c) {cell : Nat} {rg : Fin s.j.m.nr}
    (hr : (s.j.m.rmap s.j.bg).at cell = some rg) (hreal : s.j.Real3 rg) {vol : ℝ} {cen : Point}
    (e : computeCellGeometry s.gmesh cell = some (vol, cen)) : (s.coords c.types).cellCentroid cell = cen := by
  obtain ⟨l', hl'⟩ := cellGet_some h hr
  unfold Source.coords; dsimp only
  rw [hl', Option.bind_some]
  unfold Source.cellGeo
  rw [if_neg (real_type3 h hc hr hreal), e]; rfl

/-- **C173** a side of a regular mesh in space without flipped faces has 1/24 of the volume of a cell, and its normal is a quarter of the
normal of its face with respect to its cell -/
theorem regular_side (hd : GoodDom d) (hb : GoodBlk d b) (h : RegularMesh s d b g r) (hs : r.sides = true)
    (hfl : ∀ f, s.j.isFlipped f = false) {c : Types.Caches} {i : Info} (hc : Types.cacheExtra (s.base r) = some c) (hi : c.side = some i)
    (k : CornerInfo) {x : Nat} {rec : Rec} (hx : i.side x = some rec) :
    s.sideVolume r c i k x = some ((d.X1 - d.X0) * (d.Y1 - d.Y0) * (d.Z1 - d.Z0) / (d.NX * d.NY * d.NZ) / 24) ∧
    ∃ n, faceNormal s.gmesh rec.face (some rec.cell) = some n ∧ s.sideNormal r c i k x = some ⟨3, n.x / 4, n.y / 4, n.z / 4⟩ := by
  have hS := h.solid hd hb
  obtain ⟨rg, q, p, hr, hq, hqf, hp, hpe, H⟩ := side_of_mesh hS hs hc hi k hx
  have hreal : s.j.Real3 rg := by intro hbg; rw [h.plain] at hbg; cases hbg
  obtain ⟨hv, hn⟩ := (H hreal).1 (hfl q.1)
  obtain ⟨G, I, J, L, rfl, hro⟩ := region_box hd hb h hr
  obtain ⟨cen, e, ex, ey, ez⟩ := cell_box hS hd hb G h.placed hr hro
  have hcen := centroid_reported hS hc hr hreal e
  have hsurf := surface_box hd G h.placed h.space rg hro
  have hm : s.outward q ∈ s.surface rg := List.mem_map_of_mem hq
  rw [hsurf] at hm
  have px : gx d I < gx d (I + 1) := gridPt_lt hd.x hd.nx (Nat.lt_succ_self I)
  have py : gy d J < gy d (J + 1) := gridPt_lt hd.y hd.ny (Nat.lt_succ_self J)
  have pz : gz d L < gz d (L + 1) := gridPt_lt hd.z hd.nz (Nat.lt_succ_self L)
  obtain ⟨mx, my, mz, n, hn0, hpara, hall⟩ := box_tets px py pz ex ey ez hm
  obtain ⟨ht, ha⟩ := hall _ (outward_mem hS.polygons hp)
  have hF := centroid_para hS c.types q hn0 hpara
  rw [hqf] at hF
  rw [hF, hcen] at hv
  rw [hF] at hn
  refine ⟨?_, areaVector (s.outward q), ?_, ?_⟩
  · rw [hv]
    refine congrArg some (ht.trans ?_)
    simp only [gx, gy, gz, gridPt_step]; ring
  · rw [← hqf]; exact normals_of_mesh hS hr hq
  · rw [hn]; exact congrArg some ha

/-- **C173** a wedge has half the volume of a side -/
theorem regular_wedge (hd : GoodDom d) (hb : GoodBlk d b) (h : RegularMesh s d b g r) (hs : r.sides = true)
    (hfl : ∀ f, s.j.isFlipped f = false) {c : Types.Caches} {i : Info} (hc : Types.cacheExtra (s.base r) = some c) (hi : c.side = some i)
    (k : CornerInfo) {w : Nat} {rec : Rec} (hw : i.wedge w = some rec) :
    s.wedgeVolume r c i k w = some ((d.X1 - d.X0) * (d.Y1 - d.Y0) * (d.Z1 - d.Z0) / (d.NX * d.NY * d.NZ) / 48) := by
  unfold Source.wedgeVolume
  rw [(regular_side hd hb h hs hfl hc hi k (x := w / 2) hw).1, Option.map_some]
  congr 1; ring

/-- two vertices of a regular mesh do not lie at the same place -/
theorem place_inj (hd : GoodDom d) (hb : GoodBlk d b) (G : Grid d b s.j.m) (hp : Placed s (genOf d b)) (h3 : s.spaceDim = 3) :
    Function.Injective s.place := by
  have hV : ∀ v, ∃ I J L, G.vo v = V d I J L := by
    intro v
    have hm : G.vo v ∈ (genOf d b).verts := by rw [← G.vlist]; exact List.mem_ofFn.mpr ⟨v, rfl⟩
    obtain ⟨t, _, ht⟩ := List.mem_map.mp hm
    exact ⟨_, _, _, ht.symm⟩
  intro v w hvw
  obtain ⟨I, J, L, hv⟩ := hV v
  obtain ⟨I', J', L', hw⟩ := hV w
  rw [place_pt G hp h3, place_pt G hp h3, hv, hw, pt_V hd, pt_V hd] at hvw
  simp only [mk3, Point.mk.injEq, true_and] at hvw
  obtain ⟨e1, e2, e3⟩ := hvw
  have e1 := gridPt_inj hd.x hd.nx e1
  have e2 := gridPt_inj hd.y hd.ny e2
  have e3 := gridPt_inj hd.z hd.nz e3
  subst e1 e2 e3
  exact G.vinj hb (hv.trans hw.symm)

/-- edges of the faces of a cell that end at a vertex, in a mesh of polyhedra -/
theorem ends_count (h : s.Solid r) (hs : r.sides = true) (t : Types.TypeInfo) {cell : Nat} {rg : Fin s.j.m.nr}
    (hr : (s.j.m.rmap s.j.bg).at cell = some rg) (v : Fin s.j.m.nv) :
    (endsAt (Types.source (s.j.base3 r) t) cell (s.j.m.vmap.id v - 1)).length =
      ((s.j.m.region rg).faces.map fun q => (s.j.m.face q.1).edges.countP fun p =>
        decide (s.j.m.start p = v) || decide (s.j.m.finish p = v)).sum := by
  obtain ⟨hf, he⟩ := closure_sides h.made.closed hs
  have hlt := (s.j.m.rnum s.j.bg).lt_of_at hr
  have e0 : (Types.source (s.j.base3 r) t).cellFaces cell = (s.j.m.region rg).faces.map fun q =>
      (s.j.m.fmap.id q.1 - 1, flipDir s.j.faceflip (s.j.m.fmap.id q.1 - 1) q.2) := by
    show (s.j.cellGetFaces3 cell).getD [] = _
    rw [(public3 h.ready).1 cell hlt, cellFaces3_eq h.ready hr, Option.getD_some]
  unfold endsAt
  rw [e0, List.flatMap_map, List.length_flatMap]
  refine congrArg List.sum (List.map_congr_left fun q _ => ?_)
  have e1 : (Types.source (s.j.base3 r) t).faceEdges (s.j.m.fmap.id q.1 - 1) = _ :=
    faceEdges3_of (r := r) h.ready (h.made.readyE he) q.1
  rw [List.length_map, ← List.countP_eq_length_filter, e1, List.countP_map]
  refine List.countP_congr fun p _ => ?_
  have hue := used_edge3 (r := r) (h.made.readyE he) t p
  have hid : ∀ u, s.j.m.vmap.id u - 1 = s.j.m.vmap.id v - 1 ↔ u = v := by
    intro u
    constructor
    · intro e
      have h1 := s.j.m.vnum.at_id u
      have h2 := s.j.m.vnum.at_id v
      rw [e, h2] at h1
      exact (Option.some.inj h1).symm
    · rintro rfl; rfl
  simp only [Function.comp, Bool.or_eq_true, decide_eq_true_eq]
  rw [← hid (s.j.m.start p), ← hid (s.j.m.finish p)]
  unfold SideGeom.Spec.usedEdge at hue
  dsimp only at hue
  split at hue
  · rw [hue]
  · have h1 := congrArg Prod.swap hue
    rw [Prod.swap_swap] at h1
    rw [h1]
    exact or_comm

/-- the ends of an edge of a face of a cell are different -/
theorem ends_differ (h : s.Solid r) (hs : r.sides = true) (t : Types.TypeInfo) {c f e : Nat}
    (hI : Incident (Types.source (s.j.base3 r) t) c f e) :
    ((Types.source (s.j.base3 r) t).edgeNodes e).1 ≠ ((Types.source (s.j.base3 r) t).edgeNodes e).2 := by
  obtain ⟨hf, he⟩ := closure_sides h.made.closed hs
  obtain ⟨⟨fd, hface⟩, ed, hed⟩ := hI
  obtain ⟨rg, q, _, _, rfl, _⟩ := (hasFace3 h.ready c f fd).mp hface
  have e1 : (Types.source (s.j.base3 r) t).faceEdges (s.j.m.fmap.id q.1 - 1) = _ :=
    faceEdges3_of (r := r) h.ready (h.made.readyE he) q.1
  rw [e1] at hed
  obtain ⟨p, _, ep⟩ := List.mem_map.mp hed
  have hue := used_edge3 (r := r) (h.made.readyE he) t p
  obtain ⟨ep1, ep2⟩ := Prod.mk.inj ep
  subst ep1
  have hne : s.j.m.start p ≠ s.j.m.finish p := by
    have := h.polygons.ends p.1
    obtain ⟨e, b⟩ := p
    cases b
    · exact fun e => this e.symm
    · exact this
  have hne' : s.j.m.vmap.id (s.j.m.start p) - 1 ≠ s.j.m.vmap.id (s.j.m.finish p) - 1 := by
    intro e
    have h1 := s.j.m.vnum.at_id (s.j.m.start p)
    have h2 := s.j.m.vnum.at_id (s.j.m.finish p)
    rw [e, h2] at h1
    exact hne (Option.some.inj h1).symm
  unfold SideGeom.Spec.usedEdge at hue
  dsimp only at hue
  split at hue
  · rw [hue]; exact hne'
  · have h1 := congrArg Prod.swap hue
    rw [Prod.swap_swap] at h1
    rw [h1]
    exact hne'.symm

theorem sum_wedges_const {c : Types.Caches} {i : Info} {k : CornerInfo} (v : ℝ) (ws : List Nat) (a : ℝ)
    (hw : ∀ w ∈ ws, s.wedgeVolume r c i k w = some v) : s.sumWedges r c i k ws a = some (a + ws.length * v) := by
  induction ws generalizing a with
  | nil => simp [Source.sumWedges]
  | cons w ws ih =>
    show (s.wedgeVolume r c i k w).bind _ = _
    rw [hw w (by simp), Option.bind_some, ih _ fun w' hw' => hw w' (by simp [hw'])]
    congr 1
    rw [List.length_cons]; push_cast; ring

open Classical in
/-- **C173** at a corner of a cell of a regular mesh in space there are six wedges, and the corner has an eighth of the volume of the cell -/
theorem regular_corner (hd : GoodDom d) (hb : GoodBlk d b) (h : RegularMesh s d b g r) (hs : r.sides = true) (hco : r.corners = true)
    (hfl : ∀ f, s.j.isFlipped f = false) {c : Types.Caches} {i : Info} (hc : Types.cacheExtra (s.base r) = some c) (hi : c.side = some i) :
    ∃ k, c.corner = some k ∧ ∀ cn < k.cornerWedges.length, (∃ ws, k.cornerWedges[cn]? = some ws ∧ ws.length = 6) ∧
      s.cornerVolume r c i k cn = some ((d.X1 - d.X0) * (d.Y1 - d.Y0) * (d.Z1 - d.Z0) / (d.NX * d.NY * d.NZ) / 8) := by
  have hS := h.solid hd hb
  obtain ⟨hci, hv, ho, hn⟩ := caches3 hS hs hc hi
  obtain ⟨k, hk, hck⟩ := corner_cache (by rw [base_eq3 hS]; exact mesh_ok3 s.j r hS.made hS.polygons hS.regions) hc hi
    (by rw [base_req]; exact hco) (by rw [base_req]; exact hs)
  refine ⟨k, hk, fun cn hcn => ?_⟩
  rw [base_eq3 hS] at hck
  obtain ⟨i', k', e', ek', h1, _, h3, _⟩ := corners _ hv hn
  rw [hci] at e'; cases e'
  rw [hck] at ek'; cases ek'
  obtain ⟨cell, hcell, n, hnode, hcc, hcnode⟩ := h1 cn hcn
  have hws := List.getElem?_eq_getElem hcn
  generalize k.cornerWedges[cn] = ws at hws
  obtain ⟨hnd, hmem⟩ := h3 cn ws cell n hws hcc hcnode
  -- the cell and the vertex of the corner
  have hcell' : cell ∈ (s.j.base3 r).cells.all := hcell
  rw [cells3_range, List.mem_range] at hcell'
  obtain ⟨rg, hr⟩ := (s.j.m.rnum s.j.bg).at_some hcell'
  have hreal : s.j.Real3 rg := by intro hbg; rw [h.plain] at hbg; cases hbg
  have hn3 : Has (s.j.cellNodes3 cell) n := by
    have hnode' : n ∈ (s.j.cellNodes3 cell).getD [] := hnode
    cases e : s.j.cellNodes3 cell with
    | none => rw [e] at hnode'; cases hnode'
    | some l => rw [e] at hnode'; exact ⟨l, rfl, hnode'⟩
  obtain ⟨rg', v, hr', hv', hvm⟩ := (has_cellNodes3 cell n).mp hn3
  rw [hr] at hr'; cases hr'
  obtain rfl := s.j.m.vnum.at_iff.mp hv'
  -- counting
  obtain ⟨G, I, J, L, rfl, hro⟩ := region_box hd hb h hr
  have hlen : ws.length = 6 := by
    rw [corner_wedge_count hv hci hcell (fun f e hI => ends_differ hS hs c.types hI) hnd hmem, ends_count hS hs c.types hr v]
    have px : gx d I < gx d (I + 1) := gridPt_lt hd.x hd.nx (Nat.lt_succ_self I)
    have py : gy d J < gy d (J + 1) := gridPt_lt hd.y hd.ny (Nat.lt_succ_self J)
    have pz : gz d L < gz d (L + 1) := gridPt_lt hd.z hd.nz (Nat.lt_succ_self L)
    have hP : s.place v ∈ [mk3 (gx d I) (gy d J) (gz d L), mk3 (gx d (I + 1)) (gy d J) (gz d L), mk3 (gx d (I + 1)) (gy d (J + 1)) (gz d L),
        mk3 (gx d I) (gy d (J + 1)) (gz d L), mk3 (gx d I) (gy d J) (gz d (L + 1)), mk3 (gx d (I + 1)) (gy d J) (gz d (L + 1)),
        mk3 (gx d (I + 1)) (gy d (J + 1)) (gz d (L + 1)), mk3 (gx d I) (gy d (J + 1)) (gz d (L + 1))] := by
      have hp := (coords_perm hd hb G h.placed h.space rg).mem_iff.mp (List.mem_map_of_mem hvm)
      rw [hro] at hp
      simp only [RG, List.map_cons, List.map_nil, pt_V hd] at hp
      exact hp
    rw [← box_ends px py pz hP, ← surface_box hd G h.placed h.space rg hro]
    unfold Source.surface
    rw [List.map_map]
    refine congrArg List.sum (List.map_congr_left fun q _ => ?_)
    rw [Function.comp, (outward_edges hS.polygons q).countP_eq, List.map_map, List.countP_map]
    refine List.countP_congr fun p _ => ?_
    have hpi : ∀ u, s.place u = s.place v ↔ u = v := fun u => (place_inj hd hb G h.placed h.space).eq_iff
    simp only [Function.comp, Bool.or_eq_true, decide_eq_true_eq, hpi]
    obtain ⟨e, b'⟩ := p
    obtain ⟨f, b''⟩ := q
    cases b' <;> cases b'' <;> simp only [MMesh.start, MMesh.finish] <;> first | rfl | exact or_comm
  refine ⟨⟨ws, hws, hlen⟩, ?_⟩
  obtain ⟨w0, ws', rfl⟩ : ∃ w0 ws', ws = w0 :: ws' := by
    cases ws with
    | nil => cases hlen
    | cons w0 ws' => exact ⟨w0, ws', rfl⟩
  obtain ⟨⟨rec0, hrec0, hcell0⟩, _⟩ := (hmem w0).mp (List.mem_cons_self ..)
  have ht : Types.entityGetType (s.base r) c .CORNER cn = c.types.cell[cell]? := by
    unfold Types.entityGetType
    dsimp only
    rw [base_req, if_pos hco, hk, Option.bind_some, hws, Option.bind_some, List.head?_cons, Option.bind_some]
    unfold Types.sideCell
    rw [hi, Option.bind_some, show i.side (w0 / 2) = some rec0 from hrec0, Option.map_some, Option.bind_some, hcell0]
  have hvol : ∀ w ∈ w0 :: ws', s.wedgeVolume r c i k w =
      some ((d.X1 - d.X0) * (d.Y1 - d.Y0) * (d.Z1 - d.Z0) / (d.NX * d.NY * d.NZ) / 48) := by
    intro w hw
    obtain ⟨⟨rec, hrec, _⟩, _⟩ := (hmem w).mp hw
    exact regular_wedge hd hb h hs hfl hc hi k hrec
  unfold Source.cornerVolume
  rw [ht, if_neg (real_type3 hS hc hr hreal), hws, Option.bind_some, sum_wedges_const _ _ 0 hvol, hlen]
  congr 1; push_cast; ring

/-- **C173** a cell of a regular mesh in space has 24 sides and eight corners -/
theorem regular_counts (hd : GoodDom d) (hb : GoodBlk d b) (h : RegularMesh s d b g r) (hs : r.sides = true) (hco : r.corners = true)
    {c : Types.Caches} {i : Info} (hc : Types.cacheExtra (s.base r) = some c) (hi : c.side = some i) {cell : Nat}
    (hcell : cell < g.regions.length) :
    ∃ k ls lc, c.corner = some k ∧ i.cellGetSides cell = some ls ∧ ls.length = 24 ∧ ls.Nodup ∧ (∀ x ∈ ls, ∃ rec, i.side x = some rec ∧ rec.cell = cell) ∧
      k.cellCorners[cell]? = some lc ∧ lc.length = 8 ∧ lc.Nodup ∧ ∀ cn ∈ lc, cn < k.cornerWedges.length ∧ cornerGetCell i k cn = some cell := by
  have hS := h.solid hd hb
  obtain ⟨hci, hv, ho, hn⟩ := caches3 hS hs hc hi
  obtain ⟨k, hk, hck⟩ := corner_cache (by rw [base_eq3 hS]; exact mesh_ok3 s.j r hS.made hS.polygons hS.regions) hc hi
    (by rw [base_req]; exact hco) (by rw [base_req]; exact hs)
  rw [base_eq3 hS] at hck
  obtain ⟨rfl, G, rg, I, J, L, rfl, hro, _, hr⟩ := regular_cell hd hb h (List.getElem?_eq_getElem hcell)
  have hmem : rg.1 ∈ (Types.source (s.j.base3 r) c.types).cells := by
    show rg.1 ∈ (s.j.base3 r).cells.all
    rw [cells3_range]; exact List.mem_range.mpr ((s.j.m.rnum s.j.bg).lt_of_at hr)
  obtain ⟨lc, hlc, elc, hnd, hlin⟩ := corner_count hv hn hci hck hmem
  obtain ⟨i', e', _, _, _, _, hcs, _⟩ := sides_are_incidences _ hv
  rw [hci] at e'; cases e'
  obtain ⟨ls, hls, hpw, hlsin⟩ := hcs rg.1 (hv.cells_lt rg.1 hmem)
  refine ⟨k, ls, lc, hk, hls, ?_, hpw.imp fun h => Nat.ne_of_lt h, fun x hx => (hlsin x).mp hx, hlc, ?_, hnd, fun cn hcn => (hlin cn).mp hcn⟩
  · rw [side_count hv hci hmem hls]
    obtain ⟨hf, he⟩ := closure_sides hS.made.closed hs
    have e0 : (Types.source (s.j.base3 r) c.types).cellFaces rg.1 = (s.j.m.region rg).faces.map fun q =>
        (s.j.m.fmap.id q.1 - 1, flipDir s.j.faceflip (s.j.m.fmap.id q.1 - 1) q.2) := by
      show (s.j.cellGetFaces3 rg.1).getD [] = _
      rw [(public3 hS.ready).1 rg.1 ((s.j.m.rnum s.j.bg).lt_of_at hr), cellFaces3_eq hS.ready hr, Option.getD_some]
    rw [e0, List.map_map]
    have h4 : ∀ q ∈ (s.j.m.region rg).faces, ((fun fd : Nat × Int => ((Types.source (s.j.base3 r) c.types).faceEdges fd.1).length) ∘
        fun q : Fin s.j.m.nf × Bool => (s.j.m.fmap.id q.1 - 1, flipDir s.j.faceflip (s.j.m.fmap.id q.1 - 1) q.2)) q = 4 := by
      intro q _
      have e1 : (Types.source (s.j.base3 r) c.types).faceEdges (s.j.m.fmap.id q.1 - 1) = _ :=
        faceEdges3_of (r := r) hS.ready (hS.made.readyE he) q.1
      rw [Function.comp_apply, e1, List.length_map]
      exact (generated_mesh_is_polyhedral d hd b hb _ h.generated s.j.m h.held).2.2.1 q.1
    rw [List.map_congr_left h4, List.map_const', List.sum_replicate, G.six rg]; rfl
  · rw [elc]
    have h8 := (coords_mean hd hb G h.placed h.space rg hro).2
    rw [List.length_map] at h8
    have e : (Types.source (s.j.base3 r) c.types).cellNodes rg.1 = (s.j.cellNodes3 rg.1).getD [] := rfl
    rw [e]
    unfold JMesh.cellNodes3
    rw [hr]
    simpa using h8

/-- on one rank every block of every grid is a regular mesh without flipped faces -/
theorem regular_exists_serial (hd : GoodDom d) (hb : GoodBlk d b) : ∃ (s : Source ℝ) (g : RegMesh ℝ) (r : MeshCache.Request),
    RegularMesh s d b g r ∧ g.regions.length = b.nx * b.ny * b.nz ∧ r.sides = true ∧ r.corners = true ∧ ∀ f, s.j.isFlipped f = false := by
  obtain ⟨m, h1, ⟨G⟩⟩ := build_grid d hd b hb
  refine ⟨⟨⟨m, true, true, false, true, List.replicate m.nf false, List.replicate m.ne false⟩, true, 3,
    fun v => ⟨(G.vo v).x, (G.vo v).y, (G.vo v).z⟩⟩, genOf d b, MeshCache.closure ⟨true, true, true, true, true⟩,
    ⟨⟨⟨_, rfl⟩, rfl, rfl, fun _ => by simp, fun _ => by simp⟩, rfl, rfl, rfl, rfl,
      generate_eq d hd.nx hd.ny hd.nz hb.nx hb.ny hb.nz, h1, fun v => ⟨_, Grid.lookup G.vlist v, rfl⟩⟩, ?_, rfl, rfl, ?_⟩
  · show ((loopIdx b.nx b.ny b.nz).map (shifted b (RG d))).length = _
    rw [List.length_map]
    simp [loopIdx, Nat.mul_assoc]
  · intro f
    show ((List.replicate m.nf false)[m.fmap.id f - 1]?).getD false = false
    rw [List.getElem?_replicate]
    split <;> rfl

/-- the hypotheses are met: sides and corners of a cell of a block of a grid of cells with volume 1/2 -/
example : ∃ (s : Source ℝ) (g : RegMesh ℝ) (r : MeshCache.Request) (c : Types.Caches) (i : Info) (k : CornerInfo) (ls lc : List Nat),
    RegularMesh s ⟨0, 0, 0, 1, 2, 3, 2, 2, 3⟩ ⟨1, 0, 1, 1, 2, 2⟩ g r ∧ Types.cacheExtra (s.base r) = some c ∧ c.side = some i ∧
      c.corner = some k ∧ i.cellGetSides 3 = some ls ∧ ls.length = 24 ∧ k.cellCorners[3]? = some lc ∧ lc.length = 8 ∧
      (∀ x ∈ ls, s.sideVolume r c i k x = some (1 / 48)) ∧ ∀ cn ∈ lc, s.cornerVolume r c i k cn = some (1 / 16) := by
  have hd : GoodDom (⟨0, 0, 0, 1, 2, 3, 2, 2, 3⟩ : Dom ℝ) := ⟨by norm_num, by norm_num, by norm_num, by norm_num, by norm_num, by norm_num⟩
  have hb : GoodBlk (⟨0, 0, 0, 1, 2, 3, 2, 2, 3⟩ : Dom ℝ) ⟨1, 0, 1, 1, 2, 2⟩ :=
    ⟨by norm_num, by norm_num, by norm_num, by norm_num, by norm_num, by norm_num⟩
  obtain ⟨s, g, r, h, hlen, hs, hco, hfl⟩ := regular_exists_serial hd hb
  obtain ⟨c, i, hc, hi⟩ := caches3_exist (h.solid hd hb) hs
  obtain ⟨k, ls, lc, hk, hls, h24, _, hrec, hlc, h8, _, hcn⟩ := regular_counts hd hb h hs hco hc hi (cell := 3) (by rw [hlen]; norm_num)
  refine ⟨s, g, r, c, i, k, ls, lc, h, hc, hi, hk, hls, h24, hlc, h8, fun x hx => ?_, fun cn hc' => ?_⟩
  · obtain ⟨rec, hrec, _⟩ := hrec x hx
    rw [(regular_side hd hb h hs hfl hc hi k hrec).1]
    norm_num
  · obtain ⟨k', hk', H⟩ := regular_corner hd hb h hs hco hfl hc hi
    rw [hk] at hk'; cases hk'
    rw [(H cn (hcn cn hc').1).2]
    norm_num

end Jali.MstkGen
