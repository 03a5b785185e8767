import Verif.Proof.MstkBuild8
import Verif.Props.MstkBuildCells
/-
C155: volumes, centroids and normals of the cells of a regular mesh.
-/
namespace Jali.MstkGen
open Spec Jali.Mstk Jali.Geom Jali.Geom.Point Jali.Geom.Spec Jali.MeshGeom

/-- a block of a regular mesh, as made by the constructor of regular meshes of Mesh_MSTK (Mesh_MSTK.cc:239-381) with faces requested:
MSTK holds the generated mesh `g` -/
structure RegularMesh (s : Source ℝ) (d : Dom ℝ) (b : Blk) (g : RegMesh ℝ) (r : MeshCache.Request) : Prop where
  made : s.j.Made3 r
  faces : r.faces = true
  dim : s.dim3 = true
  space : s.spaceDim = 3
  plain : s.j.bg = false
  generated : generate d b = some g
  held : build g = some s.j.m
  placed : Placed s g

variable {d : Dom ℝ} {b : Blk} {s : Source ℝ} {g : RegMesh ℝ} {r : MeshCache.Request}

/-- a regular mesh is a mesh as assumed in the properties C130 and C131 -/
theorem RegularMesh.solid (hd : GoodDom d) (hb : GoodBlk d b) (h : RegularMesh s d b g r) : s.Solid r := by
  obtain ⟨h1, h2, h3, _, _⟩ := generated_mesh_is_polyhedral d hd b hb g h.generated s.j.m h.held
  exact ⟨h.made, h.faces, h.dim, h.space, h1, h2, fun f => by rw [h3 f]; omega⟩

theorem regular_cell (hd : GoodDom d) (hb : GoodBlk d b) (h : RegularMesh s d b g r) {c : Nat} {cell : Region ℝ}
    (hc : g.regions[c]? = some cell) : g = genOf d b ∧ ∃ (G : Grid d b s.j.m) (rg : Fin s.j.m.nr) (I J L : Nat), rg.1 = c ∧
      G.ro rg = RG d I J L ∧ cell = RG d I J L ∧ (s.j.m.rmap s.j.bg).at c = some rg := by
  obtain ⟨rfl, ⟨G⟩⟩ := grid_of_build hd hb h.generated h.held
  refine ⟨rfl, G, ?_⟩
  have hc' := (List.getElem?_eq_some_iff.mp hc).1
  rw [← G.rlist, List.length_ofFn] at hc'
  obtain ⟨I, J, L, hr, _⟩ := G.ro_is ⟨c, hc'⟩
  have e : G.ro ⟨c, hc'⟩ = cell := Option.some.inj ((Grid.lookup G.rlist ⟨c, hc'⟩).symm.trans hc)
  refine ⟨⟨c, hc'⟩, I, J, L, rfl, hr, e ▸ hr, ?_⟩
  rw [h.plain]
  exact rmap_plain s.j.m (fun i => (G.rgid i).2) ⟨c, hc'⟩

theorem gridPt_step (a e : ℝ) (n i : Nat) : gridPt a e n (i + 1) - gridPt a e n i = (e - a) / n := by
  unfold gridPt; push_cast; ring

/-- **C155** the volume of a cell is the volume of the box with the first and the seventh corner of the cell as opposite corners, that
is, the volume of the domain divided by the number of cells in it, and the centroid is the middle of the two corners -/
theorem generated_cell_geometry (hd : GoodDom d) (hb : GoodBlk d b) (h : RegularMesh s d b g r) {c : Nat} {cell : Region ℝ}
    (hc : g.regions[c]? = some cell) :
    ∃ lo hi vol cen, cell.vs[0]? = some lo ∧ cell.vs[6]? = some hi ∧ computeCellGeometry s.gmesh c = some (vol, cen) ∧
      vol = (hi.x - lo.x) * (hi.y - lo.y) * (hi.z - lo.z) ∧
      vol = (d.X1 - d.X0) * (d.Y1 - d.Y0) * (d.Z1 - d.Z0) / (d.NX * d.NY * d.NZ) ∧
      cen.x = (lo.x + hi.x) / 2 ∧ cen.y = (lo.y + hi.y) / 2 ∧ cen.z = (lo.z + hi.z) / 2 := by
  obtain ⟨rfl, G, rg, I, J, L, rfl, hr, rfl, hat⟩ := regular_cell hd hb h hc
  obtain ⟨cen, e, e1, e2, e3⟩ := cell_box (h.solid hd hb) hd hb G h.placed hat hr
  refine ⟨V d I J L, V d (I + 1) (J + 1) (L + 1), _, cen, rfl, rfl, e, ?_, ?_, ?_, ?_, ?_⟩
  · simp only [V, gridCoord_eq _ _ hd.nx, gridCoord_eq _ _ hd.ny, gridCoord_eq _ _ hd.nz, gx, gy, gz]
  · simp only [gx, gy, gz, gridPt_step]; ring
  · rw [e1]; simp only [V, gridCoord_eq _ _ hd.nx, gx]
  · rw [e2]; simp only [V, gridCoord_eq _ _ hd.ny, gy]
  · rw [e3]; simp only [V, gridCoord_eq _ _ hd.nz, gz]

theorem mapM_const (F : Nat → Option (ℝ × Point)) (w : ℝ) (l : List Nat) (hl : ∀ c ∈ l, ∃ v : ℝ × Point, F c = some v ∧ v.1 = w) :
    ∃ vols : List (ℝ × Point), l.mapM F = some vols ∧ (∀ v ∈ vols, v.1 = w) ∧ vols.length = l.length := by
  induction l with
  | nil => exact ⟨[], rfl, by simp, rfl⟩
  | cons c l ih =>
    obtain ⟨v, h1, h2⟩ := hl c (by simp)
    obtain ⟨vs, h3, h4, h5⟩ := ih fun c hc => hl c (by simp [hc])
    refine ⟨v :: vs, by simp [h1, h3], ?_, by simp [h5]⟩
    intro x hx
    rcases List.mem_cons.mp hx with rfl | hx
    · exact h2
    · exact h4 x hx

theorem sum_const (w : ℝ) (l : List (ℝ × Point)) (hl : ∀ v ∈ l, v.1 = w) : (l.map Prod.fst).sum = l.length * w := by
  induction l with
  | nil => simp
  | cons v l ih =>
    rw [List.map_cons, List.sum_cons, ih fun v hv => hl v (by simp [hv]), hl v (by simp), List.length_cons]
    push_cast; ring

/-- **C155** the volumes of all cells add up to the volume of the block -/
theorem generated_total_volume (hd : GoodDom d) (hb : GoodBlk d b) (h : RegularMesh s d b g r) :
    ∃ vols : List (ℝ × Point), (List.range g.regions.length).mapM (computeCellGeometry s.gmesh) = some vols ∧
      (∀ v ∈ vols, 0 < v.1) ∧
      (vols.map Prod.fst).sum = (gridPt d.X0 d.X1 d.NX (b.i0 + b.nx) - gridPt d.X0 d.X1 d.NX b.i0) *
        (gridPt d.Y0 d.Y1 d.NY (b.j0 + b.ny) - gridPt d.Y0 d.Y1 d.NY b.j0) *
        (gridPt d.Z0 d.Z1 d.NZ (b.k0 + b.nz) - gridPt d.Z0 d.Z1 d.NZ b.k0) := by
  have key : ∀ c ∈ List.range g.regions.length, ∃ v : ℝ × Point, computeCellGeometry s.gmesh c = some v ∧
      v.1 = (d.X1 - d.X0) * (d.Y1 - d.Y0) * (d.Z1 - d.Z0) / (d.NX * d.NY * d.NZ) := by
    intro c hc
    rw [List.mem_range] at hc
    obtain ⟨_, _, vol, cen, _, _, h1, _, h2, _⟩ := generated_cell_geometry hd hb h (List.getElem?_eq_getElem hc)
    exact ⟨_, h1, h2⟩
  have hpos : 0 < (d.X1 - d.X0) * (d.Y1 - d.Y0) * (d.Z1 - d.Z0) / (d.NX * d.NY * d.NZ : ℝ) := by
    have := hd.nx
    have := hd.ny
    have := hd.nz
    have := sub_pos.2 hd.x
    have := sub_pos.2 hd.y
    have := sub_pos.2 hd.z
    positivity
  obtain ⟨vols, h1, h2, h3⟩ := mapM_const (computeCellGeometry s.gmesh) _ _ key
  refine ⟨vols, h1, fun v hv => by rw [h2 v hv]; exact hpos, ?_⟩
  rw [sum_const _ _ h2, h3, List.length_range]
  obtain ⟨rfl, _⟩ := grid_of_build hd hb h.generated h.held
  have hlen : (genOf d b).regions.length = b.nx * b.ny * b.nz := by
    show ((loopIdx b.nx b.ny b.nz).map (shifted b (RG d))).length = _
    rw [List.length_map]
    simp [loopIdx, Nat.mul_assoc]
  rw [hlen]
  have := hd.nx
  have := hd.ny
  have := hd.nz
  unfold gridPt
  push_cast
  field_simp
  ring

/-- **C155** the outward normals of the six faces of a cell, in the order of `cell_get_faces`: bottom, top, front, right, back, left,
each with the area of the side as length -/
theorem generated_cell_normals (hd : GoodDom d) (hb : GoodBlk d b) (h : RegularMesh s d b g r) {c : Nat} {cell : Region ℝ}
    (hc : g.regions[c]? = some cell) :
    let dx := (d.X1 - d.X0) / d.NX
    let dy := (d.Y1 - d.Y0) / d.NY
    let dz := (d.Z1 - d.Z0) / d.NZ
    (s.gmesh.cellFaces c).mapM (fun fd => faceNormal s.gmesh fd.1 (some c)) =
      some [mk3 0 0 (-(dx * dy)), mk3 0 0 (dx * dy), mk3 0 (-(dx * dz)) 0, mk3 (dy * dz) 0 0, mk3 0 (dx * dz) 0, mk3 (-(dy * dz)) 0 0] := by
  intro dx dy dz
  obtain ⟨rfl, G, rg, I, J, L, rfl, hr, rfl, hat⟩ := regular_cell hd hb h hc
  have hs := h.solid hd hb
  have hsurf := surface_box hd G h.placed h.space rg hr
  rw [gmesh_cellFaces hs hat, List.mapM_map]
  have key : ∀ l : List (Fin s.j.m.nf × Bool), (∀ q ∈ l, q ∈ (s.j.m.region rg).faces) →
      l.mapM ((fun fd : Nat × Int => faceNormal s.gmesh fd.1 (some rg.1)) ∘ fun q : Fin s.j.m.nf × Bool =>
        (s.j.m.fmap.id q.1 - 1, flipDir s.j.faceflip (s.j.m.fmap.id q.1 - 1) q.2)) = some ((l.map s.outward).map areaVector) := by
    intro l
    induction l with
    | nil => intro _; rfl
    | cons q l ih =>
      intro hl
      rw [List.mapM_cons, ih fun q hq => hl q (by simp [hq])]
      simp only [Function.comp_apply]
      rw [normals_of_mesh hs hat (hl q (by simp))]
      rfl
  rw [key _ fun _ hq => hq, show (s.j.m.region rg).faces.map s.outward = s.surface rg from rfl, hsurf]
  have hx : gx d (I + 1) = gx d I + dx := by unfold gx; linarith [gridPt_step d.X0 d.X1 d.NX I]
  have hy : gy d (J + 1) = gy d J + dy := by unfold gy; linarith [gridPt_step d.Y0 d.Y1 d.NY J]
  have hz : gz d (L + 1) = gz d L + dz := by unfold gz; linarith [gridPt_step d.Z0 d.Z1 d.NZ L]
  rw [hx, hy, hz]
  congr 1
  simp only [boxSides, List.map_cons, List.map_nil, areaVector, polyEdges, mk3, List.rotate_cons_succ, List.rotate_zero,
    List.zip_cons_cons, List.cons_append, List.nil_append, List.zip_nil_right, List.sum_cons, List.sum_nil, List.cons.injEq,
    Point.mk.injEq, true_and, and_true]
  refine ⟨⟨?_, ?_, ?_⟩, ⟨?_, ?_, ?_⟩, ⟨?_, ?_, ?_⟩, ⟨?_, ?_, ?_⟩, ⟨?_, ?_, ?_⟩, ?_, ?_, ?_⟩ <;> ring

/-- **C155** a face lies across one of the axes: its area is the product of its extents along the other two axes (the extent across is
zero), its centroid is the middle between two opposite corners -/
theorem generated_face_geometry (hd : GoodDom d) (hb : GoodBlk d b) (h : RegularMesh s d b g r) {f : Nat} {face : Face ℝ}
    (hf : g.faces[f]? = some face) :
    ∃ lo hi area cen ns, face.vs[0]? = some lo ∧ face.vs[2]? = some hi ∧ computeFaceGeometry s.gmesh f = some (area, cen, ns) ∧ 0 < area ∧
      cen = mk3 ((lo.x + hi.x) / 2) ((lo.y + hi.y) / 2) ((lo.z + hi.z) / 2) ∧
      ((lo.x = hi.x ∧ area = (hi.y - lo.y) * (hi.z - lo.z)) ∨ (lo.y = hi.y ∧ area = (hi.x - lo.x) * (hi.z - lo.z)) ∨
        (lo.z = hi.z ∧ area = (hi.x - lo.x) * (hi.y - lo.y))) := by
  obtain ⟨rfl, ⟨G⟩⟩ := grid_of_build hd hb h.generated h.held
  have hlt : f < s.j.m.nf := by
    have := (List.getElem?_eq_some_iff.mp hf).1
    rw [← G.flist, List.length_ofFn] at this
    exact this
  have hface : G.fo ⟨f, hlt⟩ = face := Option.some.inj ((Grid.lookup G.flist ⟨f, hlt⟩).symm.trans hf)
  have hat : s.j.m.fmap.at f = some ⟨f, hlt⟩ := fmap_plain s.j.m (fun i => (G.fgid i).2) ⟨f, hlt⟩
  have hcor : s.corners ⟨f, hlt⟩ = face.vs.map pt := by
    have := outward_pt G h.placed h.space (⟨f, hlt⟩, true)
    rw [if_pos rfl, hface] at this
    exact this
  have hs := h.solid hd hb
  have hstep : ∀ {a e : ℝ} {n : Nat} (i : Nat), a < e → 0 < n → gridPt a e n i < gridPt a e n (i + 1) :=
    fun i h hn => gridPt_lt h hn (by omega)
  have hF := G.fo_is ⟨f, hlt⟩
  rw [hface] at hF
  rcases hF with @⟨I, J, L, _⟩ | @⟨I, J, L, _⟩ | @⟨I, J, L, _⟩
  · simp only [FX, List.map_cons, List.map_nil, pt_V hd] at hcor
    have hy : gy d J < gy d (J + 1) := hstep J hd.y hd.ny
    have hz : gz d L < gz d (L + 1) := hstep L hd.z hd.nz
    have hn : 0 < (gy d (J + 1) - gy d J) * (gz d (L + 1) - gz d L) := mul_pos (sub_pos.2 hy) (sub_pos.2 hz)
    obtain ⟨ns, e⟩ := face_area_para hs _ hat (hcor ▸ rect_x _ _ _ _ _ hy hz) (by linarith)
    refine ⟨V d I J L, V d I (J + 1) (L + 1), _, _, ns, rfl, rfl, e, by linarith, ?_, .inl ⟨rfl, ?_⟩⟩ <;>
      simp only [V, gridCoord_eq _ _ hd.nx, gridCoord_eq _ _ hd.ny, gridCoord_eq _ _ hd.nz, gx, gy, gz, half2] <;> ring
  · simp only [FY, List.map_cons, List.map_nil, pt_V hd] at hcor
    have hy : gx d I < gx d (I + 1) := hstep I hd.x hd.nx
    have hz : gz d L < gz d (L + 1) := hstep L hd.z hd.nz
    have hn : 0 < (gx d (I + 1) - gx d I) * (gz d (L + 1) - gz d L) := mul_pos (sub_pos.2 hy) (sub_pos.2 hz)
    obtain ⟨ns, e⟩ := face_area_para hs _ hat (hcor ▸ rect_y _ _ _ _ _ hy hz) (by linarith)
    refine ⟨V d I J L, V d (I + 1) J (L + 1), _, _, ns, rfl, rfl, e, by linarith, ?_, .inr (.inl ⟨rfl, ?_⟩)⟩ <;>
      simp only [V, gridCoord_eq _ _ hd.nx, gridCoord_eq _ _ hd.ny, gridCoord_eq _ _ hd.nz, gx, gy, gz, half2] <;> ring
  · simp only [FZ, List.map_cons, List.map_nil, pt_V hd] at hcor
    have hy : gx d I < gx d (I + 1) := hstep I hd.x hd.nx
    have hz : gy d J < gy d (J + 1) := hstep J hd.y hd.ny
    have hn : 0 < (gx d (I + 1) - gx d I) * (gy d (J + 1) - gy d J) := mul_pos (sub_pos.2 hy) (sub_pos.2 hz)
    obtain ⟨ns, e⟩ := face_area_para hs _ hat (hcor ▸ rect_z _ _ _ _ _ hy hz) (by linarith)
    refine ⟨V d I J L, V d (I + 1) (J + 1) L, _, _, ns, rfl, rfl, e, by linarith, ?_, .inr (.inr ⟨rfl, ?_⟩)⟩ <;>
      simp only [V, gridCoord_eq _ _ hd.nx, gridCoord_eq _ _ hd.ny, gridCoord_eq _ _ hd.nz, gx, gy, gz, half2] <;> ring

/-- the hypotheses are met: every block of every grid is a regular mesh -/
theorem regular_exists (hd : GoodDom d) (hb : GoodBlk d b) : ∃ (s : Source ℝ) (g : RegMesh ℝ) (r : MeshCache.Request),
    RegularMesh s d b g r ∧ g.regions.length = b.nx * b.ny * b.nz := by
  obtain ⟨m, h1, ⟨G⟩⟩ := build_grid d hd b hb
  refine ⟨⟨⟨m, true, true, false, true, List.replicate m.nf false, List.replicate m.ne false⟩, true, 3,
    fun v => ⟨(G.vo v).x, (G.vo v).y, (G.vo v).z⟩⟩, genOf d b, MeshCache.closure ⟨true, true, true, true, true⟩,
    ⟨⟨⟨_, rfl⟩, rfl, rfl, fun _ => by simp, fun _ => by simp⟩, rfl, rfl, rfl, rfl,
      generate_eq d hd.nx hd.ny hd.nz hb.nx hb.ny hb.nz, h1, fun v => ⟨_, Grid.lookup G.vlist v, rfl⟩⟩, ?_⟩
  show ((loopIdx b.nx b.ny b.nz).map (shifted b (RG d))).length = _
  rw [List.length_map]
  simp [loopIdx, Nat.mul_assoc]

example : ∃ (s : Source ℝ) (g : RegMesh ℝ) (r : MeshCache.Request),
    RegularMesh s ⟨0, 0, 0, 1, 2, 3, 2, 2, 3⟩ ⟨1, 0, 1, 1, 2, 2⟩ g r ∧ g.regions.length = 4 :=
  regular_exists ⟨by norm_num, by norm_num, by norm_num, by norm_num, by norm_num, by norm_num⟩
    ⟨by norm_num, by norm_num, by norm_num, by norm_num, by norm_num, by norm_num⟩

end Jali.MstkGen
