import Verif.Proof.MstkBuild5
/-! Geometry of a box. -/
namespace Jali.MstkGen
open Spec Jali.Mstk Jali.Geom Jali.Geom.Point Jali.Geom.Spec Jali.MeshGeom

/-- the sides of a box, in the order and with the corners in the order of `MR_Set_Vertices` -/
noncomputable def boxSides (x0 x1 y0 y1 z0 z1 : ℝ) : List (List Point) :=
  [[mk3 x0 y1 z0, mk3 x1 y1 z0, mk3 x1 y0 z0, mk3 x0 y0 z0],
   [mk3 x0 y0 z1, mk3 x1 y0 z1, mk3 x1 y1 z1, mk3 x0 y1 z1],
   [mk3 x0 y0 z0, mk3 x1 y0 z0, mk3 x1 y0 z1, mk3 x0 y0 z1],
   [mk3 x1 y0 z0, mk3 x1 y1 z0, mk3 x1 y1 z1, mk3 x1 y0 z1],
   [mk3 x0 y1 z1, mk3 x1 y1 z1, mk3 x1 y1 z0, mk3 x0 y1 z0],
   [mk3 x0 y0 z1, mk3 x0 y1 z1, mk3 x0 y1 z0, mk3 x0 y0 z0]]

theorem facets4 (a b c e : Point) : facets [a, b, c, e] =
    [(a, b, vertexMean 3 [a, b, c, e]), (b, c, vertexMean 3 [a, b, c, e]), (c, e, vertexMean 3 [a, b, c, e]),
      (e, a, vertexMean 3 [a, b, c, e])] := by
  simp [facets, polyEdges]

theorem mean4 (a b c e : Point) : vertexMean 3 [a, b, c, e] =
    ⟨3, (a.x + b.x + c.x + e.x) / 4, (a.y + b.y + c.y + e.y) / 4, (a.z + b.z + c.z + e.z) / 4⟩ := by
  simp only [vertexMean, mean, List.map_cons, List.map_nil, List.sum_cons, List.sum_nil, List.length_cons, List.length_nil,
    Point.mk.injEq, true_and]
  refine ⟨?_, ?_, ?_⟩ <;> (push_cast; ring)

theorem box_star {x0 x1 y0 y1 z0 z1 : ℝ} (hx : x0 < x1) (hy : y0 < y1) (hz : z0 < z1) (cc : List Point)
    (hc : vertexMean 3 cc = ⟨3, (x0 + x1) / 2, (y0 + y1) / 2, (z0 + z1) / 2⟩) : StarShaped3 cc (boxSides x0 x1 y0 y1 z0 z1) := by
  intro f hf t ht
  rw [hc]
  have hxyz : 0 < (x1 - x0) * (y1 - y0) * (z1 - z0) :=
    mul_pos (mul_pos (sub_pos.2 hx) (sub_pos.2 hy)) (sub_pos.2 hz)
  have key : tetVol ⟨3, (x0 + x1) / 2, (y0 + y1) / 2, (z0 + z1) / 2⟩ t.1 t.2.1 t.2.2 =
      (x1 - x0) * (y1 - y0) * (z1 - z0) / 24 := by
    simp only [boxSides, List.mem_cons, List.not_mem_nil, or_false] at hf
    rcases hf with rfl | rfl | rfl | rfl | rfl | rfl <;>
    · rw [facets4, mean4] at ht
      simp only [List.mem_cons, List.not_mem_nil, or_false] at ht
      rcases ht with rfl | rfl | rfl | rfl <;>
      · simp only [tetVol, det3, vec, mk3]
        ring
  rw [key]
  linarith

theorem box_volume (x0 x1 y0 y1 z0 z1 : ℝ) :
    volumeFrom (mk3 x0 y0 z0) (boxSides x0 x1 y0 y1 z0 z1) = (x1 - x0) * (y1 - y0) * (z1 - z0) := by
  simp only [volumeFrom, boxSides, List.flatMap_cons, List.flatMap_nil, facets4, mean4, List.cons_append, List.nil_append,
    List.append_nil, List.map_cons, List.map_nil, List.sum_cons, List.sum_nil, tetVol, det3, vec, mk3]
  ring

theorem box_momentx (x0 x1 y0 y1 z0 z1 : ℝ) :
    momentFrom Point.x (mk3 x0 y0 z0) (boxSides x0 x1 y0 y1 z0 z1) =
      (x1 - x0) * (y1 - y0) * (z1 - z0) * ((x0 + x1) / 2) := by
  simp only [momentFrom, boxSides, List.flatMap_cons, List.flatMap_nil, facets4, mean4, List.cons_append, List.nil_append,
    List.append_nil, List.map_cons, List.map_nil, List.sum_cons, List.sum_nil, tetVol, det3, vec, mk3]
  ring
theorem box_momenty (x0 x1 y0 y1 z0 z1 : ℝ) :
    momentFrom Point.y (mk3 x0 y0 z0) (boxSides x0 x1 y0 y1 z0 z1) =
      (x1 - x0) * (y1 - y0) * (z1 - z0) * ((y0 + y1) / 2) := by
  simp only [momentFrom, boxSides, List.flatMap_cons, List.flatMap_nil, facets4, mean4, List.cons_append, List.nil_append,
    List.append_nil, List.map_cons, List.map_nil, List.sum_cons, List.sum_nil, tetVol, det3, vec, mk3]
  ring
theorem box_momentz (x0 x1 y0 y1 z0 z1 : ℝ) :
    momentFrom Point.z (mk3 x0 y0 z0) (boxSides x0 x1 y0 y1 z0 z1) =
      (x1 - x0) * (y1 - y0) * (z1 - z0) * ((z0 + z1) / 2) := by
  simp only [momentFrom, boxSides, List.flatMap_cons, List.flatMap_nil, facets4, mean4, List.cons_append, List.nil_append,
    List.append_nil, List.map_cons, List.map_nil, List.sum_cons, List.sum_nil, tetVol, det3, vec, mk3]
  ring

variable {d : Dom ℝ} {b : Blk} {s : Source ℝ} {r : MeshCache.Request}

/-- grid coordinates -/
noncomputable def gx (d : Dom ℝ) (i : Nat) : ℝ := gridPt d.X0 d.X1 d.NX i
noncomputable def gy (d : Dom ℝ) (i : Nat) : ℝ := gridPt d.Y0 d.Y1 d.NY i
noncomputable def gz (d : Dom ℝ) (i : Nat) : ℝ := gridPt d.Z0 d.Z1 d.NZ i

theorem pt_V (hd : GoodDom d) (I J L : Nat) : pt (V d I J L) = mk3 (gx d I) (gy d J) (gz d L) := by
  simp only [pt, V, gx, gy, gz, gridCoord_eq _ _ hd.nx, gridCoord_eq _ _ hd.ny, gridCoord_eq _ _ hd.nz]

theorem surface_box (hd : GoodDom d) (G : Grid d b s.j.m) (hp : Placed s (genOf d b)) (h3 : s.spaceDim = 3) (rg : Fin s.j.m.nr)
    {I J L : Nat} (hr : G.ro rg = RG d I J L) :
    s.surface rg = boxSides (gx d I) (gx d (I + 1)) (gy d J) (gy d (J + 1)) (gz d L) (gz d (L + 1)) := by
  obtain ⟨I', J', L', _, hr', f0, f1, f2, f3, f4, f5, hl, a0, a1, a2, a3, a4, a5⟩ := G.region_faces rg
  have e := congrArg Region.vs (hr.symm.trans hr')
  simp only [RG, List.cons.injEq, V_iff d hd] at e
  have hh : I = I' ∧ J = J' ∧ L = L' := by omega
  obtain ⟨rfl, rfl, rfl⟩ := hh
  unfold Source.surface
  rw [hl]
  simp only [List.map_cons, List.map_nil, outward_pt G hp h3, a0, a1, a2, a3, a4, a5, FX, FY, FZ, pt_V hd, if_true]
  rfl

theorem coords_mean (hd : GoodDom d) (hb : GoodBlk d b) (G : Grid d b s.j.m) (hp : Placed s (genOf d b)) (h3 : s.spaceDim = 3)
    (rg : Fin s.j.m.nr) {I J L : Nat} (hr : G.ro rg = RG d I J L) :
    vertexMean 3 ((s.j.m.mrVertices (s.j.m.region rg)).map s.place) =
      ⟨3, (gx d I + gx d (I + 1)) / 2, (gy d J + gy d (J + 1)) / 2, (gz d L + gz d (L + 1)) / 2⟩ ∧
    ((s.j.m.mrVertices (s.j.m.region rg)).map s.place).length = 8 := by
  have hperm := coords_perm hd hb G hp h3 rg
  rw [hr] at hperm
  rw [vertexMean_perm hperm, hperm.length_eq]
  refine ⟨?_, rfl⟩
  simp only [RG, List.map_cons, List.map_nil, pt_V hd]
  simp only [vertexMean, mean, mk3, List.map_cons, List.map_nil, List.sum_cons, List.sum_nil, List.length_cons, List.length_nil,
    Point.mk.injEq, true_and]
  refine ⟨?_, ?_, ?_⟩ <;> (push_cast; ring)

/-- volume and centroid of a generated cell -/
theorem cell_box (h : s.Solid r) (hd : GoodDom d) (hb : GoodBlk d b) (G : Grid d b s.j.m) (hp : Placed s (genOf d b))
    {c : Nat} {rg : Fin s.j.m.nr} (hc : (s.j.m.rmap s.j.bg).at c = some rg) {I J L : Nat} (hr : G.ro rg = RG d I J L) :
    ∃ cen, computeCellGeometry s.gmesh c =
      some ((gx d (I + 1) - gx d I) * (gy d (J + 1) - gy d J) * (gz d (L + 1) - gz d L), cen) ∧
      cen.x = (gx d I + gx d (I + 1)) / 2 ∧ cen.y = (gy d J + gy d (J + 1)) / 2 ∧ cen.z = (gz d L + gz d (L + 1)) / 2 := by
  obtain ⟨hm, hlen⟩ := coords_mean hd hb G hp h.space rg hr
  have hcc := gmesh_cellCoords h hc
  have hs := surface_box hd G hp h.space rg hr
  have h4 : 4 < (s.gmesh.cellCoords c).length := by rw [hcc, hlen]; omega
  have hne : (s.j.m.region rg).faces ≠ [] := by
    intro h0
    have := G.six rg
    rw [h0] at this
    simp at this
  obtain ⟨vol, cen, e1, e2, e3⟩ := volume_of_mesh h hc h4 hne
  have px : gx d I < gx d (I + 1) := gridPt_lt hd.x hd.nx (Nat.lt_succ_self I)
  have py : gy d J < gy d (J + 1) := gridPt_lt hd.y hd.ny (Nat.lt_succ_self J)
  have pz : gz d L < gz d (L + 1) := gridPt_lt hd.z hd.nz (Nat.lt_succ_self L)
  have hst : StarShaped3 (s.gmesh.cellCoords c) (s.surface rg) := by
    rw [hs, hcc]; exact box_star px py pz _ hm
  obtain ⟨v, mx, my, mz⟩ := e3 hst (G.watertight hd hb rg) (mk3 (gx d I) (gy d J) (gz d L))
  rw [hs] at v mx my mz
  rw [box_volume] at v
  rw [box_momentx] at mx
  rw [box_momenty] at my
  rw [box_momentz] at mz
  have hv0 : vol ≠ 0 := (e2.mpr hst).ne'
  rw [← v] at mx my mz
  exact ⟨cen, by rw [e1, v], mul_left_cancel₀ hv0 mx, mul_left_cancel₀ hv0 my, mul_left_cancel₀ hv0 mz⟩

end Jali.MstkGen
