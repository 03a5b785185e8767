import Verif.Proof.MstkBuild6
import Verif.Props.MstkGeometry
/-! Area and centroid of a parallelogram. -/
namespace Jali.MstkGen
open Spec Jali.Mstk Jali.Geom Jali.Geom.Point Jali.Geom.Spec Jali.MeshGeom

/-- a parallelogram around `c` with half diagonals `u` and `w` -/
def para (cx cy cz ux uy uz wx wy wz : ℝ) : List Point :=
  [⟨3, cx + ux, cy + uy, cz + uz⟩, ⟨3, cx + wx, cy + wy, cz + wz⟩, ⟨3, cx - ux, cy - uy, cz - uz⟩, ⟨3, cx - wx, cy - wy, cz - wz⟩]

theorem para_tri (cx cy cz ux uy uz wx wy wz : ℝ) :
    triNormal ⟨3, cx, cy, cz⟩ ⟨3, cx + ux, cy + uy, cz + uz⟩ ⟨3, cx + wx, cy + wy, cz + wz⟩ =
      ⟨3, (uy * wz - uz * wy) / 2, (uz * wx - ux * wz) / 2, (ux * wy - uy * wx) / 2⟩ := by
  unfold triNormal
  rw [Jali.Geom.sub3 (p := ⟨3, cx + ux, cy + uy, cz + uz⟩) _ rfl, Jali.Geom.sub3 (p := ⟨3, cx + wx, cy + wy, cz + wz⟩) _ rfl, smul3, Jali.Geom.cross3]
  ext <;> simp only <;> ring

theorem para_area (cx cy cz ux uy uz wx wy wz : ℝ)
    (h : Point.norm ⟨3, (uy * wz - uz * wy) / 2, (uz * wx - ux * wz) / 2, (ux * wy - uy * wx) / 2⟩ ≠ 0) :
    (polygonAreaCentroidNormal (para cx cy cz ux uy uz wx wy wz)).area =
      4 * Point.norm ⟨3, (uy * wz - uz * wy) / 2, (uz * wx - ux * wz) / 2, (ux * wy - uy * wx) / 2⟩ ∧
    (polygonAreaCentroidNormal (para cx cy cz ux uy uz wx wy wz)).centroid = mk3 cx cy cz := by
  have hm : meanPoint 3 (para cx cy cz ux uy uz wx wy wz) = ⟨3, cx, cy, cz⟩ := by
    rw [meanPoint3, para, mean4]
    ext <;> simp only <;> ring
  have t1 := para_tri cx cy cz ux uy uz wx wy wz
  have t2 := para_tri cx cy cz wx wy wz (-ux) (-uy) (-uz)
  have t3 := para_tri cx cy cz (-ux) (-uy) (-uz) (-wx) (-wy) (-wz)
  have t4 := para_tri cx cy cz (-wx) (-wy) (-wz) ux uy uz
  simp only [← sub_eq_add_neg] at t2 t3 t4
  have e2 : (⟨3, (wy * -uz - wz * -uy) / 2, (wz * -ux - wx * -uz) / 2, (wx * -uy - wy * -ux) / 2⟩ : Point) =
    ⟨3, (uy * wz - uz * wy) / 2, (uz * wx - ux * wz) / 2, (ux * wy - uy * wx) / 2⟩ := by ext <;> simp only <;> ring
  have e3 : (⟨3, (-uy * -wz - -uz * -wy) / 2, (-uz * -wx - -ux * -wz) / 2, (-ux * -wy - -uy * -wx) / 2⟩ : Point) =
    ⟨3, (uy * wz - uz * wy) / 2, (uz * wx - ux * wz) / 2, (ux * wy - uy * wx) / 2⟩ := by ext <;> simp only <;> ring
  have e4 : (⟨3, (-wy * uz - -wz * uy) / 2, (-wz * ux - -wx * uz) / 2, (-wx * uy - -wy * ux) / 2⟩ : Point) =
    ⟨3, (uy * wz - uz * wy) / 2, (uz * wx - ux * wz) / 2, (ux * wy - uy * wx) / 2⟩ := by ext <;> simp only <;> ring
  rw [e2] at t2
  rw [e3] at t3
  rw [e4] at t4
  rw [polygon_loop _ (by simp [para])]
  have hd : (Jali.Geom.pt (para cx cy cz ux uy uz wx wy wz) 0).d = 3 := rfl
  dsimp only
  rw [hd, hm]
  generalize hW : (⟨3, (uy * wz - uz * wy) / 2, (uz * wx - ux * wz) / 2, (ux * wy - uy * wx) / 2⟩ : Point) = W at t1 t2 t3 t4 h
  have hE : polyEdges (para cx cy cz ux uy uz wx wy wz) =
      [(⟨3, cx + ux, cy + uy, cz + uz⟩, ⟨3, cx + wx, cy + wy, cz + wz⟩), (⟨3, cx + wx, cy + wy, cz + wz⟩, ⟨3, cx - ux, cy - uy, cz - uz⟩),
       (⟨3, cx - ux, cy - uy, cz - uz⟩, ⟨3, cx - wx, cy - wy, cz - wz⟩), (⟨3, cx - wx, cy - wy, cz - wz⟩, ⟨3, cx + ux, cy + uy, cz + uz⟩)] := by
    simp [polyEdges, para]
  rw [hE]
  simp only [List.map_cons, List.map_nil, List.sum_cons, List.sum_nil, t1, t2, t3, t4, List.any_cons, List.any_nil,
    show ¬ ((3 : Nat) = 2) by decide, decide_false, Bool.false_and, Bool.or_false, List.foldl_cons, List.foldl_nil]
  generalize Point.norm W = n at h
  constructor
  · simp only [labelSign]
    ring_nf
    simp
  · ext <;> simp [addAssign, divAssign, sdiv, zero, add3, smul3, mk3] <;> field_simp <;> ring

/-- a parallelogram with centre `c` and area `4 n` -/
def IsPara (cx cy cz n : ℝ) (l : List Point) : Prop := ∃ ux uy uz wx wy wz : ℝ, l = para cx cy cz ux uy uz wx wy wz ∧
  Point.norm ⟨3, (uy * wz - uz * wy) / 2, (uz * wx - ux * wz) / 2, (ux * wy - uy * wx) / 2⟩ = n

theorem norm_congr3 {x y z x' y' z' : ℝ} (hx : x * x = x' * x') (hy : y * y = y' * y') (hz : z * z = z' * z') :
    Point.norm ⟨3, x, y, z⟩ = Point.norm ⟨3, x', y', z'⟩ := by
  rw [Point.norm, Point.norm, Jali.Geom.dot3, Jali.Geom.dot3, hx, hy, hz]

theorem IsPara.rotate1 {cx cy cz n : ℝ} {l : List Point} (h : IsPara cx cy cz n l) : IsPara cx cy cz n (l.rotate 1) := by
  obtain ⟨ux, uy, uz, wx, wy, wz, rfl, rfl⟩ := h
  refine ⟨wx, wy, wz, -ux, -uy, -uz, ?_, norm_congr3 (by ring) (by ring) (by ring)⟩
  simp [para, sub_eq_add_neg]

theorem IsPara.rotate {cx cy cz n : ℝ} {l : List Point} (h : IsPara cx cy cz n l) (k : Nat) : IsPara cx cy cz n (l.rotate k) := by
  induction k with
  | zero => simpa using h
  | succ k ih => rw [← List.rotate_rotate]; exact ih.rotate1

theorem IsPara.reverse {cx cy cz n : ℝ} {l : List Point} (h : IsPara cx cy cz n l) : IsPara cx cy cz n l.reverse := by
  obtain ⟨ux, uy, uz, wx, wy, wz, rfl, rfl⟩ := h
  refine ⟨-wx, -wy, -wz, -ux, -uy, -uz, ?_, norm_congr3 (by ring) (by ring) (by ring)⟩
  simp [para, sub_eq_add_neg]

theorem IsPara.area {cx cy cz n : ℝ} {l : List Point} (h : IsPara cx cy cz n l) (hn : n ≠ 0) :
    (polygonAreaCentroidNormal l).area = 4 * n ∧ (polygonAreaCentroidNormal l).centroid = mk3 cx cy cz := by
  obtain ⟨ux, uy, uz, wx, wy, wz, rfl, rfl⟩ := h
  exact para_area _ _ _ _ _ _ _ _ _ hn

variable {d : Dom ℝ} {b : Blk} {s : Source ℝ} {r : MeshCache.Request}

/-- area and centroid of a face of an MSTK mesh are those of the polygon of its corners -/
theorem face_area_para (h : s.Solid r) (fh : Fin s.j.m.nf) {f : Nat} (hf : s.j.m.fmap.at f = some fh) {cx cy cz n : ℝ}
    (hp : IsPara cx cy cz n (s.corners fh)) (hn : n ≠ 0) :
    ∃ ns, computeFaceGeometry s.gmesh f = some (4 * n, mk3 cx cy cz, ns) := by
  obtain rfl := s.j.m.fnum.at_iff.mp hf
  have hc : IsPara cx cy cz n (s.gmesh.faceCoords (s.j.m.fmap.id fh - 1)) := by
    rw [gmesh_faceCoords h fh]
    cases s.j.faceflip[s.j.m.fmap.id fh - 1]?.getD false
    · show IsPara _ _ _ _ ((s.j.m.mfVertices (s.j.m.face fh) true).map s.place)
      rw [mfVertices_true]; exact hp
    · show IsPara _ _ _ _ ((s.j.m.mfVertices (s.j.m.face fh) false).map s.place)
      rw [mfVertices_false, List.map_reverse, h.polygons.closed fh, List.map_rotate]
      exact (hp.rotate 1).reverse
  obtain ⟨e1, e2⟩ := hc.area hn
  have hm : s.gmesh.manifoldDim = 3 := by show (if s.dim3 then 3 else 2) = 3; rw [h.dim]; rfl
  simp only [computeFaceGeometry, hm, if_true]
  rw [storeNormals_eq s.gmesh _ _ _ _ (listed h fh), e1, e2]
  exact ⟨_, rfl⟩

theorem rect_x (x y0 y1 z0 z1 : ℝ) (hy : y0 < y1) (hz : z0 < z1) :
    IsPara x ((y0 + y1) / 2) ((z0 + z1) / 2) ((y1 - y0) * (z1 - z0) / 4) [mk3 x y0 z0, mk3 x y1 z0, mk3 x y1 z1, mk3 x y0 z1] := by
  refine ⟨0, (y0 - y1) / 2, (z0 - z1) / 2, 0, (y1 - y0) / 2, (z0 - z1) / 2, ?_, ?_⟩
  · simp only [para, mk3, List.cons.injEq, Point.mk.injEq, true_and, and_true]
    refine ⟨⟨?_, ?_, ?_⟩, ⟨?_, ?_, ?_⟩, ⟨?_, ?_, ?_⟩, ?_, ?_, ?_⟩ <;> ring
  · rw [Point.norm, Jali.Geom.dot3]
    have hp : 0 < (y1 - y0) * (z1 - z0) := mul_pos (sub_pos.2 hy) (sub_pos.2 hz)
    rw [Real.sqrt_eq_iff_mul_self_eq_of_pos (by linarith)]
    ring

theorem rect_y (x0 x1 y z0 z1 : ℝ) (hx : x0 < x1) (hz : z0 < z1) :
    IsPara ((x0 + x1) / 2) y ((z0 + z1) / 2) ((x1 - x0) * (z1 - z0) / 4) [mk3 x0 y z0, mk3 x1 y z0, mk3 x1 y z1, mk3 x0 y z1] := by
  refine ⟨(x0 - x1) / 2, 0, (z0 - z1) / 2, (x1 - x0) / 2, 0, (z0 - z1) / 2, ?_, ?_⟩
  · simp only [para, mk3, List.cons.injEq, Point.mk.injEq, true_and, and_true]
    refine ⟨⟨?_, ?_, ?_⟩, ⟨?_, ?_, ?_⟩, ⟨?_, ?_, ?_⟩, ?_, ?_, ?_⟩ <;> ring
  · rw [Point.norm, Jali.Geom.dot3]
    have hp : 0 < (x1 - x0) * (z1 - z0) := mul_pos (sub_pos.2 hx) (sub_pos.2 hz)
    rw [Real.sqrt_eq_iff_mul_self_eq_of_pos (by linarith)]
    ring

theorem rect_z (x0 x1 y0 y1 z : ℝ) (hx : x0 < x1) (hy : y0 < y1) :
    IsPara ((x0 + x1) / 2) ((y0 + y1) / 2) z ((x1 - x0) * (y1 - y0) / 4) [mk3 x0 y0 z, mk3 x1 y0 z, mk3 x1 y1 z, mk3 x0 y1 z] := by
  refine ⟨(x0 - x1) / 2, (y0 - y1) / 2, 0, (x1 - x0) / 2, (y0 - y1) / 2, 0, ?_, ?_⟩
  · simp only [para, mk3, List.cons.injEq, Point.mk.injEq, true_and, and_true]
    refine ⟨⟨?_, ?_, ?_⟩, ⟨?_, ?_, ?_⟩, ⟨?_, ?_, ?_⟩, ?_, ?_, ?_⟩ <;> ring
  · rw [Point.norm, Jali.Geom.dot3]
    have hp : 0 < (x1 - x0) * (y1 - y0) := mul_pos (sub_pos.2 hx) (sub_pos.2 hy)
    rw [Real.sqrt_eq_iff_mul_self_eq_of_pos (by linarith)]
    ring

end Jali.MstkGen
