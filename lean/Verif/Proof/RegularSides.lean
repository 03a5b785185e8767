import Verif.Props.MstkBuildGeom
import Verif.Props.MstkSideGeometry2
/-! Sides over the edges of a box. -/
namespace Jali.MstkGen
open Spec Jali.Mstk Jali.Geom Jali.Geom.Point Jali.Geom.Spec Jali.MeshGeom Jali.Sides Jali.Sides.Spec

/-- the tetrahedra from the middle of a box over the triangles of the edges of its sides and the middles of these sides -/
theorem box_tets {x0 x1 y0 y1 z0 z1 : ℝ} (hx : x0 < x1) (hy : y0 < y1) (hz : z0 < z1) {C : Point} (cx : C.x = (x0 + x1) / 2)
    (cy : C.y = (y0 + y1) / 2) (cz : C.z = (z0 + z1) / 2) {l : List Point} (hl : l ∈ boxSides x0 x1 y0 y1 z0 z1) :
    ∃ mx my mz n, n ≠ 0 ∧ IsPara mx my mz n l ∧ ∀ e ∈ polyEdges l,
      tetVol C e.1 e.2 (mk3 mx my mz) = (x1 - x0) * (y1 - y0) * (z1 - z0) / 24 ∧
      areaVector [e.1, e.2, mk3 mx my mz] = ⟨3, (areaVector l).x / 4, (areaVector l).y / 4, (areaVector l).z / 4⟩ := by
  have px := sub_pos.2 hx
  have py := sub_pos.2 hy
  have pz := sub_pos.2 hz
  have nxy : (x1 - x0) * (y1 - y0) / 4 ≠ 0 := (div_pos (mul_pos px py) (by norm_num)).ne'
  have nxz : (x1 - x0) * (z1 - z0) / 4 ≠ 0 := (div_pos (mul_pos px pz) (by norm_num)).ne'
  have nyz : (y1 - y0) * (z1 - z0) / 4 ≠ 0 := (div_pos (mul_pos py pz) (by norm_num)).ne'
  have key : ∀ (l : List Point) (mx my mz n : ℝ), n ≠ 0 → IsPara mx my mz n l → (∀ e ∈ polyEdges l,
      tetVol C e.1 e.2 (mk3 mx my mz) = (x1 - x0) * (y1 - y0) * (z1 - z0) / 24 ∧
      areaVector [e.1, e.2, mk3 mx my mz] = ⟨3, (areaVector l).x / 4, (areaVector l).y / 4, (areaVector l).z / 4⟩) →
      ∃ mx my mz n, n ≠ 0 ∧ IsPara mx my mz n l ∧ ∀ e ∈ polyEdges l,
      tetVol C e.1 e.2 (mk3 mx my mz) = (x1 - x0) * (y1 - y0) * (z1 - z0) / 24 ∧
      areaVector [e.1, e.2, mk3 mx my mz] = ⟨3, (areaVector l).x / 4, (areaVector l).y / 4, (areaVector l).z / 4⟩ :=
    fun l mx my mz n h1 h2 h3 => ⟨mx, my, mz, n, h1, h2, h3⟩
  simp only [boxSides, List.mem_cons, List.not_mem_nil, or_false] at hl
  rcases hl with rfl | rfl | rfl | rfl | rfl | rfl
  · refine key _ _ _ _ _ nxy (rect_z x0 x1 y0 y1 z0 hx hy).reverse ?_
    intro e he
    simp only [polyEdges, List.rotate_cons_succ, List.rotate_zero, List.cons_append, List.nil_append, List.zip_cons_cons,
      List.zip_nil_right, List.mem_cons, List.not_mem_nil, or_false] at he
    simp only [tetVol, det3, vec, areaVector, polyEdges, List.rotate_cons_succ, List.rotate_zero, List.cons_append, List.nil_append,
      List.zip_cons_cons, List.zip_nil_right, List.map_cons, List.map_nil, List.sum_cons, List.sum_nil, cx, cy, cz, Point.mk.injEq,
      true_and]
    rcases he with rfl | rfl | rfl | rfl <;> simp only [mk3] <;> refine ⟨?_, ?_, ?_, ?_⟩ <;> ring
  · refine key _ _ _ _ _ nxy (rect_z x0 x1 y0 y1 z1 hx hy) ?_
    intro e he
    simp only [polyEdges, List.rotate_cons_succ, List.rotate_zero, List.cons_append, List.nil_append, List.zip_cons_cons,
      List.zip_nil_right, List.mem_cons, List.not_mem_nil, or_false] at he
    simp only [tetVol, det3, vec, areaVector, polyEdges, List.rotate_cons_succ, List.rotate_zero, List.cons_append, List.nil_append,
      List.zip_cons_cons, List.zip_nil_right, List.map_cons, List.map_nil, List.sum_cons, List.sum_nil, cx, cy, cz, Point.mk.injEq,
      true_and]
    rcases he with rfl | rfl | rfl | rfl <;> simp only [mk3] <;> refine ⟨?_, ?_, ?_, ?_⟩ <;> ring
  · refine key _ _ _ _ _ nxz (rect_y x0 x1 y0 z0 z1 hx hz) ?_
    intro e he
    simp only [polyEdges, List.rotate_cons_succ, List.rotate_zero, List.cons_append, List.nil_append, List.zip_cons_cons,
      List.zip_nil_right, List.mem_cons, List.not_mem_nil, or_false] at he
    simp only [tetVol, det3, vec, areaVector, polyEdges, List.rotate_cons_succ, List.rotate_zero, List.cons_append, List.nil_append,
      List.zip_cons_cons, List.zip_nil_right, List.map_cons, List.map_nil, List.sum_cons, List.sum_nil, cx, cy, cz, Point.mk.injEq,
      true_and]
    rcases he with rfl | rfl | rfl | rfl <;> simp only [mk3] <;> refine ⟨?_, ?_, ?_, ?_⟩ <;> ring
  · refine key _ _ _ _ _ nyz (rect_x x1 y0 y1 z0 z1 hy hz) ?_
    intro e he
    simp only [polyEdges, List.rotate_cons_succ, List.rotate_zero, List.cons_append, List.nil_append, List.zip_cons_cons,
      List.zip_nil_right, List.mem_cons, List.not_mem_nil, or_false] at he
    simp only [tetVol, det3, vec, areaVector, polyEdges, List.rotate_cons_succ, List.rotate_zero, List.cons_append, List.nil_append,
      List.zip_cons_cons, List.zip_nil_right, List.map_cons, List.map_nil, List.sum_cons, List.sum_nil, cx, cy, cz, Point.mk.injEq,
      true_and]
    rcases he with rfl | rfl | rfl | rfl <;> simp only [mk3] <;> refine ⟨?_, ?_, ?_, ?_⟩ <;> ring
  · refine key _ _ _ _ _ nxz (rect_y x0 x1 y1 z0 z1 hx hz).reverse ?_
    intro e he
    simp only [polyEdges, List.rotate_cons_succ, List.rotate_zero, List.cons_append, List.nil_append, List.zip_cons_cons,
      List.zip_nil_right, List.mem_cons, List.not_mem_nil, or_false] at he
    simp only [tetVol, det3, vec, areaVector, polyEdges, List.rotate_cons_succ, List.rotate_zero, List.cons_append, List.nil_append,
      List.zip_cons_cons, List.zip_nil_right, List.map_cons, List.map_nil, List.sum_cons, List.sum_nil, cx, cy, cz, Point.mk.injEq,
      true_and]
    rcases he with rfl | rfl | rfl | rfl <;> simp only [mk3] <;> refine ⟨?_, ?_, ?_, ?_⟩ <;> ring
  · refine key _ _ _ _ _ nyz (rect_x x0 y0 y1 z0 z1 hy hz).reverse ?_
    intro e he
    simp only [polyEdges, List.rotate_cons_succ, List.rotate_zero, List.cons_append, List.nil_append, List.zip_cons_cons,
      List.zip_nil_right, List.mem_cons, List.not_mem_nil, or_false] at he
    simp only [tetVol, det3, vec, areaVector, polyEdges, List.rotate_cons_succ, List.rotate_zero, List.cons_append, List.nil_append,
      List.zip_cons_cons, List.zip_nil_right, List.map_cons, List.map_nil, List.sum_cons, List.sum_nil, cx, cy, cz, Point.mk.injEq,
      true_and]
    rcases he with rfl | rfl | rfl | rfl <;> simp only [mk3] <;> refine ⟨?_, ?_, ?_, ?_⟩ <;> ring

open Classical in
/-- among the edges of the sides of a box, six end at each corner of the box -/
theorem box_ends {x0 x1 y0 y1 z0 z1 : ℝ} (hx : x0 < x1) (hy : y0 < y1) (hz : z0 < z1) {P : Point}
    (hP : P ∈ [mk3 x0 y0 z0, mk3 x1 y0 z0, mk3 x1 y1 z0, mk3 x0 y1 z0, mk3 x0 y0 z1, mk3 x1 y0 z1, mk3 x1 y1 z1, mk3 x0 y1 z1]) :
    ((boxSides x0 x1 y0 y1 z0 z1).map fun l => (polyEdges l).countP fun e => decide (e.1 = P) || decide (e.2 = P)).sum = 6 := by
  have a := hx.ne
  have b := hy.ne
  have c := hz.ne
  have a' := hx.ne'
  have b' := hy.ne'
  have c' := hz.ne'
  simp only [List.mem_cons, List.not_mem_nil, or_false] at hP
  rcases hP with rfl | rfl | rfl | rfl | rfl | rfl | rfl | rfl <;>
    simp [boxSides, polyEdges, mk3, List.countP_cons, a, b, c, a', b', c']

variable {d : Dom ℝ} {b : Blk} {s : Source ℝ} {g : RegMesh ℝ} {r : MeshCache.Request}

/-- the edges of a face as seen from a cell -/
theorem outward_mem (hp : s.j.m.Polygons) {q : Fin s.j.m.nf × Bool} {p : Fin s.j.m.ne × Bool} (h : p ∈ (s.j.m.face q.1).edges) :
    (s.place (s.j.m.start (p.1, p.2 == q.2)), s.place (s.j.m.finish (p.1, p.2 == q.2))) ∈ polyEdges (s.outward q) :=
  (outward_edges hp q).mem_iff.mpr (List.mem_map.mpr ⟨(p.1, p.2 == q.2), List.mem_map.mpr ⟨p, h, rfl⟩, rfl⟩)

/-- the centroid of a face that is a parallelogram as seen from a cell -/
theorem centroid_para (h : s.Solid r) (t : Types.TypeInfo) (q : Fin s.j.m.nf × Bool) {mx my mz n : ℝ} (hn : n ≠ 0)
    (hq : IsPara mx my mz n (s.outward q)) : (s.coords t).faceCentroid (s.j.m.fmap.id q.1 - 1) = mk3 mx my mz := by
  rw [face_centroid_of h t]
  have hc : IsPara mx my mz n (s.gmesh.faceCoords (s.j.m.fmap.id q.1 - 1)) := by
    obtain ⟨k, hk | hk⟩ := faceCoords_turned h q
    · rw [hk]; exact hq.rotate k
    · rw [hk]; exact (hq.rotate k).reverse
  exact (hc.area hn).2

end Jali.MstkGen
