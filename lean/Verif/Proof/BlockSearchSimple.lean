import Verif.Proof.BlockSearch
import Verif.Props.SimpleGeometry
import Verif.Props.MetisGraph
import Verif.Proof.FlatFace
import Mathlib.Tactic.LinearCombination
import Mathlib.Tactic.FieldSimp
import Mathlib.Data.List.Rotate
/- The search for a regular structure on the 3D structured mesh. -/
namespace Jali.BlockSearch
open Jali.Geom Jali.Geom.Spec Jali.Geom.Point Jali.MeshGeom Jali.Simple Jali.Simple.Spec Jali.SimpleGeom

/-- the normal points in direction `d` -/
abbrev Aligned (sd d : Nat) (n : Point) : Prop := |dot (divAssign n (norm n)) (refdir sd d) - 1| < 1e-12

theorem scan_skip {m : GMesh} {owned : Nat → Bool} {hi : ℝ} {d c f : Nat} {fs : List Nat} {n : Point}
    (hn : faceNormal m f (some c) = some n) (h : ¬ Aligned m.spaceDim d n) : scan m owned hi d c (f :: fs) = scan m owned hi d c fs := by
  rw [scan, hn]
  dsimp only
  rw [if_neg h]

theorem scan_pair {m : GMesh} {owned : Nat → Bool} {hi : ℝ} {d c f x y : Nat} {fs : List Nat} {n : Point}
    (hn : faceNormal m f (some c) = some n) (h : Aligned m.spaceDim d n) (hc : (m.faceCells f).filter owned = [x, y]) :
    scan m owned hi d c (f :: fs) = .next (if x = c then y else x) := by
  rw [scan, hn]
  dsimp only
  rw [if_pos h, hc]

theorem scan_last {m : GMesh} {owned : Nat → Bool} {hi : ℝ} {d c f x : Nat} {fs : List Nat} {n : Point}
    (hn : faceNormal m f (some c) = some n) (h : Aligned m.spaceDim d n) (hc : (m.faceCells f).filter owned = [x])
    {g : ℝ × Point × Normals} (hg : computeFaceGeometry m f = some g) (e : coord g.2.1 d = hi) :
    scan m owned hi d c (f :: fs) = .reached := by
  rw [scan, hn]
  dsimp only
  rw [if_pos h, hc]
  dsimp only
  rw [hg]
  dsimp only
  rw [if_pos (by rw [e, sub_self, abs_zero]; norm_num)]

theorem unit_dot {x y z w : ℝ} (hw : 0 < w) (h : x * x + y * y + z * z = w * w) {d : Nat} (hd : d < 3) :
    dot (divAssign (mk3 x y z) (norm (mk3 x y z))) (refdir 3 d) = coord (mk3 x y z) d / w := by
  have hn : norm (mk3 x y z) = w := by
    rw [Point.norm, mk3, dot3, h, Real.sqrt_mul_self hw.le]
  rw [hn]
  have : d = 0 ∨ d = 1 ∨ d = 2 := by omega
  rcases this with rfl | rfl | rfl <;> simp [dot, divAssign, mk3, refdir, coord]

theorem aligned_of {x y z w : ℝ} (hw : 0 < w) (h : x * x + y * y + z * z = w * w) {d : Nat} (hd : d < 3)
    (e : coord (mk3 x y z) d = w) : Aligned 3 d (mk3 x y z) := by
  show |_ - 1| < _
  rw [unit_dot hw h hd, e, div_self hw.ne']; norm_num

theorem not_aligned {x y z w : ℝ} (hw : 0 < w) (h : x * x + y * y + z * z = w * w) {d : Nat} (hd : d < 3)
    (e : coord (mk3 x y z) d = 0 ∨ coord (mk3 x y z) d = -w) : ¬ Aligned 3 d (mk3 x y z) := by
  show ¬ |_ - 1| < _
  rw [unit_dot hw h hd]
  rcases e with e | e
  · rw [e, zero_div]; norm_num
  · rw [e, neg_div, div_self hw.ne']; norm_num

variable {d : Dims} {b : Box}

theorem normals6 {p : Pos} (hp : CellIn d p) :
    let M := simpleMesh d b
    let c := cellIdx d p
    let F := fun g => faceNormal M (faceIdx d g) (some c)
    F ⟨.xz, p⟩ = some (mk3 0 (-(hx d b * hz d b)) 0) ∧
    F ⟨.yz, ⟨p.i + 1, p.j, p.k⟩⟩ = some (mk3 (hy d b * hz d b) 0 0) ∧
    F ⟨.xz, ⟨p.i, p.j + 1, p.k⟩⟩ = some (mk3 0 (hx d b * hz d b) 0) ∧
    F ⟨.yz, p⟩ = some (mk3 (-(hy d b * hz d b)) 0 0) ∧
    F ⟨.xy, p⟩ = some (mk3 0 0 (-(hx d b * hy d b))) ∧
    F ⟨.xy, ⟨p.i, p.j, p.k + 1⟩⟩ = some (mk3 0 0 (hx d b * hy d b)) := by
  intro M c F
  have h := simple_normals (d := d) (b := b) hp
  dsimp only at h
  rw [cellFaces_eq d b hp] at h
  simp only [cellFaces, dirs, List.map_cons, List.map_nil, List.zip_cons_cons, List.zip_nil_right, List.cons.injEq, and_true] at h
  exact h

/-- the centroid of a quadrilateral in a plane of constant coordinate lies in that plane -/
theorem centroid_plane {dir : Nat} (hdir : dir < 3) {coords : List Point} (h : 3 ≤ coords.length) (h3 : ∀ p ∈ coords, p.d = 3) {X : ℝ}
    (hX : ∀ p ∈ coords, coord p dir = X) (hz : ∀ k < 3, k ≠ dir → coord (areaVector coords) k = 0)
    (hnz : coord (areaVector coords) dir ≠ 0) : coord (polygonAreaCentroidNormal coords).centroid dir = X := by
  have hne : coords ≠ [] := by intro e; rw [e] at h; simp at h
  have key : ∀ q, inner3 (areaVector coords) q = coord (areaVector coords) dir * coord q dir := by
    intro q
    have h0 := hz 0 (by omega)
    have h1 := hz 1 (by omega)
    have h2 := hz 2 (by omega)
    have : dir = 0 ∨ dir = 1 ∨ dir = 2 := by omega
    rcases this with rfl | rfl | rfl <;> simp [coord, inner3] at * <;> simp [*]
  have hf : SideGeom.Spec.Flat coords := by
    intro p hp q hq
    rw [key]
    have : coord (vec p q) dir = 0 := by
      have e1 := hX p hp
      have e2 := hX q hq
      unfold coord at e1 e2 ⊢
      have : dir = 0 ∨ dir = 1 ∨ dir = 2 := by omega
      rcases this with rfl | rfl | rfl <;> simp [vec] at * <;> linarith
    rw [this, mul_zero]
  have h0 := SideGeom.flat_centroid coords h h3 hf
  rw [key] at h0
  have h1 := (mul_eq_zero.mp h0).resolve_left hnz
  have hm : coord (vertexMean 3 coords) dir = X := by
    have := SideGeom.mean_linear coords hne (if dir = 0 then 1 else 0) (if dir = 1 then 1 else 0) (if dir = 2 then 1 else 0) X ?_
    · have hd : dir = 0 ∨ dir = 1 ∨ dir = 2 := by omega
      rcases hd with rfl | rfl | rfl <;> simpa [coord] using this
    · intro p hp
      have e := hX p hp
      have hd : dir = 0 ∨ dir = 1 ∨ dir = 2 := by omega
      rcases hd with rfl | rfl | rfl <;> simpa [coord] using e
  have hd : dir = 0 ∨ dir = 1 ∨ dir = 2 := by omega
  rcases hd with rfl | rfl | rfl <;> simp [coord, vec] at h1 hm ⊢ <;> linarith

theorem geometry_some {m : GMesh} {f c : Nat} {n : Point} (h : faceNormal m f (some c) = some n) : ∃ g, computeFaceGeometry m f = some g := by
  unfold faceNormal at h
  cases hg : computeFaceGeometry m f with
  | none => rw [hg] at h; simp at h
  | some g => exact ⟨g, rfl⟩

theorem centroid3 {m : GMesh} {f : Nat} {g : ℝ × Point × Normals} (hm : m.manifoldDim = 3) (h : computeFaceGeometry m f = some g) :
    g.2.1 = (polygonAreaCentroidNormal (m.faceCoords f)).centroid := by
  simp only [computeFaceGeometry, hm, if_true, Option.map_eq_some_iff] at h
  obtain ⟨n, _, rfl⟩ := h
  rfl

theorem gx_last (h : Proper d b) : gx d b d.nx = b.x1 := by
  have : (d.nx : ℝ) ≠ 0 := by have := h.nx; positivity
  simp only [gx, hx]; field_simp; ring
theorem gy_last (h : Proper d b) : gy d b d.ny = b.y1 := by
  have : (d.ny : ℝ) ≠ 0 := by have := h.ny; positivity
  simp only [gy, hy]; field_simp; ring
theorem gz_last (h : Proper d b) : gz d b d.nz = b.z1 := by
  have : (d.nz : ℝ) ≠ 0 := by have := h.nz; positivity
  simp only [gz, hz]; field_simp; ring

/-- the neighbour of a cell in a direction -/
def bump (dir : Nat) (p : Pos) : Pos :=
  if dir = 0 then ⟨p.i + 1, p.j, p.k⟩ else if dir = 1 then ⟨p.i, p.j + 1, p.k⟩ else ⟨p.i, p.j, p.k + 1⟩

/-- the face of a cell at the far end in a direction -/
def farFace (dir : Nat) (p : Pos) : FacePos :=
  if dir = 0 then ⟨.yz, bump 0 p⟩ else if dir = 1 then ⟨.xz, bump 1 p⟩ else ⟨.xy, bump 2 p⟩

theorem bump_ne (dir : Nat) (p : Pos) : p ≠ bump dir p := by
  obtain ⟨i, j, k⟩ := p
  unfold bump
  split
  · simp
  · split <;> simp

/-- the scan finds the face at the far end -/
theorem scan_far (h : Proper d b) {p : Pos} (hp : CellIn d p) {dir : Nat} (hdir : dir < 3) {hi : ℝ} :
    ∃ n rest, faceNormal (simpleMesh d b) (faceIdx d (farFace dir p)) (some (cellIdx d p)) = some n ∧ Aligned 3 dir n ∧
    scan (simpleMesh d b) (fun _ => true) hi dir (cellIdx d p) (((simpleMesh d b).cellFaces (cellIdx d p)).map Prod.fst) =
      scan (simpleMesh d b) (fun _ => true) hi dir (cellIdx d p) (faceIdx d (farFace dir p) :: rest) := by
  have hx := hx_pos h
  have hy := hy_pos h
  have hz := hz_pos h
  have e1 := mul_pos hx hz
  have e2 := mul_pos hy hz
  have e3 := mul_pos hx hy
  have hl : ((simpleMesh d b).cellFaces (cellIdx d p)).map Prod.fst = (cellFaces p).map (faceIdx d) := by
    rw [cellFaces_eq d b hp, List.map_fst_zip (by simp [cellFaces, dirs])]
  rw [hl]
  obtain ⟨n1, n2, n3, n4, n5, n6⟩ := normals6 (b := b) hp
  simp only [cellFaces, List.map_cons, List.map_nil]
  have hd : dir = 0 ∨ dir = 1 ∨ dir = 2 := by omega
  rcases hd with rfl | rfl | rfl
  · refine ⟨_, ((cellFaces p).map (faceIdx d)).drop 2, n2, aligned_of e2 (by ring) hdir (by simp [coord, mk3]), ?_⟩
    rw [scan_skip n1 (not_aligned e1 (by ring) hdir (by simp [coord, mk3]))]
    rfl
  · refine ⟨_, ((cellFaces p).map (faceIdx d)).drop 3, n3, aligned_of e1 (by ring) hdir (by simp [coord, mk3]), ?_⟩
    rw [scan_skip n1 (not_aligned e1 (by ring) hdir (by simp [coord, mk3])),
      scan_skip n2 (not_aligned e2 (by ring) hdir (by simp [coord, mk3]))]
    rfl
  · refine ⟨_, ((cellFaces p).map (faceIdx d)).drop 6, n6, aligned_of e3 (by ring) hdir (by simp [coord, mk3]), ?_⟩
    rw [scan_skip n1 (not_aligned e1 (by ring) hdir (by simp [coord, mk3])),
      scan_skip n2 (not_aligned e2 (by ring) hdir (by simp [coord, mk3])),
      scan_skip n3 (not_aligned e1 (by ring) hdir (by simp [coord, mk3])),
      scan_skip n4 (not_aligned e2 (by ring) hdir (by simp [coord, mk3])),
      scan_skip n5 (not_aligned e3 (by ring) hdir (by simp [coord, mk3]))]
    rfl

theorem farFace_mem (dir : Nat) (hdir : dir < 3) (p : Pos) : farFace dir p ∈ cellFaces p := by
  have hd : dir = 0 ∨ dir = 1 ∨ dir = 2 := by omega
  rcases hd with rfl | rfl | rfl <;> simp [farFace, bump, cellFaces]

/-- the cells on the two sides of the face at the far end -/
theorem far_cells {p : Pos} (hp : CellIn d p) {dir : Nat} (hdir : dir < 3) :
    (CellIn d (bump dir p) → ∃ x y, (simpleMesh d b).faceCells (faceIdx d (farFace dir p)) = [x, y] ∧
      (if x = cellIdx d p then y else x) = cellIdx d (bump dir p)) ∧
    (¬ CellIn d (bump dir p) → (simpleMesh d b).faceCells (faceIdx d (farFace dir p)) = [cellIdx d p]) := by
  have hin := cellFaces_in d hp (farFace_mem dir hdir p)
  have hc : (simpleMesh d b).faceCells (faceIdx d (farFace dir p)) =
    ((faceCellAt d (farFace dir p) 0).toList ++ (faceCellAt d (farFace dir p) 1).toList).map (cellIdx d) := faceCells_nat d hin
  have hne : ∀ h : CellIn d (bump dir p), cellIdx d (bump dir p) ≠ cellIdx d p :=
    fun h e => bump_ne dir p (cellIdx_inj d hp h e.symm)
  rw [hc]
  obtain ⟨i, j, k⟩ := p
  obtain ⟨h1, h2, h3⟩ := hp
  dsimp only at h1 h2 h3
  have hd : dir = 0 ∨ dir = 1 ∨ dir = 2 := by omega
  rcases hd with rfl | rfl | rfl
  · simp only [farFace, bump, if_true, faceCellAt, CellIn, Pos.In, h2, h3, and_true] at hne ⊢
    constructor
    · intro h
      refine ⟨_, _, by simp only [h, if_true, Nat.succ_pos, Option.toList_some, List.cons_append, List.nil_append, List.map_cons, List.map_nil]; rfl, if_neg (hne h)⟩
    · intro h
      simp [h]
  · simp only [farFace, bump, show ¬ (1 : Nat) = 0 by decide, if_false, if_true, faceCellAt, CellIn, Pos.In, h1, h3, and_true, true_and] at hne ⊢
    constructor
    · intro h
      refine ⟨_, _, by simp only [h, if_true, Nat.succ_pos, Option.toList_some, List.cons_append, List.nil_append, List.map_cons, List.map_nil]; rfl, if_pos rfl⟩
    · intro h
      simp [h]
  · simp only [farFace, bump, show ¬ (2 : Nat) = 0 by decide, show ¬ (2 : Nat) = 1 by decide, if_false, faceCellAt, CellIn, Pos.In, h1, h2, true_and] at hne ⊢
    constructor
    · intro h
      refine ⟨_, _, by simp only [h, if_true, Nat.succ_pos, Option.toList_some, List.cons_append, List.nil_append, List.map_cons, List.map_nil]; rfl, if_neg (hne h)⟩
    · intro h
      simp [h]

/-- high end of the domain -/
noncomputable def top (b : Box) (dir : Nat) : ℝ := if dir = 0 then b.x1 else if dir = 1 then b.y1 else b.z1
/-- low end of the domain -/
noncomputable def bot (b : Box) (dir : Nat) : ℝ := if dir = 0 then b.x0 else if dir = 1 then b.y0 else b.z0

/-- the centroid of the face at the far end of the last cell is at the high end of the domain -/
theorem far_centroid (h : Proper d b) {p : Pos} (hp : CellIn d p) {dir : Nat} (hdir : dir < 3) (hlast : ¬ CellIn d (bump dir p)) :
    coord (polygonAreaCentroidNormal ((simpleMesh d b).faceCoords (faceIdx d (farFace dir p)))).centroid dir = top b dir := by
  have hx := hx_pos h
  have hy := hy_pos h
  have hz := hz_pos h
  have e1 := mul_pos hx hz
  have e2 := mul_pos hy hz
  have e3 := mul_pos hx hy
  rw [faceCoords_eq d b (cellFaces_in d hp (farFace_mem dir hdir p))]
  have hl : ∀ f : FacePos, 3 ≤ ((faceCorners f).map fun p => Point.mk3 (gx d b p.i) (gy d b p.j) (gz d b p.k)).length := by
    intro f; obtain ⟨o, q⟩ := f; cases o <;> simp [faceCorners]
  have h3 : ∀ f : FacePos, ∀ q ∈ ((faceCorners f).map fun p => Point.mk3 (gx d b p.i) (gy d b p.j) (gz d b p.k)), q.d = 3 := by
    intro f q hq
    obtain ⟨r, _, rfl⟩ := List.mem_map.1 hq
    rfl
  obtain ⟨i, j, k⟩ := p
  obtain ⟨h1, h2, h4⟩ := hp
  dsimp only at h1 h2 h4
  have hd : dir = 0 ∨ dir = 1 ∨ dir = 2 := by omega
  rcases hd with rfl | rfl | rfl
  · have hi : i + 1 = d.nx := by
      simp only [bump, if_true, CellIn, Pos.In, h2, h4, and_true] at hlast; omega
    refine centroid_plane hdir (hl _) (h3 _) ?_ ?_ ?_
    · intro q hq
      simp only [farFace, bump, if_true, faceCorners, List.map_cons, List.map_nil, List.mem_cons, List.not_mem_nil, or_false, hi, gx_last h] at hq
      rcases hq with rfl | rfl | rfl | rfl <;> simp [coord, mk3, top]
    · intro k hk hkd
      have : k = 1 ∨ k = 2 := by omega
      rcases this with rfl | rfl <;>
        simp [coord, farFace, bump, faceCorners, areaVector, polyEdges, mk3] <;> ring
    · simp only [coord, farFace, bump, if_true, faceCorners, areaVector, polyEdges, mk3, List.map_cons, List.map_nil, List.rotate_cons_succ, List.rotate_zero,
        List.zip_cons_cons, List.cons_append, List.nil_append, List.zip_nil_right, List.sum_cons, List.sum_nil]
      have : gy d b (j + 1) = gy d b j + SimpleGeom.hy d b := by simp only [gy]; push_cast; ring
      have g2 : gz d b (k + 1) = gz d b k + SimpleGeom.hz d b := by simp only [gz]; push_cast; ring
      rw [this, g2]
      intro e
      apply e2.ne'
      linear_combination e
  · have hi : j + 1 = d.ny := by
      simp only [bump, show ¬ (1 : Nat) = 0 by decide, if_false, if_true, CellIn, Pos.In, h1, h4, and_true, true_and] at hlast; omega
    refine centroid_plane hdir (hl _) (h3 _) ?_ ?_ ?_
    · intro q hq
      simp only [farFace, bump, show ¬ (1 : Nat) = 0 by decide, if_false, if_true, faceCorners, List.map_cons, List.map_nil, List.mem_cons, List.not_mem_nil, or_false, hi, gy_last h] at hq
      rcases hq with rfl | rfl | rfl | rfl <;> simp [coord, mk3, top]
    · intro k hk hkd
      have : k = 0 ∨ k = 2 := by omega
      rcases this with rfl | rfl <;>
        simp [coord, farFace, bump, faceCorners, areaVector, polyEdges, mk3] <;> ring
    · simp only [coord, farFace, bump, show ¬ (1 : Nat) = 0 by decide, if_false, if_true, faceCorners, areaVector, polyEdges, mk3, List.map_cons, List.map_nil, List.rotate_cons_succ, List.rotate_zero,
        List.zip_cons_cons, List.cons_append, List.nil_append, List.zip_nil_right, List.sum_cons, List.sum_nil]
      have : gx d b (i + 1) = gx d b i + SimpleGeom.hx d b := by simp only [gx]; push_cast; ring
      have g2 : gz d b (k + 1) = gz d b k + SimpleGeom.hz d b := by simp only [gz]; push_cast; ring
      rw [this, g2]
      intro e
      apply e1.ne'
      linear_combination -e
  · have hi : k + 1 = d.nz := by
      simp only [bump, show ¬ (2 : Nat) = 0 by decide, show ¬ (2 : Nat) = 1 by decide, if_false, CellIn, Pos.In, h1, h2, true_and] at hlast; omega
    refine centroid_plane hdir (hl _) (h3 _) ?_ ?_ ?_
    · intro q hq
      simp only [farFace, bump, show ¬ (2 : Nat) = 0 by decide, show ¬ (2 : Nat) = 1 by decide, if_false, faceCorners, List.map_cons, List.map_nil, List.mem_cons, List.not_mem_nil, or_false, hi, gz_last h] at hq
      rcases hq with rfl | rfl | rfl | rfl <;> simp [coord, mk3, top]
    · intro k hk hkd
      have : k = 0 ∨ k = 1 := by omega
      rcases this with rfl | rfl <;>
        simp [coord, farFace, bump, faceCorners, areaVector, polyEdges, mk3] <;> ring
    · simp only [coord, farFace, bump, show ¬ (2 : Nat) = 0 by decide, show ¬ (2 : Nat) = 1 by decide, if_false, faceCorners, areaVector, polyEdges, mk3, List.map_cons, List.map_nil, List.rotate_cons_succ, List.rotate_zero,
        List.zip_cons_cons, List.cons_append, List.nil_append, List.zip_nil_right, List.sum_cons, List.sum_nil]
      have : gx d b (i + 1) = gx d b i + SimpleGeom.hx d b := by simp only [gx]; push_cast; ring
      have g2 : gy d b (j + 1) = gy d b j + SimpleGeom.hy d b := by simp only [gy]; push_cast; ring
      rw [this, g2]
      intro e
      apply e3.ne'
      linear_combination e

/-- one turn of the walk: to the neighbour, or the high end is reached -/
theorem scan_simple (h : Proper d b) {p : Pos} (hp : CellIn d p) {dir : Nat} (hdir : dir < 3) :
    (CellIn d (bump dir p) → scan (simpleMesh d b) (fun _ => true) (top b dir) dir (cellIdx d p)
      (((simpleMesh d b).cellFaces (cellIdx d p)).map Prod.fst) = .next (cellIdx d (bump dir p))) ∧
    (¬ CellIn d (bump dir p) → scan (simpleMesh d b) (fun _ => true) (top b dir) dir (cellIdx d p)
      (((simpleMesh d b).cellFaces (cellIdx d p)).map Prod.fst) = .reached) := by
  obtain ⟨n, rest, hn, ha, e⟩ := scan_far h hp hdir (hi := top b dir)
  obtain ⟨c1, c2⟩ := far_cells (b := b) hp hdir
  rw [e]
  constructor
  · intro hb
    obtain ⟨x, y, hc, he⟩ := c1 hb
    rw [scan_pair hn ha (by rw [hc]; rfl), he]
  · intro hb
    obtain ⟨g, hg⟩ := geometry_some hn
    refine scan_last hn ha (by rw [c2 hb]; rfl) hg ?_
    rw [centroid3 rfl hg]
    exact far_centroid h hp hdir hb

end Jali.BlockSearch
