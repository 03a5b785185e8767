import Verif.Model.SimpleGeometry
import Verif.Proof.BoxCell
import Verif.Props.MeshGeometry
import Verif.Proof.MeshSimpleMore
/-! Property theorems C72: cell volumes, centroids, normals and the point test of the 3D structured mesh. -/
namespace Jali.SimpleGeom
open Jali.Geom Jali.Geom.Spec Jali.MeshGeom Jali.Simple Jali.Simple.Spec

variable (d : Dims) (b : Box)

/-- cell widths -/
noncomputable def hx : ℝ := ((b.x1 : ℝ) - b.x0) / d.nx
noncomputable def hy : ℝ := ((b.y1 : ℝ) - b.y0) / d.ny
noncomputable def hz : ℝ := ((b.z1 : ℝ) - b.z0) / d.nz

/-- lattice coordinates -/
noncomputable def gx (i : Nat) : ℝ := b.x0 + i * hx d b
noncomputable def gy (j : Nat) : ℝ := b.y0 + j * hy d b
noncomputable def gz (k : Nat) : ℝ := b.z0 + k * hz d b

theorem toPoint_lattice (p : Pos) : toPoint (latticePoint d b p).list = Point.mk3 (gx d b p.i) (gy d b p.j) (gz d b p.k) := by
  simp only [toPoint, V3.list, latticePoint, List.getD_cons_zero, List.getD_cons_succ, gx, gy, gz, hx, hy, hz]
  push_cast
  rfl

theorem nodes_points (L : List Pos) (h : ∀ p ∈ L, NodeIn d p) :
    ((L.map (nodeIdx d)).map (nodeGetCoordinates 3 (coordinates d b))).map toPoint =
      L.map fun p => Point.mk3 (gx d b p.i) (gy d b p.j) (gz d b p.k) := by
  rw [List.map_map, List.map_map]
  apply List.map_congr_left
  intro p hp
  simp only [Function.comp_def]
  rw [nodeGetCoordinates_eq d b (h p hp), toPoint_lattice]

/-- the corner of the cell at `p` -/
noncomputable abbrev cellBox (p : Pos) (g : ℝ → ℝ → ℝ → ℝ → ℝ → ℝ → α) : α :=
  g (gx d b p.i) (gy d b p.j) (gz d b p.k) (hx d b) (hy d b) (hz d b)

theorem cellCoords_eq {p : Pos} (hp : CellIn d p) : (simpleMesh d b).cellCoords (cellIdx d p) = cellBox d b p boxCorners := by
  show (cellGetCoordinates d (coordinates d b) (cellIdx d p)).map toPoint = _
  rw [cellGetCoordinates, cellGetNodes_eq d hp, nodes_points d b _ fun q hq => hexCorners_in d hp hq]
  simp only [cellBox, boxCorners, boxC, hexCorners, List.map_cons, List.map_nil, boxCorner, Nat.cast_zero, Nat.cast_one, gx, gy, gz]
  push_cast
  simp only [add_mul, zero_mul, add_zero, one_mul, add_assoc]

theorem faceCoords_eq {f : FacePos} (hf : FaceIn d f) : (simpleMesh d b).faceCoords (faceIdx d f) =
    (faceCorners f).map fun p => Point.mk3 (gx d b p.i) (gy d b p.j) (gz d b p.k) := by
  show (faceGetCoordinates d (coordinates d b) (faceIdx d f)).map toPoint = _
  rw [faceGetCoordinates, faceGetNodes_eq d hf, nodes_points d b _ fun q hq => faceCorners_in d hf hq]

theorem cellFaces_eq {p : Pos} (hp : CellIn d p) : (simpleMesh d b).cellFaces (cellIdx d p) =
    ((cellFaces p).map (faceIdx d)).zip dirs := by
  show (cellGetFaces d (cellIdx d p)).zip (cellGetFaceDirs d (cellIdx d p)) = _
  rw [cellGetFaces_eq d hp, cellGetFaceDirs_eq d hp]

theorem oriented_eq {p : Pos} (hp : CellIn d p) :
    ((simpleMesh d b).cellFaces (cellIdx d p)).map (orientedFace (simpleMesh d b)) = cellBox d b p boxFaces := by
  rw [cellFaces_eq d b hp]
  have h : ∀ f ∈ cellFaces p, FaceIn d f := fun f hf => cellFaces_in d hp hf
  simp only [cellFaces, List.forall_mem_cons] at h
  obtain ⟨f1, f2, f3, f4, f5, f6, _⟩ := h
  simp only [cellFaces, dirs, List.map_cons, List.map_nil, List.zip_cons_cons, List.zip_nil_right, orientedFace, if_true,
    show ¬ ((-1 : Int) = 1) by decide, if_false, faceCoords_eq d b f1, faceCoords_eq d b f2, faceCoords_eq d b f3,
    faceCoords_eq d b f4, faceCoords_eq d b f5, faceCoords_eq d b f6, faceCorners, List.reverse_cons, List.reverse_nil,
    List.nil_append, List.cons_append]
  simp only [cellBox, boxFaces, boxF, List.map_cons, List.map_nil, boxCorner, Nat.cast_zero, Nat.cast_one, gx, gy, gz]
  push_cast
  simp only [add_mul, zero_mul, add_zero, one_mul, add_assoc]

/-- the domain is a proper box and there are cells in every direction -/
structure Proper : Prop where
  x : b.x0 < b.x1
  y : b.y0 < b.y1
  z : b.z0 < b.z1
  nx : 0 < d.nx
  ny : 0 < d.ny
  nz : 0 < d.nz

variable {d b}
theorem hx_pos (h : Proper d b) : 0 < hx d b := by
  have : (b.x0 : ℝ) < b.x1 := by exact_mod_cast h.x
  have h2 : (0 : ℝ) < d.nx := by exact_mod_cast h.nx
  exact div_pos (by linarith) h2
theorem hy_pos (h : Proper d b) : 0 < hy d b := by
  have : (b.y0 : ℝ) < b.y1 := by exact_mod_cast h.y
  have h2 : (0 : ℝ) < d.ny := by exact_mod_cast h.ny
  exact div_pos (by linarith) h2
theorem hz_pos (h : Proper d b) : 0 < hz d b := by
  have : (b.z0 : ℝ) < b.z1 := by exact_mod_cast h.z
  have h2 : (0 : ℝ) < d.nz := by exact_mod_cast h.nz
  exact div_pos (by linarith) h2

/-- **C72, volumes and centroids.** The volume of every cell of the structured mesh is the product of the three cell
widths, and its centroid is the middle of the cell. -/
theorem simple_cell_geometry (h : Proper d b) {p : Pos} (hp : p.In d.nx d.ny d.nz) :
    computeCellGeometry (simpleMesh d b) (cellIdx d p) = some
      (((b.x1 : ℝ) - b.x0) / d.nx * ((b.y1 - b.y0) / d.ny) * ((b.z1 - b.z0) / d.nz),
       Point.mk3 (b.x0 + (p.i + 1 / 2) * ((b.x1 - b.x0) / d.nx)) (b.y0 + (p.j + 1 / 2) * ((b.y1 - b.y0) / d.ny))
         (b.z0 + (p.k + 1 / 2) * ((b.z1 - b.z0) / d.nz))) := by
  rw [computeCellGeometry, if_pos (show (simpleMesh d b).manifoldDim = 3 from rfl)]
  simp only
  rw [oriented_eq d b hp, cellCoords_eq d b hp, box_geometry _ _ _ _ _ _ (hx_pos h) (hy_pos h) (hz_pos h)]
  simp only [gx, gy, gz, hx, hy, hz]
  congr 2
  simp only [Point.mk3]
  ext <;> simp only <;> ring

/-- **C72, the cells fill the domain.** The volumes of all cells add up to the volume of the domain. -/
theorem simple_total_volume (h : Proper d b) :
    ((List.range (numCells d)).map fun c => ((computeCellGeometry (simpleMesh d b) c).map Prod.fst).getD 0).sum =
      ((b.x1 : ℝ) - b.x0) * (b.y1 - b.y0) * (b.z1 - b.z0) := by
  have key : (List.range (numCells d)).map (fun c => ((computeCellGeometry (simpleMesh d b) c).map Prod.fst).getD 0) =
      (List.range (numCells d)).map fun _ => ((b.x1 : ℝ) - b.x0) / d.nx * ((b.y1 - b.y0) / d.ny) * ((b.z1 - b.z0) / d.nz) := by
    apply List.map_congr_left
    intro c hc
    obtain ⟨p, hp, rfl⟩ := cellIdx_surj d (List.mem_range.1 hc)
    rw [simple_cell_geometry h hp]; rfl
  rw [key, List.map_const', List.sum_replicate, List.length_range, nsmul_eq_mul, numCells]
  have h1 : (d.nx : ℝ) ≠ 0 := by have := h.nx; positivity
  have h2 : (d.ny : ℝ) ≠ 0 := by have := h.ny; positivity
  have h3 : (d.nz : ℝ) ≠ 0 := by have := h.nz; positivity
  push_cast
  field_simp

/-- **C72, the point test.** A point is reported to be in a cell exactly if it is in the closed box of the cell. -/
theorem simple_point_in_cell (h : Proper d b) {p : Pos} (hp : p.In d.nx d.ny d.nz) (t : Point) :
    pointInCell (simpleMesh d b) t (cellIdx d p) = true ↔
      (b.x0 + p.i * ((b.x1 - b.x0) / d.nx) ≤ t.x ∧ t.x ≤ b.x0 + (p.i + 1) * ((b.x1 - b.x0) / d.nx)) ∧
      (b.y0 + p.j * ((b.y1 - b.y0) / d.ny) ≤ t.y ∧ t.y ≤ b.y0 + (p.j + 1) * ((b.y1 - b.y0) / d.ny)) ∧
      (b.z0 + p.k * ((b.z1 - b.z0) / d.nz) ≤ t.z ∧ t.z ≤ b.z0 + (p.k + 1) * ((b.z1 - b.z0) / d.nz)) := by
  rw [pointInCell, if_pos (show (simpleMesh d b).manifoldDim = 3 from rfl)]
  simp only
  rw [oriented_eq d b hp, cellCoords_eq d b hp, box_inside _ _ _ _ _ _ (hx_pos h) (hy_pos h) (hz_pos h)]
  simp only [gx, gy, gz, hx, hy, hz, add_mul, one_mul, add_assoc]

theorem mem_of_prefix {α β : Type} (l : List α) (r : List β) {x : α × β} (h : x ∈ l.zip r) : x.1 ∈ l ∧ x.2 ∈ r :=
  List.of_mem_zip h

/-- every cell of a proper structured mesh meets the requirements of the theorems on normals -/
theorem simple_goodCell {p : Pos} (hp : CellIn d p) : GoodCell (simpleMesh d b) (cellIdx d p) := by
  have hdirs : ∀ {q : Pos} {f : FacePos}, CellIn d q → f ∈ cellFaces q →
      faceDir (simpleMesh d b) (faceIdx d f) (cellIdx d q) = some 1 ∨ faceDir (simpleMesh d b) (faceIdx d f) (cellIdx d q) = some (-1) := by
    intro q f hq hf
    have hn : (((simpleMesh d b).cellFaces (cellIdx d q)).map Prod.fst).Nodup := by
      rw [cellFaces_eq d b hq, List.map_fst_zip (by simp [cellFaces, dirs])]
      exact faceIds_nodup d hq
    obtain ⟨i, hi, rfl⟩ := List.mem_iff_getElem.1 hf
    have hi' : i < dirs.length := hi
    have hmem : (faceIdx d ((cellFaces q)[i]), dirs[i]'hi') ∈ (simpleMesh d b).cellFaces (cellIdx d q) := by
      rw [cellFaces_eq d b hq, List.mem_iff_getElem]
      exact ⟨i, by simpa [List.length_zip, cellFaces, dirs] using hi', by simp; rfl⟩
    have hfd := faceDir_of_mem (simpleMesh d b) hn hmem
    have : ∀ x ∈ dirs, x = 1 ∨ x = -1 := by decide
    rcases this (dirs[i]'hi') (List.getElem_mem _) with h | h
    · exact .inl (hfd.trans (congrArg some h))
    · exact .inr (hfd.trans (congrArg some h))
  refine ⟨rfl, ?_, ?_⟩
  · intro fd hfd
    rw [cellFaces_eq d b hp] at hfd
    obtain ⟨h1, h2⟩ := mem_of_prefix _ _ hfd
    obtain ⟨f, hf, hfe⟩ := List.mem_map.1 h1
    have hfi := cellFaces_in d hp hf
    have hcells : ∀ q, CellIn d q → (cellIdx d q ∈ (simpleMesh d b).faceCells fd.1 ↔ f ∈ cellFaces q) := by
      intro q hq
      have hm := mem_cells_iff d hq hfi
      show cellIdx d q ∈ (faceGetCells d fd.1).map Int.toNat ↔ _
      rw [← hfe, ← hm, List.mem_map]
      constructor
      · rintro ⟨x, hx, hxe⟩
        rw [faceGetCells_eq d hfi, List.mem_map] at hx
        obtain ⟨q', hq', rfl⟩ := hx
        rw [Int.toNat_natCast] at hxe
        have hq'in : CellIn d q' := by
          rcases List.mem_append.1 hq' with hh | hh
          · exact faceCellAt_in d hfi (Option.mem_toList.1 hh)
          · exact faceCellAt_in d hfi (Option.mem_toList.1 hh)
        rw [← cellIdx_inj d hq'in hq hxe]; exact hq'
      · intro h
        refine ⟨(cellIdx d q : Int), ?_, Int.toNat_natCast _⟩
        rw [faceGetCells_eq d hfi]
        exact List.mem_map_of_mem (f := fun p => (cellIdx d p : Int)) h
    refine ⟨.inl ⟨rfl, rfl, ?_, ?_⟩, ?_, ?_, ?_⟩
    · rw [← hfe, faceCoords_eq d b hfi, List.length_map]
      obtain ⟨o, q⟩ := f; cases o <;> simp [faceCorners]
    · intro q hq
      rw [← hfe, faceCoords_eq d b hfi] at hq
      obtain ⟨r, _, rfl⟩ := List.mem_map.1 hq
      rfl
    · intro c hc
      have hc' : c ∈ (faceGetCells d fd.1).map Int.toNat := hc
      rw [← hfe, faceGetCells_eq d hfi, List.map_map, List.mem_map] at hc'
      obtain ⟨q, hq, rfl⟩ := hc'
      have hqin : CellIn d q := by
        rcases List.mem_append.1 hq with hq | hq
        · exact faceCellAt_in d hfi (Option.mem_toList.1 hq)
        · exact faceCellAt_in d hfi (Option.mem_toList.1 hq)
      simp only [Function.comp_def, Int.toNat_natCast] at hc ⊢
      have := (hcells q hqin).1 hc
      rw [← hfe]
      exact hdirs hqin this
    · exact (hcells p hp).2 hf
    · have : ∀ x ∈ dirs, x = 1 ∨ x = -1 := by decide
      exact this _ h2
  · rw [cellFaces_eq d b hp, List.map_fst_zip (by simp [cellFaces, dirs])]
    exact faceIds_nodup d hp

/-- **C72, normals.** The normals of the six faces of a cell with respect to the cell are, in the order in which the faces are
listed, the outward axis vectors times the areas: front (−y), right (+x), back (+y), left (−x), bottom (−z), top (+z). -/
theorem simple_normals {p : Pos} (hp : p.In d.nx d.ny d.nz) :
    let ax := ((b.y1 : ℝ) - b.y0) / d.ny * ((b.z1 - b.z0) / d.nz)
    let ay := ((b.x1 : ℝ) - b.x0) / d.nx * ((b.z1 - b.z0) / d.nz)
    let az := ((b.x1 : ℝ) - b.x0) / d.nx * ((b.y1 - b.y0) / d.ny)
    ((simpleMesh d b).cellFaces (cellIdx d p)).map (fun fd => faceNormal (simpleMesh d b) fd.1 (some (cellIdx d p))) =
      [some (Point.mk3 0 (-ay) 0), some (Point.mk3 ax 0 0), some (Point.mk3 0 ay 0), some (Point.mk3 (-ax) 0 0),
       some (Point.mk3 0 0 (-az)), some (Point.mk3 0 0 az)] := by
  intro ax ay az
  have h1 : ((simpleMesh d b).cellFaces (cellIdx d p)).map (fun fd => faceNormal (simpleMesh d b) fd.1 (some (cellIdx d p))) =
      (((simpleMesh d b).cellFaces (cellIdx d p)).map (orientedFace (simpleMesh d b))).map fun f => some (areaVector f) := by
    rw [List.map_map]
    apply List.map_congr_left
    intro fd hfd
    exact outward_eq (simpleMesh d b) _ (simple_goodCell hp) hfd
  rw [h1, oriented_eq d b hp]
  simp only [cellBox, boxFaces, boxF, List.map_cons, List.map_nil, boxCorner, Nat.cast_zero, Nat.cast_one, areaVector, polyEdges,
    List.rotate_cons_succ, List.rotate_zero, List.zip_cons_cons, List.cons_append, List.nil_append, List.zip_nil_right,
    List.sum_cons, List.sum_nil, Point.mk3, ax, ay, az, hx, hy, hz, List.cons.injEq, Option.some.injEq, Point.mk.injEq, true_and, and_true]
  refine ⟨⟨?_, ?_, ?_⟩, ⟨?_, ?_, ?_⟩, ⟨?_, ?_, ?_⟩, ⟨?_, ?_, ?_⟩, ⟨?_, ?_, ?_⟩, ?_, ?_, ?_⟩ <;> ring

/-- **C72/C54, the structured mesh meets the hypotheses** of the theorems on closed, star-shaped cells. -/
theorem simple_closed_star (h : Proper d b) {p : Pos} (hp : p.In d.nx d.ny d.nz) :
    GoodCell (simpleMesh d b) (cellIdx d p) ∧
    Closed (((simpleMesh d b).cellFaces (cellIdx d p)).map (orientedFace (simpleMesh d b))) ∧
    StarShaped3 ((simpleMesh d b).cellCoords (cellIdx d p))
      (((simpleMesh d b).cellFaces (cellIdx d p)).map (orientedFace (simpleMesh d b))) := by
  refine ⟨simple_goodCell hp, ?_, ?_⟩
  · rw [oriented_eq d b hp]; exact box_closed _ _ _ _ _ _
  · rw [oriented_eq d b hp, cellCoords_eq d b hp]; exact box_star _ _ _ _ _ _ (hx_pos h) (hy_pos h) (hz_pos h)

/-- a 2 × 3 × 4 mesh on a box that is not a cube -/
example : Proper ⟨2, 3, 4⟩ ⟨-1, 0, 2, 1, 9, 4⟩ := by constructor <;> norm_num

/-- the volume of cell (1,2,0) is 1 · 3 · 1/2 -/
example : ((computeCellGeometry (simpleMesh ⟨2, 3, 4⟩ ⟨-1, 0, 2, 1, 9, 4⟩) (cellIdx ⟨2, 3, 4⟩ ⟨1, 2, 0⟩)).map Prod.fst) = some (3 / 2) := by
  rw [simple_cell_geometry (by constructor <;> norm_num) (by decide)]
  norm_num

/-- a point in that cell and one outside -/
example : pointInCell (simpleMesh ⟨2, 3, 4⟩ ⟨-1, 0, 2, 1, 9, 4⟩) (Point.mk3 (1/2) 7 2) (cellIdx ⟨2, 3, 4⟩ ⟨1, 2, 0⟩) = true ∧
    pointInCell (simpleMesh ⟨2, 3, 4⟩ ⟨-1, 0, 2, 1, 9, 4⟩) (Point.mk3 (1/2) 5 2) (cellIdx ⟨2, 3, 4⟩ ⟨1, 2, 0⟩) = false := by
  constructor
  · rw [simple_point_in_cell (by constructor <;> norm_num) (by decide)]
    simp only [Point.mk3]; norm_num
  · rw [← Bool.not_eq_true, simple_point_in_cell (by constructor <;> norm_num) (by decide)]
    simp only [Point.mk3]; norm_num

end Jali.SimpleGeom
