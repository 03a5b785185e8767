import Verif.Proof.MeshSimpleMore
/-! Property theorems C04 – C13, C60, C61: the structured 3D mesh (class `Mesh_simple`). -/
namespace Jali.Simple
open Spec

/-- a small mesh for the examples -/
def ex : Dims := ⟨2, 3, 4⟩

/-- **C04.** The ids of nodes, cells and faces are `0 .. num-1`; every lattice position has one of these
ids, and every id belongs to exactly one position (faces: orientation included). -/
theorem numbering_bijection (d : Dims) :
    (nodeIds d = List.range ((d.nx + 1) * (d.ny + 1) * (d.nz + 1)) ∧
      (∀ p : Pos, p.In (d.nx + 1) (d.ny + 1) (d.nz + 1) → nodeIdx d p ∈ nodeIds d) ∧
      ∀ n ∈ nodeIds d, ∃! p : Pos, p.In (d.nx + 1) (d.ny + 1) (d.nz + 1) ∧ nodeIdx d p = n) ∧
    (cellIds d = List.range (d.nx * d.ny * d.nz) ∧
      (∀ p : Pos, p.In d.nx d.ny d.nz → cellIdx d p ∈ cellIds d) ∧
      ∀ c ∈ cellIds d, ∃! p : Pos, p.In d.nx d.ny d.nz ∧ cellIdx d p = c) ∧
    (faceIds d = List.range ((d.nx + 1) * d.ny * d.nz + d.nx * (d.ny + 1) * d.nz
        + d.nx * d.ny * (d.nz + 1)) ∧
      (∀ f : FacePos, f.In d.nx d.ny d.nz → faceIdx d f ∈ faceIds d) ∧
      ∀ i ∈ faceIds d, ∃! f : FacePos, f.In d.nx d.ny d.nz ∧ faceIdx d f = i) := by
  simp only [nodeIds, cellIds, faceIds, List.mem_range]
  refine ⟨⟨rfl, fun p hp => nodeIdx_lt d hp, fun n hn => ?_⟩,
    ⟨rfl, fun p hp => cellIdx_lt d hp, fun n hn => ?_⟩,
    ⟨rfl, fun p hp => faceIdx_lt d hp, fun n hn => ?_⟩⟩
  · obtain ⟨p, hp, e⟩ := nodeIdx_surj d hn
    exact ⟨p, ⟨hp, e⟩, fun q ⟨hq, e'⟩ => nodeIdx_inj d hq hp (e'.trans e.symm)⟩
  · obtain ⟨p, hp, e⟩ := cellIdx_surj d hn
    exact ⟨p, ⟨hp, e⟩, fun q ⟨hq, e'⟩ => cellIdx_inj d hq hp (e'.trans e.symm)⟩
  · obtain ⟨p, hp, e⟩ := faceIdx_surj d hn
    exact ⟨p, ⟨hp, e⟩, fun q ⟨hq, e'⟩ => faceIdx_inj d hq hp (e'.trans e.symm)⟩

example : ∃! f : FacePos, f.In 2 3 4 ∧ faceIdx ex f = 97 :=
  (numbering_bijection ex).2.2.2.2 97 (by decide)

/-- **C05.** `cell_get_nodes` gives the eight corners of the cell in Exodus II order, all different, all
valid node ids. -/
theorem cell_get_nodes_corners (d : Dims) (p : Pos) (hp : p.In d.nx d.ny d.nz) :
    cellGetNodes d (cellIdx d p) = (hexCorners p).map (nodeIdx d) ∧
    (cellGetNodes d (cellIdx d p)).Nodup ∧
    ∀ n ∈ cellGetNodes d (cellIdx d p), n ∈ nodeIds d := by
  rw [cellGetNodes_eq d hp]
  refine ⟨rfl, cornerIds_nodup d hp, fun n hn => ?_⟩
  obtain ⟨q, hq, rfl⟩ := List.mem_map.1 hn
  exact List.mem_range.2 (nodeIdx_lt d (hexCorners_in d hp hq))

example : (⟨1, 2, 3⟩ : Pos).In ex.nx ex.ny ex.nz := by decide

/-- **C06.** `node_get_cells` is the exact inverse of `cell_get_nodes`: it lists exactly the cells that
have the node, each once. -/
theorem node_get_cells_inverse (d : Dims) (n c : Nat) (hn : n ∈ nodeIds d) (hc : c ∈ cellIds d) :
    (c ∈ nodeGetCells d n ↔ n ∈ cellGetNodes d c) ∧ (nodeGetCells d n).Nodup ∧
    ∀ x ∈ nodeGetCells d n, x ∈ cellIds d := by
  refine ⟨?_, nodeGetCells_nodup d n, fun x hx => List.mem_range.2 (nodeGetCells_valid d hx)⟩
  obtain ⟨q, hq, rfl⟩ := nodeIdx_surj d (List.mem_range.1 hn)
  obtain ⟨p, hp, rfl⟩ := cellIdx_surj d (List.mem_range.1 hc)
  rw [mem_nodeGetCells d hq hp, cellGetNodes_eq d hp, mem_cornerIds d hp hq]

example : (5 : Nat) ∈ nodeIds ex ∧ 1 ∈ cellIds ex ∧ 5 ∈ cellGetNodes ex 1 ∧ 1 ∈ nodeGetCells ex 5 := by
  refine ⟨by decide, by decide, ?_, ?_⟩
  · decide +kernel
  · exact (node_get_cells_inverse ex 5 1 (by decide) (by decide)).1.2 (by decide +kernel)

/-- **C06, storage.** Filling the per-node lists of cells and faces never writes outside the slot reserved for
the node: before every append, the slot of a valid node has room left (9 resp. 13 entries, the first being
the counter). -/
theorem node_slots_never_overrun (d : Dims) :
    (∀ pre post n c, nodeToCellOps d = pre ++ (n, c) :: post →
      n ∈ nodeIds d ∧ runAppends 9 (fun _ => 0) pre (9 * n) + 1 < 9) ∧
    (∀ pre post n f, nodeToFaceOps d = pre ++ (n, f) :: post →
      n ∈ nodeIds d ∧ runAppends 13 (fun _ => 0) pre (13 * n) + 1 < 13) := by
  constructor
  · intro pre post n c h
    refine ⟨?_, runAppends_counter _ pre post n c ?_ h⟩
    · have hm : (n, c) ∈ nodeToCellOps d := by rw [h]; simp
      rw [nodeToCellOps_eq] at hm
      simp only [List.mem_flatMap, List.mem_map, Prod.mk.injEq] at hm
      obtain ⟨p, hp, _, ⟨q, hq, rfl⟩, rfl, _⟩ := hm
      exact List.mem_range.2 (nodeIdx_lt d (hexCorners_in d (mem_triples.1 hp) hq))
    · intro k; have := nodeToCell_count d k; omega
  · intro pre post n c h
    refine ⟨?_, runAppends_counter _ pre post n c ?_ h⟩
    · have hm : (n, c) ∈ nodeToFaceOps d := by rw [h]; simp
      rw [nodeToFaceOps_eq] at hm
      simp only [List.mem_flatMap, List.mem_map, Prod.mk.injEq] at hm
      obtain ⟨p, hp, _, ⟨q, hq, rfl⟩, rfl, _⟩ := hm
      exact List.mem_range.2 (nodeIdx_lt d (faceCorners_in d ((mem_faces d).1 hp) hq))
    · intro k; have := nodeToFace_count d k; omega

example : ∃ pre post n c, nodeToCellOps ex = pre ++ (n, c) :: post ∧ pre.length = 100 := by
  refine ⟨(nodeToCellOps ex).take 100, (nodeToCellOps ex).drop 101,
    ((nodeToCellOps ex)[100]?.getD (0, 0)).1, ((nodeToCellOps ex)[100]?.getD (0, 0)).2, ?_, ?_⟩ <;> decide +kernel

/-- All assignments to the connectivity arrays stay inside the storage allocated for them. -/
theorem writes_in_bounds (d : Dims) :
    (∀ w ∈ cellToNodeWrites d, w.1 < 8 * numCells d) ∧
    (∀ w ∈ cellToFaceWrites d, w.1 < 6 * numCells d) ∧
    (∀ w ∈ cellToFaceDirsWrites d, w.1 < 6 * numCells d) ∧
    (∀ w ∈ faceToNodeWrites d, w.1 < 4 * numFaces d) ∧
    (∀ w ∈ faceToCellWrites d, w.1 < 2 * numFaces d) := by
  refine ⟨?_, ?_, ?_, ?_, ?_⟩
  · rintro ⟨a, x⟩ h
    rw [cellToNodeWrites_eq, List.mem_flatMap] at h
    obtain ⟨p, hp, h⟩ := h
    exact block_addr_lt rfl (cellIdx_lt d (mem_triples.1 hp)) h
  · rintro ⟨a, x⟩ h
    have e : cellToFaceWrites d =
        (cells d).flatMap fun p => blockAt 6 (cellIdx d p) ((cellFaces p).map (faceIdx d)) := by
      rw [cellToFaceWrites, loop3_eq]; rfl
    rw [e, List.mem_flatMap] at h
    obtain ⟨p, hp, h⟩ := h
    exact block_addr_lt rfl (cellIdx_lt d (mem_triples.1 hp)) h
  · rintro ⟨a, x⟩ h
    have e : cellToFaceDirsWrites d =
        (cells d).flatMap fun p => blockAt 6 (cellIdx d p) dirs := by
      rw [cellToFaceDirsWrites, loop3_eq]; rfl
    rw [e, List.mem_flatMap] at h
    obtain ⟨p, hp, h⟩ := h
    exact block_addr_lt rfl (cellIdx_lt d (mem_triples.1 hp)) h
  · rintro ⟨a, x⟩ h
    rw [faceToNodeWrites_eq, List.mem_flatMap] at h
    obtain ⟨⟨o, p⟩, hp, h⟩ := h
    exact block_addr_lt (by cases o <;> rfl) (faceIdx_lt d ((mem_faces d).1 hp)) h
  · rintro ⟨a, x⟩ h
    rw [mem_faceToCellWrites] at h
    obtain ⟨f, hf, sl, hsl, rfl, _⟩ := h
    exact lt_mul_of_digits hsl (faceIdx_lt d hf)

/-- **C07.** `face_get_cells` is the exact inverse of `cell_get_faces`. It lists cells without
repetition, and only valid ids. -/
theorem face_get_cells_inverse (d : Dims) (f c : Nat) (hf : f ∈ faceIds d) (hc : c ∈ cellIds d) :
    ((c : Int) ∈ faceGetCells d f ↔ f ∈ cellGetFaces d c) ∧ (faceGetCells d f).Nodup ∧
    ∀ x ∈ faceGetCells d f, ∃ c' ∈ cellIds d, x = (c' : Int) := by
  obtain ⟨g, hg, rfl⟩ := faceIdx_surj d (List.mem_range.1 hf)
  obtain ⟨p, hp, rfl⟩ := cellIdx_surj d (List.mem_range.1 hc)
  have hin : ∀ q ∈ (faceCellAt d g 0).toList ++ (faceCellAt d g 1).toList, CellIn d q := by
    intro q hq
    simp only [List.mem_append, Option.mem_toList, Option.mem_def] at hq
    rcases hq with h | h <;> exact faceCellAt_in d hg h
  rw [faceGetCells_eq d hg]
  refine ⟨?_, ?_, ?_⟩
  · rw [mem_cellGetFaces d hp hg, ← mem_cells_iff d hp hg, List.mem_map]
    constructor
    · rintro ⟨q, hq, e⟩
      rw [← cellIdx_inj d (hin q hq) hp (by exact_mod_cast e)]; exact hq
    · intro h; exact ⟨p, h, rfl⟩
  · refine map_nodup_on ?_ ?_
    · obtain ⟨o, ⟨i, j, k⟩⟩ := g
      cases o <;> simp only [faceCellAt] <;> split <;> split <;> simp <;> omega
    · intro a ha b hb h
      exact cellIdx_inj d (hin a ha) (hin b hb) (by exact_mod_cast h)
  · intro x hx
    obtain ⟨q, hq, rfl⟩ := List.mem_map.1 hx
    exact ⟨_, List.mem_range.2 (cellIdx_lt d (hin q hq)), rfl⟩

/-- **C07, boundary.** Every face has one or two cells; it has exactly one if and only if it lies on the boundary
of the domain. -/
theorem face_get_cells_count (d : Dims) (hx : 0 < d.nx) (hy : 0 < d.ny) (hz : 0 < d.nz)
    (f : FacePos) (hf : f.In d.nx d.ny d.nz) :
    ((faceGetCells d (faceIdx d f)).length = 1 ∨ (faceGetCells d (faceIdx d f)).length = 2) ∧
    ((faceGetCells d (faceIdx d f)).length = 1 ↔ OnBoundary f d.nx d.ny d.nz) := by
  rw [faceGetCells_eq d hf, List.length_map]
  obtain ⟨o, ⟨i, j, k⟩⟩ := f
  cases o
  · obtain ⟨h1, h2, h3⟩ : Pos.In ⟨i, j, k⟩ d.nx d.ny (d.nz + 1) := hf
    simp only at h1 h2 h3
    simp only [faceCellAt, OnBoundary]
    split <;> split <;> simp <;> omega
  · obtain ⟨h1, h2, h3⟩ : Pos.In ⟨i, j, k⟩ d.nx (d.ny + 1) d.nz := hf
    simp only at h1 h2 h3
    simp only [faceCellAt, OnBoundary]
    split <;> split <;> simp <;> omega
  · obtain ⟨h1, h2, h3⟩ : Pos.In ⟨i, j, k⟩ (d.nx + 1) d.ny d.nz := hf
    simp only at h1 h2 h3
    simp only [faceCellAt, OnBoundary]
    split <;> split <;> simp <;> omega

example : (faceGetCells ex (faceIdx ex ⟨.xz, ⟨1, 0, 2⟩⟩)).length = 1 :=
  (face_get_cells_count ex (by decide) (by decide) (by decide) ⟨.xz, ⟨1, 0, 2⟩⟩ (by decide)).2.2
    (by decide)
example : (faceGetCells ex (faceIdx ex ⟨.xz, ⟨1, 1, 2⟩⟩)).length ≠ 1 := fun h =>
  absurd ((face_get_cells_count ex (by decide) (by decide) (by decide) ⟨.xz, ⟨1, 1, 2⟩⟩ (by decide)).2.1 h)
    (by decide)

/-- **C08.** If two different cells share a face, one sees it with direction +1 and the other with -1. -/
theorem shared_face_opposite_dirs (d : Dims) (c c' f : Nat) (s s' : Int)
    (hc : c ∈ cellIds d) (hc' : c' ∈ cellIds d) (hne : c ≠ c')
    (h : (f, s) ∈ (cellGetFaces d c).zip (cellGetFaceDirs d c))
    (h' : (f, s') ∈ (cellGetFaces d c').zip (cellGetFaceDirs d c')) :
    (s = 1 ∧ s' = -1) ∨ (s = -1 ∧ s' = 1) := by
  obtain ⟨p, hp, rfl⟩ := cellIdx_surj d (List.mem_range.1 hc)
  obtain ⟨q, hq, rfl⟩ := cellIdx_surj d (List.mem_range.1 hc')
  have hpq : p ≠ q := by rintro rfl; exact hne rfl
  rw [cellGetFaces_eq d hp, cellGetFaceDirs_eq d hp] at h
  rw [cellGetFaces_eq d hq, cellGetFaceDirs_eq d hq] at h'
  have aux : ∀ {p : Pos} {s : Int}, (f, s) ∈ ((cellFaces p).map (faceIdx d)).zip dirs →
      ∃ g, (g, s) ∈ (cellFaces p).zip dirs ∧ faceIdx d g = f := by
    intro p s h
    rw [List.zip_map_left, List.mem_map] at h
    obtain ⟨⟨g, t⟩, hg, e⟩ := h
    simp only [Prod.map_apply, id_eq, Prod.mk.injEq] at e
    obtain ⟨e1, rfl⟩ := e
    exact ⟨g, hg, e1⟩
  obtain ⟨g, hg, rfl⟩ := aux h
  obtain ⟨g', hg', e⟩ := aux h'
  have := faceIdx_inj d (cellFaces_in d hq (List.of_mem_zip hg').1)
    (cellFaces_in d hp (List.of_mem_zip hg).1) e
  subst this
  clear h h' aux e
  obtain ⟨i, j, k⟩ := p
  obtain ⟨i', j', k'⟩ := q
  obtain ⟨o, ⟨a, b, c⟩⟩ := g'
  simp only [ne_eq, Pos.mk.injEq] at hpq
  cases o <;> simp [cellFaces, dirs] at hg hg' <;> omega

example : (xyFaceIndex ex 1 2 1, (1 : Int)) ∈ (cellGetFaces ex (cellIdx ex ⟨1, 2, 0⟩)).zip
      (cellGetFaceDirs ex (cellIdx ex ⟨1, 2, 0⟩)) ∧
    (xyFaceIndex ex 1 2 1, (-1 : Int)) ∈ (cellGetFaces ex (cellIdx ex ⟨1, 2, 1⟩)).zip
      (cellGetFaceDirs ex (cellIdx ex ⟨1, 2, 1⟩)) := by
  rw [cellGetFaces_eq ex (by decide), cellGetFaceDirs_eq ex (by decide), cellGetFaces_eq ex (by decide),
    cellGetFaceDirs_eq ex (by decide)]
  decide

/-- **C09.** `face_get_nodes` gives the four corners of the face, all different. -/
theorem face_get_nodes_corners (d : Dims) (f : FacePos) (hf : f.In d.nx d.ny d.nz) :
    (faceGetNodes d (faceIdx d f)).length = 4 ∧ (faceGetNodes d (faceIdx d f)).Nodup ∧
    ∀ q : Pos, q.In (d.nx + 1) (d.ny + 1) (d.nz + 1) →
      (nodeIdx d q ∈ faceGetNodes d (faceIdx d f) ↔ IsFaceCorner f q) := by
  rw [faceGetNodes_eq d hf]
  refine ⟨?_, faceCornerIds_nodup d hf, fun q hq => ?_⟩
  · obtain ⟨o, p⟩ := f; cases o <;> rfl
  · rw [mem_faceCornerIds d hf hq, mem_faceCorners]

/-- **C09, shared corners.** The nodes of a face of a cell are nodes of the cell. -/
theorem face_nodes_are_cell_nodes (d : Dims) (c f : Nat) (hc : c ∈ cellIds d)
    (hf : f ∈ cellGetFaces d c) : f ∈ faceIds d ∧ ∀ n ∈ faceGetNodes d f, n ∈ cellGetNodes d c := by
  obtain ⟨p, hp, rfl⟩ := cellIdx_surj d (List.mem_range.1 hc)
  rw [cellGetFaces_eq d hp, List.mem_map] at hf
  obtain ⟨g, hg, rfl⟩ := hf
  have hgi := cellFaces_in d hp hg
  refine ⟨List.mem_range.2 (faceIdx_lt d hgi), ?_⟩
  rw [faceGetNodes_eq d hgi, cellGetNodes_eq d hp]
  intro n hn
  obtain ⟨q, hq, rfl⟩ := List.mem_map.1 hn
  refine List.mem_map.2 ⟨q, ?_, rfl⟩
  simp only [cellFaces, List.mem_cons, List.not_mem_nil, or_false] at hg
  rcases hg with rfl | rfl | rfl | rfl | rfl | rfl <;> rw [mem_faceCorners] at hq <;>
    rw [mem_hexCorners] <;> simp only [IsFaceCorner] at hq <;> omega

/-- **C09, orientation.** In exact arithmetic and on a box with positive extents: the right-hand-rule normal of
the nodes of the face in the listed order, times the direction reported for the cell, points out of the
cell (away from every node of the cell that is not on the face). -/
theorem face_orientation_outward (d : Dims) (b : Box)
    (hbx : b.x0 < b.x1) (hby : b.y0 < b.y1) (hbz : b.z0 < b.z1)
    (c f : Nat) (s : Int) (hc : c ∈ cellIds d)
    (hf : (f, s) ∈ (cellGetFaces d c).zip (cellGetFaceDirs d c))
    (q0 q1 q2 q3 w : V3)
    (hq : faceGetCoordinates d (coordinates d b) f = [q0.list, q1.list, q2.list, q3.list])
    (n : Nat) (hn : n ∈ cellGetNodes d c) (hnf : n ∉ faceGetNodes d f)
    (hw : nodeGetCoordinates 3 (coordinates d b) n = w.list) :
    0 < (s : Rat) * (areaVec q0 q1 q2 q3).dot (q0.sub w) := by
  obtain ⟨p, hp, rfl⟩ := cellIdx_surj d (List.mem_range.1 hc)
  have hx : 0 < d.nx := by have := hp.1; omega
  have hy : 0 < d.ny := by have := hp.2.1; omega
  have hz : 0 < d.nz := by have := hp.2.2; omega
  rw [cellGetFaces_eq d hp, cellGetFaceDirs_eq d hp, List.zip_map_left, List.mem_map] at hf
  obtain ⟨⟨g, t⟩, hg, e⟩ := hf
  simp only [Prod.map_apply, id_eq, Prod.mk.injEq] at e
  obtain ⟨rfl, rfl⟩ := e
  have hgi := cellFaces_in d hp (List.of_mem_zip hg).1
  rw [cellGetNodes_eq d hp, List.mem_map] at hn
  obtain ⟨r, hr, rfl⟩ := hn
  have hri := hexCorners_in d hp hr
  rw [faceGetNodes_eq d hgi, mem_faceCornerIds d hgi hri, mem_faceCorners] at hnf
  rw [nodeGetCoordinates_eq d b hri] at hw
  have hco : faceGetCoordinates d (coordinates d b) (faceIdx d g) =
      (faceCorners g).map fun q => (latticePoint d b q).list := by
    rw [faceGetCoordinates, faceGetNodes_eq d hgi, List.map_map]
    apply List.map_congr_left
    intro q hq
    exact nodeGetCoordinates_eq d b (faceCorners_in d hgi hq)
  rw [hco] at hq
  have inj : ∀ u v : V3, u.list = v.list → u = v := by
    rintro ⟨⟩ ⟨⟩ h; simp only [V3.list, List.cons.injEq, and_true] at h
    obtain ⟨rfl, rfl, rfl⟩ := h; rfl
  have hw := inj _ _ hw
  subst hw
  have Hx : 0 < (b.x1 - b.x0) / d.nx := div_pos (by linarith) (by exact_mod_cast hx)
  have Hy : 0 < (b.y1 - b.y0) / d.ny := div_pos (by linarith) (by exact_mod_cast hy)
  have Hz : 0 < (b.z1 - b.z0) / d.nz := div_pos (by linarith) (by exact_mod_cast hz)
  have pos : 0 < 2 * ((b.x1 - b.x0) / d.nx) * ((b.y1 - b.y0) / d.ny) * ((b.z1 - b.z0) / d.nz) := by
    positivity
  have fin : ∀ g : FacePos, ∀ q0 q1 q2 q3 : V3,
      ((faceCorners g).map fun q => (latticePoint d b q).list) = [q0.list, q1.list, q2.list, q3.list] →
      ∃ c0 c1 c2 c3, faceCorners g = [c0, c1, c2, c3] ∧ q0 = latticePoint d b c0 ∧
        q1 = latticePoint d b c1 ∧ q2 = latticePoint d b c2 ∧ q3 = latticePoint d b c3 := by
    rintro ⟨o, ⟨i, j, k⟩⟩ q0 q1 q2 q3 h
    cases o <;> simp only [faceCorners, List.map_cons, List.map_nil, List.cons.injEq, and_true] at h ⊢ <;>
      obtain ⟨h0, h1, h2, h3⟩ := h <;>
      exact ⟨_, _, _, _, ⟨rfl, rfl, rfl, rfl⟩, (inj _ _ h0).symm, (inj _ _ h1).symm, (inj _ _ h2).symm,
        (inj _ _ h3).symm⟩
  obtain ⟨c0, c1, c2, c3, hcs, rfl, rfl, rfl, rfl⟩ := fin g q0 q1 q2 q3 hq
  refine lt_of_lt_of_eq pos ?_
  clear pos fin hq hco inj hgi hri hc hp
  obtain ⟨i, j, k⟩ := p
  obtain ⟨i', j', k'⟩ := r
  rw [mem_hexCorners] at hr
  simp only at hr
  simp only [cellFaces, dirs, List.zip_cons_cons, List.zip_nil_right, List.mem_cons, List.not_mem_nil,
    or_false, Prod.mk.injEq] at hg
  obtain ⟨r1, r2, r3⟩ := hr
  rcases hg with ⟨rfl, rfl⟩ | ⟨rfl, rfl⟩ | ⟨rfl, rfl⟩ | ⟨rfl, rfl⟩ | ⟨rfl, rfl⟩ | ⟨rfl, rfl⟩ <;>
    simp only [faceCorners, List.cons.injEq, and_true] at hcs <;>
    obtain ⟨rfl, rfl, rfl, rfl⟩ := hcs <;> simp only [IsFaceCorner] at hnf
  · have : j' = j + 1 := by omega
    subst this
    simp only [areaVec, V3.dot, V3.cross, V3.sub, latticePoint]; push_cast; ring
  · have : i' = i := by omega
    subst this
    simp only [areaVec, V3.dot, V3.cross, V3.sub, latticePoint]; push_cast; ring
  · have : j' = j := by omega
    subst this
    simp only [areaVec, V3.dot, V3.cross, V3.sub, latticePoint]; push_cast; ring
  · have : i' = i + 1 := by omega
    subst this
    simp only [areaVec, V3.dot, V3.cross, V3.sub, latticePoint]; push_cast; ring
  · have : k' = k + 1 := by omega
    subst this
    simp only [areaVec, V3.dot, V3.cross, V3.sub, latticePoint]; push_cast; ring
  · have : k' = k := by omega
    subst this
    simp only [areaVec, V3.dot, V3.cross, V3.sub, latticePoint]; push_cast; ring

example : ∃ q0 q1 q2 q3 w : V3, ∃ n, n ∈ cellGetNodes ex 0 ∧ n ∉ faceGetNodes ex 30 ∧
    (30, (1 : Int)) ∈ (cellGetFaces ex 0).zip (cellGetFaceDirs ex 0) ∧
    faceGetCoordinates ex (coordinates ex ⟨0, 0, 0, 1, 1, 1⟩) 30 = [q0.list, q1.list, q2.list, q3.list] ∧
    nodeGetCoordinates 3 (coordinates ex ⟨0, 0, 0, 1, 1, 1⟩) n = w.list := by
  refine ⟨⟨0, 0, 0⟩, ⟨1/2, 0, 0⟩, ⟨1/2, 0, 1/4⟩, ⟨0, 0, 1/4⟩, ⟨0, 1/3, 0⟩, 3, ?_⟩
  decide +kernel

/-- **C10 is false of the code.** On every mesh, node 0 is a corner of the face at the lattice origin in
the xz plane, but `node_get_faces` does not list that face: the code stores the id of another face (of the xy
plane) in its place. -/
theorem node_get_faces_not_inverse (d : Dims) (hx : 0 < d.nx) (hy : 0 < d.ny) (hz : 0 < d.nz) :
    ∃ n ∈ nodeIds d, ∃ f ∈ faceIds d, n ∈ faceGetNodes d f ∧ f ∉ nodeGetFaces d n := by
  have hn : NodeIn d ⟨0, 0, 0⟩ := ⟨by dsimp only; omega, by dsimp only; omega, by dsimp only; omega⟩
  have hf : FaceIn d ⟨.xz, ⟨0, 0, 0⟩⟩ := ⟨hx, by dsimp only; omega, hz⟩
  refine ⟨nodeIdx d ⟨0, 0, 0⟩, List.mem_range.2 (nodeIdx_lt d hn), faceIdx d ⟨.xz, ⟨0, 0, 0⟩⟩,
    List.mem_range.2 (faceIdx_lt d hf), ?_, ?_⟩
  · rw [faceGetNodes_eq d hf]; simp [faceCorners]
  · rw [nodeGetFaces_eq]
    simp only [List.mem_map, List.mem_filter, not_exists, not_and, and_imp, decide_eq_true_eq]
    intro g hg hq
    have hgi := (mem_faces d).1 hg
    obtain ⟨q, hq, e⟩ := hq
    have := nodeIdx_inj d (faceCorners_in d hgi hq) hn e
    subst this
    rw [mem_faceCorners] at hq
    have h0 : g.p = ⟨0, 0, 0⟩ := by
      obtain ⟨o, ⟨i, j, k⟩⟩ := g
      cases o <;> simp only [IsFaceCorner] at hq <;> simp only [Pos.mk.injEq] <;> omega
    have : 0 < d.nx * d.ny * (d.nz + 1) := by positivity
    rw [faceIdx_xz_eq, storedFace, h0]
    simp [xyFaceIndex]
    omega

example : (0 : Nat) < ex.nx ∧ 0 < ex.ny ∧ 0 < ex.nz := by decide

/-- **C10 (part that holds).** `node_get_faces` lists every face of the xy orientation that has the node, and
the number of entries is the number of faces (of any orientation) that have the node. Missing: the entries
for the two other orientations are wrong, see `node_get_faces_not_inverse`. -/
theorem node_get_faces_partial (d : Dims) (q : Pos) (hq : q.In (d.nx + 1) (d.ny + 1) (d.nz + 1)) :
    (∀ p : Pos, (FacePos.mk .xy p).In d.nx d.ny d.nz →
      nodeIdx d q ∈ faceGetNodes d (faceIdx d ⟨.xy, p⟩) → faceIdx d ⟨.xy, p⟩ ∈ nodeGetFaces d (nodeIdx d q)) ∧
    (nodeGetFaces d (nodeIdx d q)).length =
      ((faceIds d).filter fun f => nodeIdx d q ∈ faceGetNodes d f).length := by
  rw [nodeGetFaces_eq]
  constructor
  · intro p hp h
    rw [faceGetNodes_eq d hp] at h
    refine List.mem_map.2 ⟨⟨.xy, p⟩, ?_, rfl⟩
    simp only [List.mem_filter, decide_eq_true_eq]
    exact ⟨(mem_faces d).2 hp, h⟩
  · rw [List.length_map]
    have e : ((faces d).filter fun f => nodeIdx d q ∈ (faceCorners f).map (nodeIdx d)) =
        (faces d).filter fun f => nodeIdx d q ∈ faceGetNodes d (faceIdx d f) := by
      apply List.filter_congr
      intro f hf
      rw [faceGetNodes_eq d ((mem_faces d).1 hf)]
    rw [e, ← List.length_map (faceIdx d)]
    refine List.Perm.length_eq ((List.perm_ext_iff_of_nodup ?_ (List.nodup_range.filter _)).2 ?_)
    · refine map_nodup_on ((nodup_faces d).filter _) ?_
      intro a ha b hb h
      simp only [List.mem_filter] at ha hb
      exact faceIdx_inj d ((mem_faces d).1 ha.1) ((mem_faces d).1 hb.1) h
    · intro f
      simp only [List.mem_map, List.mem_filter, List.mem_range, decide_eq_true_eq]
      constructor
      · rintro ⟨g, ⟨hg, h⟩, rfl⟩
        exact ⟨faceIdx_lt d ((mem_faces d).1 hg), h⟩
      · rintro ⟨hf, h⟩
        obtain ⟨g, hg, rfl⟩ := faceIdx_surj d hf
        exact ⟨g, ⟨(mem_faces d).2 hg, h⟩, rfl⟩

example : (⟨1, 2, 3⟩ : Pos).In (ex.nx + 1) (ex.ny + 1) (ex.nz + 1) := by decide

/-- **C11.** `cell_get_face_adj_cells` lists exactly the other cells that share a face with the cell, each
once. (The right-hand side is symmetric in the two cells, hence so is the relation.) -/
theorem face_adj_cells_exact (d : Dims) (c : Nat) (hc : c ∈ cellIds d) :
    (cellGetFaceAdjCells d c).Nodup ∧
    ∀ x : Int, x ∈ cellGetFaceAdjCells d c ↔
      ∃ c' ∈ cellIds d, x = (c' : Int) ∧ c' ≠ c ∧ ∃ f, f ∈ cellGetFaces d c ∧ f ∈ cellGetFaces d c' := by
  obtain ⟨p, hp, rfl⟩ := cellIdx_surj d (List.mem_range.1 hc)
  rw [cellGetFaceAdjCells_eq d hp]
  have hin : ∀ q ∈ nbrs d p, CellIn d q := fun q hq => ((mem_nbrs d hp).1 hq).1
  refine ⟨map_nodup_on (nbrs_nodup d p) ?_, fun x => ?_⟩
  · intro a ha b hb h
    exact cellIdx_inj d (hin a ha) (hin b hb) (by exact_mod_cast h)
  · rw [List.mem_map]
    constructor
    · rintro ⟨q, hq, rfl⟩
      obtain ⟨h1, h2, f, hf, hg⟩ := (mem_nbrs d hp).1 hq
      have hfi := cellFaces_in d hp hf
      exact ⟨_, List.mem_range.2 (cellIdx_lt d h1), rfl, fun e => h2 (cellIdx_inj d h1 hp e), faceIdx d f,
        (mem_cellGetFaces d hp hfi).2 hf, (mem_cellGetFaces d h1 hfi).2 hg⟩
    · rintro ⟨c', hc', rfl, hne, f, hf, hg⟩
      obtain ⟨q, hq, rfl⟩ := cellIdx_surj d (List.mem_range.1 hc')
      refine ⟨q, (mem_nbrs d hp).2 ⟨hq, fun e => hne (by rw [e]), ?_⟩, rfl⟩
      have hf' := hf
      rw [cellGetFaces_eq d hp, List.mem_map] at hf'
      obtain ⟨g, hg', rfl⟩ := hf'
      have hgi := cellFaces_in d hp hg'
      exact ⟨g, hg', (mem_cellGetFaces d hq hgi).1 hg⟩

example : cellGetFaceAdjCells ex 7 = [9, 6, 1, 13] := by decide +kernel

/-- **C12.** `cell_get_node_adj_cells` lists exactly the other cells that share a node with the cell, each
once. (The right-hand side is symmetric in the two cells, hence so is the relation.) -/
theorem node_adj_cells_exact (d : Dims) (c : Nat) (hc : c ∈ cellIds d) :
    (cellGetNodeAdjCells d c).Nodup ∧
    ∀ x, x ∈ cellGetNodeAdjCells d c ↔
      x ∈ cellIds d ∧ x ≠ c ∧ ∃ n, n ∈ cellGetNodes d c ∧ n ∈ cellGetNodes d x := by
  obtain ⟨p, hp, rfl⟩ := cellIdx_surj d (List.mem_range.1 hc)
  rw [cellGetNodeAdjCells_fold]
  obtain ⟨h1, h2⟩ := fold_nodes (cellIdx d p) (cellGetNodes d (cellIdx d p)) (nodeGetCells d) []
  refine ⟨h2 List.nodup_nil, fun x => ?_⟩
  rw [h1]
  simp only [List.not_mem_nil, false_or]
  have hv : ∀ n ∈ cellGetNodes d (cellIdx d p), n ∈ nodeIds d := (cell_get_nodes_corners d p hp).2.2
  constructor
  · rintro ⟨⟨n, hn, hx⟩, hne⟩
    have hxv := List.mem_range.2 (nodeGetCells_valid d hx)
    exact ⟨hxv, hne, n, hn, (node_get_cells_inverse d n x (hv n hn) hxv).1.1 hx⟩
  · rintro ⟨hxv, hne, n, hn, hx⟩
    exact ⟨⟨n, hn, (node_get_cells_inverse d n x (hv n hn) hxv).1.2 hx⟩, hne⟩

example : 9 ∈ cellGetNodeAdjCells ex 1 ∧ 4 ∉ cellGetNodeAdjCells ex 1 := by
  obtain ⟨_, h⟩ := node_adj_cells_exact ex 1 (by decide)
  refine ⟨(h 9).2 ⟨by decide, by decide, 17, by decide +kernel, by decide +kernel⟩, fun h4 => ?_⟩
  obtain ⟨_, _, n, h1, h2⟩ := (h 4).1 h4
  have : ∀ n ∈ cellGetNodes ex 1, n ∉ cellGetNodes ex 4 := by decide +kernel
  exact this n h1 h2

/-- **C13, creation.** After construction the node of lattice point (i,j,k) is at
(x0+i*hx, y0+j*hy, z0+k*hz); cells report their corners' coordinates in the order of their nodes. -/
theorem created_coordinates (d : Dims) (b : Box) (p : Pos)
    (hp : p.In (d.nx + 1) (d.ny + 1) (d.nz + 1)) :
    nodeGetCoordinates 3 (coordinates d b) (nodeIdx d p) =
      [b.x0 + p.i * ((b.x1 - b.x0) / d.nx), b.y0 + p.j * ((b.y1 - b.y0) / d.ny),
       b.z0 + p.k * ((b.z1 - b.z0) / d.nz)] ∧
    (p.In d.nx d.ny d.nz → cellGetCoordinates d (coordinates d b) (cellIdx d p) =
      (hexCorners p).map fun q => (latticePoint d b q).list) := by
  refine ⟨nodeGetCoordinates_eq d b hp, fun h => ?_⟩
  rw [cellGetCoordinates, cellGetNodes_eq d h, List.map_map]
  apply List.map_congr_left
  intro q hq
  exact nodeGetCoordinates_eq d b (hexCorners_in d h hq)

/-- **C13, creation.** The last node in each direction is exactly at the end of the domain (exact arithmetic). -/
theorem created_far_corner (d : Dims) (b : Box) (hx : 0 < d.nx) (hy : 0 < d.ny) (hz : 0 < d.nz) :
    nodeGetCoordinates 3 (coordinates d b) (nodeIdx d ⟨d.nx, d.ny, d.nz⟩) = [b.x1, b.y1, b.z1] := by
  rw [(created_coordinates d b ⟨d.nx, d.ny, d.nz⟩ ⟨by dsimp only; omega, by dsimp only; omega,
    by dsimp only; omega⟩).1]
  have h1 : (d.nx : Rat) ≠ 0 := by exact_mod_cast hx.ne'
  have h2 : (d.ny : Rat) ≠ 0 := by exact_mod_cast hy.ne'
  have h3 : (d.nz : Rat) ≠ 0 := by exact_mod_cast hz.ne'
  simp only [List.cons.injEq, and_true]
  refine ⟨?_, ?_, ?_⟩ <;> field_simp <;> ring

/-- **C13, histories.** After any sequence of `node_set_coordinates` calls, `node_get_coordinates` returns the
value of the last call for that node, or the original coordinates if there was none. -/
theorem coordinates_after_history (sd : Nat) (coords : Nat → Rat) (ops : List (Nat × (Nat → Rat)))
    (n : Nat) :
    nodeGetCoordinates sd (ops.foldl (fun c o => nodeSetCoordinates sd c o.1 o.2) coords) n =
      match (ops.filter fun o => o.1 = n).getLast? with
      | some o => (List.range sd).map o.2
      | none => nodeGetCoordinates sd coords n := by
  induction ops using List.reverseRecOn with
  | nil => simp
  | append_singleton l o ih =>
    rw [List.foldl_append, List.foldl_cons, List.foldl_nil, get_set_coordinates, List.filter_append]
    by_cases h : o.1 = n
    · simp [h]
    · simp [h, ih]

example : nodeGetCoordinates 3 (([(4, fun i => (i : Rat)), (5, fun _ => 7)] : List (Nat × (Nat → Rat))).foldl
    (fun c o => nodeSetCoordinates 3 c o.1 o.2) (coordinates ex ⟨0, 0, 0, 1, 1, 1⟩)) 4 = [0, 1, 2] := by
  rw [coordinates_after_history]
  decide +kernel

/-- **C60.** `node_get_cell_faces(n, c)` lists exactly the faces of the cell that have the node, in the order
of the faces of the cell. -/
theorem node_get_cell_faces_exact (d : Dims) (n c : Nat) :
    nodeGetCellFaces d n c = (cellGetFaces d c).filter fun f => n ∈ faceGetNodes d f := by
  simp only [nodeGetCellFaces, cellGetFaces, faceGetNodes]
  apply List.filter_congr
  intro f _
  rw [Bool.eq_iff_iff]
  simp only [List.any_eq_true, decide_eq_true_eq, List.mem_map]

example : nodeGetCellFaces ex 0 0 = [30, 62, 0] := by decide +kernel

end Jali.Simple
