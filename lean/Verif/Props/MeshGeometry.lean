import Verif.Model.MeshGeometry
import Verif.Props.Polyhedron
import Verif.Props.Polygon
/-! Property theorems C59, C69, C70, C71: face normals, edge vectors and centroids reported by a mesh. -/
namespace Jali.MeshGeom
open Jali.Geom Jali.Geom.Spec Jali.Geom.Point

variable (m : GMesh)

/-! ### vocabulary -/

/-- The cells of face `f` list it with direction 1 or -1. -/
def Listed (f : Nat) : Prop := ∀ c ∈ m.faceCells f, faceDir m f c = some 1 ∨ faceDir m f c = some (-1)

/-- the edge from `a` to `b` turned by a right angle to the right: the outward normal of a counter-clockwise polygon -/
noncomputable def edgeNormal (a b : Point) : Point := mk2 (b.y - a.y) (a.x - b.x)

/-- the area vector of a face, by the order of its vertices: the contour formula in space, the turned edge in the plane -/
noncomputable def faceVector (f : Nat) : Point :=
  if m.manifoldDim = 3 then areaVector (m.faceCoords f) else edgeNormal (pt (m.faceCoords f) 0) (pt (m.faceCoords f) 1)

/-- A face of a solid mesh with at least three vertices in space, or of a plane mesh with two vertices in the plane. -/
def GoodFace (f : Nat) : Prop :=
  (m.manifoldDim = 3 ∧ m.spaceDim = 3 ∧ 3 ≤ (m.faceCoords f).length ∧ ∀ p ∈ m.faceCoords f, p.d = 3) ∨
  (m.manifoldDim = 2 ∧ m.spaceDim = 2 ∧ (m.faceCoords f).length = 2 ∧ ∀ p ∈ m.faceCoords f, p.d = 2)

/-! ### the stored normals -/

theorem storeNormals_eq (f : Nat) (N : Point) : ∀ (cs : List Nat) (acc : Normals),
    (∀ c ∈ cs, faceDir m f c = some 1 ∨ faceDir m f c = some (-1)) →
    storeNormals m f N cs acc = some
      ⟨if ∃ c ∈ cs, faceDir m f c = some 1 then N else acc.n0, if ∃ c ∈ cs, faceDir m f c = some (-1) then neg N else acc.n1⟩ := by
  intro cs
  induction cs with
  | nil => intro acc _; simp [storeNormals]
  | cons c cs ih =>
    intro acc h
    have hc := h c (by simp)
    have ih' := fun acc => ih acc fun c hc => h c (by simp [hc])
    rcases hc with hc | hc
    · simp only [storeNormals, hc, Option.bind_some, if_true, ih']
      have h1 : (∃ c' ∈ c :: cs, faceDir m f c' = some 1) ↔ True := by simp [hc]
      have h2 : (∃ c' ∈ c :: cs, faceDir m f c' = some (-1)) ↔ ∃ c' ∈ cs, faceDir m f c' = some (-1) := by simp [hc]
      simp only [h1, h2, if_true, ite_self]
    · simp only [storeNormals, hc, Option.bind_some, show ¬ ((-1 : Int) = 1) by decide, if_false, ih']
      have h1 : (∃ c' ∈ c :: cs, faceDir m f c' = some 1) ↔ ∃ c' ∈ cs, faceDir m f c' = some 1 := by simp [hc]
      have h2 : (∃ c' ∈ c :: cs, faceDir m f c' = some (-1)) ↔ True := by simp [hc]
      simp only [h1, h2, if_true, ite_self]

theorem neg3 (x y z : ℝ) : neg ⟨3, x, y, z⟩ = ⟨3, -x, -y, -z⟩ := by simp [neg, mk3]
theorem neg2 (x y z : ℝ) : neg ⟨2, x, y, z⟩ = ⟨2, -x, -y, 0⟩ := by simp [neg, mk2]

theorem edgeVec2 {a b : Point} (hb : b.d = 2) : mk2 (b - a).y (-(b - a).x) = edgeNormal a b := by
  rw [sub2 _ hb, edgeNormal]; simp only [mk2]; ext <;> simp

theorem faceVector_shape (f : Nat) (hg : GoodFace m f) :
    (faceVector m f).d = m.spaceDim ∧ neg (neg (faceVector m f)) = faceVector m f ∧ (m.spaceDim = 3 ∨ m.spaceDim = 2) ∧
    (m.spaceDim = 2 → (faceVector m f).z = 0) := by
  rcases hg with ⟨h1, h2, _, _⟩ | ⟨h1, h2, _, _⟩
  · rw [faceVector, if_pos h1, h2]
    refine ⟨rfl, ?_, .inl rfl, by simp⟩
    rw [areaVector, neg3, neg3]; simp only [neg_neg]
  · rw [faceVector, if_neg (by omega), h2]
    refine ⟨rfl, ?_, .inr rfl, fun _ => rfl⟩
    rw [edgeNormal, mk2, neg2, neg2]; simp only [neg_neg]

theorem computeFace_normals (f : Nat) (hg : GoodFace m f) (hl : Listed m f) : ∃ area centroid,
    computeFaceGeometry m f = some (area, centroid,
      ⟨if ∃ c ∈ m.faceCells f, faceDir m f c = some 1 then faceVector m f else zero m.spaceDim,
       if ∃ c ∈ m.faceCells f, faceDir m f c = some (-1) then neg (faceVector m f) else zero m.spaceDim⟩) := by
  rcases hg with ⟨h1, h2, h3, h4⟩ | ⟨h1, h2, h3, h4⟩
  · refine ⟨(polygonAreaCentroidNormal (m.faceCoords f)).area, (polygonAreaCentroidNormal (m.faceCoords f)).centroid, ?_⟩
    simp only [computeFaceGeometry, h1, if_true]
    rw [polygon_normal_contour _ h3 h4, storeNormals_eq m f _ _ _ hl]
    simp only [Option.map_some, faceVector, h1, if_true]
  · refine ⟨Real.sqrt (dot (pt (m.faceCoords f) 1 - pt (m.faceCoords f) 0) (pt (m.faceCoords f) 1 - pt (m.faceCoords f) 0)),
      smul 0.5 (pt (m.faceCoords f) 0 + pt (m.faceCoords f) 1), ?_⟩
    have hb : (pt (m.faceCoords f) 1).d = 2 := by
      apply h4
      rw [pt, List.getD_eq_getElem?_getD, List.getElem?_eq_getElem (by omega)]; exact List.getElem_mem _
    simp only [computeFaceGeometry, h1, h2, show ¬ ((2 : Nat) = 3) by decide, if_false, if_true]
    rw [edgeVec2 hb, storeNormals_eq m f _ _ _ hl]
    simp only [Option.map_some, faceVector, h1, show ¬ ((2 : Nat) = 3) by decide, if_false]

/-- the vector is not zero -/
theorem L22_pos {p : Point} (hd : p.d = 3 ∨ p.d = 2) (hz : p.d = 2 → p.z = 0) : L22 p ≠ 0 ↔ (p.x ≠ 0 ∨ p.y ≠ 0 ∨ p.z ≠ 0) := by
  have key : L22 p = p.x * p.x + p.y * p.y + p.z * p.z := by
    rcases hd with h | h
    · simp [L22, dot, h]
    · simp [L22, dot, h, hz h]
  rw [key]
  constructor
  · intro h
    by_contra hn
    push Not at hn
    rw [hn.1, hn.2.1, hn.2.2] at h
    simp at h
  · intro h h0
    have hx := mul_self_nonneg p.x
    have hy := mul_self_nonneg p.y
    have hz := mul_self_nonneg p.z
    rcases h with h | h | h
    · exact h (mul_self_eq_zero.1 (by linarith))
    · exact h (mul_self_eq_zero.1 (by linarith))
    · exact h (mul_self_eq_zero.1 (by linarith))

/-- **C59.** On solid and plane meshes, the normal of a face with respect to a cell is the area vector of the face taken in
the cell's direction. -/
theorem face_normal_cell (f c : Nat) (hg : GoodFace m f) (hl : Listed m f) (hc : c ∈ m.faceCells f) :
    (faceDir m f c = some 1 → faceNormal m f (some c) = some (faceVector m f)) ∧
    (faceDir m f c = some (-1) → faceNormal m f (some c) = some (neg (faceVector m f))) := by
  obtain ⟨area, cen, he⟩ := computeFace_normals m f hg hl
  constructor
  · intro hd
    simp only [faceNormal, he, Option.bind_some, hd, Option.map_some, if_true]
    rw [if_pos ⟨c, hc, hd⟩]
  · intro hd
    simp only [faceNormal, he, Option.bind_some, hd, Option.map_some, show ¬ ((-1 : Int) = 1) by decide, if_false]
    rw [if_pos ⟨c, hc, hd⟩]

/-- **C59, the natural normal.** Without a cell, the normal of a face of nonzero area with at least one cell is the area
vector in the order of the face's vertices, whichever cells exist. -/
theorem face_normal_natural (f : Nat) (hg : GoodFace m f) (hl : Listed m f) (hc : m.faceCells f ≠ [])
    (hn : (faceVector m f).x ≠ 0 ∨ (faceVector m f).y ≠ 0 ∨ (faceVector m f).z ≠ 0) :
    faceNormal m f none = some (faceVector m f) := by
  obtain ⟨area, cen, he⟩ := computeFace_normals m f hg hl
  obtain ⟨s1, s2, s3, s4⟩ := faceVector_shape m f hg
  have hL : L22 (faceVector m f) ≠ 0 := (L22_pos (by rw [s1]; exact s3) (by rw [s1]; exact s4)).2 hn
  have hz : ¬ L22 (zero m.spaceDim) ≠ 0 := by simp [L22, dot, zero]
  have hLn : L22 (neg (faceVector m f)) ≠ 0 := by
    intro h0
    apply hL
    rw [← h0]
    rcases s3 with h | h
    · simp [L22, dot, neg, s1, h, mk3]
    · simp [L22, dot, neg, s1, h, mk2]
  simp only [faceNormal, he, Option.bind_some]
  by_cases h1 : ∃ c ∈ m.faceCells f, faceDir m f c = some 1
  · rw [if_pos h1, if_pos hL]
  · obtain ⟨c, hc⟩ := List.exists_mem_of_ne_nil _ hc
    have h2 : ∃ c ∈ m.faceCells f, faceDir m f c = some (-1) := by
      refine ⟨c, hc, ?_⟩
      rcases hl c hc with h | h
      · exact absurd ⟨c, hc, h⟩ h1
      · exact h
    rw [if_neg h1, if_neg hz, if_pos h2, if_pos hLn, s2]

/-- **C59, the two sides.** If two cells share a face with opposite directions, their normals are opposite. -/
theorem face_normal_opposite (f c c' : Nat) (hg : GoodFace m f) (hl : Listed m f) (hc : c ∈ m.faceCells f) (hc' : c' ∈ m.faceCells f)
    (h1 : faceDir m f c = some 1) (h2 : faceDir m f c' = some (-1)) :
    ∃ n n', faceNormal m f (some c) = some n ∧ faceNormal m f (some c') = some n' ∧ n' = neg n ∧ n = neg n' :=
  ⟨_, _, (face_normal_cell m f c hg hl hc).1 h1, (face_normal_cell m f c' hg hl hc').2 h2, rfl,
    (faceVector_shape m f hg).2.1.symm⟩

/-! ### outward normals of a cell -/

/-- Cell `c` of a solid mesh: its faces are good, belong to it, and are listed once, with a direction. -/
structure GoodCell (c : Nat) : Prop where
  dim : m.manifoldDim = 3
  face : ∀ fd ∈ m.cellFaces c, GoodFace m fd.1 ∧ Listed m fd.1 ∧ c ∈ m.faceCells fd.1 ∧ (fd.2 = 1 ∨ fd.2 = -1)
  nodup : ((m.cellFaces c).map Prod.fst).Nodup

theorem faceDir_of_mem {c : Nat} {fd : Nat × Int} (hn : ((m.cellFaces c).map Prod.fst).Nodup) (h : fd ∈ m.cellFaces c) :
    faceDir m fd.1 c = some fd.2 := by
  have key : ∀ L : List (Nat × Int), (L.map Prod.fst).Nodup → fd ∈ L → (L.find? fun x => x.1 = fd.1) = some fd := by
    intro L
    induction L with
    | nil => intro _ h; cases h
    | cons a L ih =>
      intro hn h
      rw [List.map_cons, List.nodup_cons] at hn
      rcases List.mem_cons.1 h with rfl | h
      · simp
      · have hne : a.1 ≠ fd.1 := by
          intro he; apply hn.1; rw [he]; exact List.mem_map_of_mem h
        rw [List.find?_cons_of_neg (by simpa using hne)]
        exact ih hn.2 h
  rw [faceDir, key _ hn h]; rfl

/-- the normal reported for a face of a cell is the area vector of the face as seen from outside of the cell -/
theorem outward_eq (c : Nat) (hc : GoodCell m c) {fd : Nat × Int} (h : fd ∈ m.cellFaces c) :
    faceNormal m fd.1 (some c) = some (areaVector (orientedFace m fd)) := by
  obtain ⟨h1, h2, h3, h4⟩ := hc.face fd h
  have hd := faceDir_of_mem m hc.nodup h
  have hv : faceVector m fd.1 = areaVector (m.faceCoords fd.1) := by rw [faceVector, if_pos hc.dim]
  rcases h4 with h4 | h4
  · rw [(face_normal_cell m fd.1 c h1 h2 h3).1 (by rw [hd, h4]), hv, orientedFace, if_pos h4]
  · rw [(face_normal_cell m fd.1 c h1 h2 h3).2 (by rw [hd, h4]), hv, orientedFace, if_neg (by rw [h4]; decide),
      (areaVector_invariance _ 0 0 0 0).2.1]

/-- the sum of vectors in space -/
noncomputable def vecSum (l : List Point) : Point := ⟨3, (l.map Point.x).sum, (l.map Point.y).sum, (l.map Point.z).sum⟩

theorem antisym_sum (fs : List (List Point)) (h : Closed fs) (T : Point × Point → ℝ) (hT : ∀ e, T e.swap = - T e) :
    ((fs.flatMap polyEdges).map T).sum = 0 := by
  have h1 := (h.map T).sum_eq
  rw [List.map_map, sum_map_congr _ (T ∘ Prod.swap) (fun e => -T e) (fun e _ => hT e), sum_map_neg] at h1
  linarith

/-- **C59, closed cells.** The outward normals of the faces of a cell whose surface is closed add up to zero. -/
theorem outward_normals_sum (c : Nat) (hc : GoodCell m c) (hcl : Closed ((m.cellFaces c).map (orientedFace m))) :
    ∃ ns : List Point, (m.cellFaces c).mapM (fun fd => faceNormal m fd.1 (some c)) = some ns ∧ vecSum ns = zero 3 := by
  refine ⟨(m.cellFaces c).map fun fd => areaVector (orientedFace m fd), ?_, ?_⟩
  · have : ∀ L : List (Nat × Int), (∀ fd ∈ L, fd ∈ m.cellFaces c) → L.mapM (fun fd => faceNormal m fd.1 (some c)) =
        some (L.map fun fd => areaVector (orientedFace m fd)) := by
      intro L
      induction L with
      | nil => intro _; rfl
      | cons a L ih =>
        intro h
        rw [List.mapM_cons, outward_eq m c hc (h a (by simp)), ih fun fd hfd => h fd (by simp [hfd])]
        rfl
    exact this _ fun _ h => h
  · have conv : ∀ T : Point × Point → ℝ, (∀ e, T e.swap = - T e) →
        ((m.cellFaces c).map fun fd => ((polyEdges (orientedFace m fd)).map T).sum / 2).sum = 0 := by
      intro T hT
      have h0 := antisym_sum _ hcl T hT
      rw [sum_flatMap, List.map_map] at h0
      have h1 := sum_map_mulc (m.cellFaces c) (1 / 2) (fun fd => ((polyEdges (orientedFace m fd)).map T).sum)
      rw [show (fun fd => ((polyEdges (orientedFace m fd)).map T).sum / 2) =
        fun fd => 1 / 2 * ((polyEdges (orientedFace m fd)).map T).sum by funext fd; ring, h1]
      simp only [Function.comp_def] at h0
      rw [h0]; ring
    rw [vecSum, zero]
    simp only [List.map_map, Function.comp_def, areaVector]
    ext
    · rfl
    all_goals
      simp only
      rw [conv]
      intro e; simp only [Prod.fst_swap, Prod.snd_swap]; ring

/-- scalar product -/
noncomputable def sdot (u v : Point) : ℝ := u.x * v.x + u.y * v.y + u.z * v.z

theorem facets_sum (f : List Point) (o : Point) :
    ((facets f).map fun t => tetVol o t.1 t.2.1 t.2.2).sum = sdot (areaVector f) (vec o (vertexMean 3 f)) / 3 := by
  rcases Nat.decEq f.length 3 with hl | hl
  · rw [facets_other f hl, List.map_map]
    simp only [Function.comp_def]
    set v := vertexMean 3 f
    obtain ⟨tr, _, _⟩ := areaVector_invariance f (-o.x) (-o.y) (-o.z) 0
    rw [← tr]
    simp only [sdot, areaVector, edges_map, List.map_map, Function.comp_def, vec]
    have h6 : ∀ a b c x y z : ℝ, (a / 2 * x + b / 2 * y + c / 2 * z) / 3 = x / 6 * a + (y / 6 * b + z / 6 * c) := by
      intros; ring
    rw [h6, ← sum_map_mulc, ← sum_map_mulc, ← sum_map_mulc, ← sum_map_add, ← sum_map_add]
    apply sum_map_congr
    intro e _
    simp only [tetVol, det3, vec]; ring
  · obtain ⟨a, b, c, rfl⟩ := List.length_eq_three.1 hl
    simp only [facets, polyEdges, List.rotate_cons_succ, List.rotate_zero, List.zip_cons_cons, List.cons_append,
      List.nil_append, List.zip_nil_right, List.map_cons, List.map_nil, List.sum_cons, List.sum_nil, sdot, areaVector, tetVol, det3,
      vec, vertexMean, mean, List.length_cons, List.length_nil]
    push_cast
    ring

/-- **C59, outward.** If a cell is star-shaped around the average of its vertices (C54: its volume is reported positive), the
normal of each of its faces with respect to the cell points away from that average: its product with the vector from the
cell's average to the face's average is positive. -/
theorem outward_normals_point_out (c : Nat) (hc : GoodCell m c)
    (hs : StarShaped3 (m.cellCoords c) ((m.cellFaces c).map (orientedFace m))) {fd : Nat × Int} (h : fd ∈ m.cellFaces c) :
    ∃ n, faceNormal m fd.1 (some c) = some n ∧
      0 < sdot n (vec (vertexMean 3 (m.cellCoords c)) (vertexMean 3 (m.faceCoords fd.1))) := by
  refine ⟨_, outward_eq m c hc h, ?_⟩
  have hm : vertexMean 3 (m.faceCoords fd.1) = vertexMean 3 (orientedFace m fd) := by
    unfold orientedFace
    split
    · rfl
    · simp only [vertexMean, mean, List.map_reverse, List.sum_reverse, List.length_reverse]
  rw [hm]
  have hf : orientedFace m fd ∈ (m.cellFaces c).map (orientedFace m) := List.mem_map_of_mem h
  have hne : facets (orientedFace m fd) ≠ [] := by
    have hlen : 3 ≤ (orientedFace m fd).length := by
      rcases (hc.face fd h).1 with ⟨_, _, h3, _⟩ | ⟨h3, _⟩
      · unfold orientedFace; split <;> simpa using h3
      · have := hc.dim; omega
    rcases Nat.decEq (orientedFace m fd).length 3 with hl | hl
    · rw [facets_other _ hl]
      intro h0
      have := congrArg List.length h0
      rw [List.length_map, edges_length, List.length_nil] at this; omega
    · obtain ⟨a, b, d, he⟩ := List.length_eq_three.1 hl
      rw [he]; simp [facets]
  have := sum_pos_of (facets (orientedFace m fd)) (fun t => tetVol (vertexMean 3 (m.cellCoords c)) t.1 t.2.1 t.2.2)
    (fun t ht => hs _ hf t ht) hne
  rw [facets_sum] at this
  linarith

/-! ### plane meshes -/

/-- **C59, plane meshes.** If a face of a plane cell, taken in the cell's direction, is an edge of the cell's boundary, and the
boundary is star-shaped and counter-clockwise around the average of the cell's vertices, then the normal with respect to the
cell points away from that average, is perpendicular to the face and as long as the face. -/
theorem plane_normal_points_out (f c : Nat) (dir : Int) (hg : GoodFace m f) (h2 : m.manifoldDim = 2) (hl : Listed m f)
    (hc : c ∈ m.faceCells f) (hd : faceDir m f c = some dir) (a b : Point)
    (hab : orientedFace m (f, dir) = [a, b]) (he : (a, b) ∈ polyEdges (m.cellCoords c)) (hs : StarShaped (m.cellCoords c)) :
    ∃ n, faceNormal m f (some c) = some n ∧ n.d = 2 ∧
      0 < n.x * (a.x - (vertexMean 2 (m.cellCoords c)).x) + n.y * (a.y - (vertexMean 2 (m.cellCoords c)).y) ∧
      n.x * (b.x - a.x) + n.y * (b.y - a.y) = 0 ∧
      n.x ^ 2 + n.y ^ 2 = (b.x - a.x) ^ 2 + (b.y - a.y) ^ 2 := by
  have hdir : dir = 1 ∨ dir = -1 := by
    rcases hl c hc with h | h <;> rw [hd] at h
    · exact .inl (Option.some.inj h)
    · exact .inr (Option.some.inj h)
  have hn : faceNormal m f (some c) = some (edgeNormal a b) := by
    rcases hdir with rfl | rfl
    · rw [orientedFace, if_pos rfl] at hab
      rw [(face_normal_cell m f c hg hl hc).1 hd, faceVector, if_neg (by omega), hab]; rfl
    · rw [orientedFace, if_neg (by show ¬ ((-1 : Int) = 1); decide)] at hab
      have hab' : m.faceCoords f = [b, a] := by rw [← List.reverse_reverse (m.faceCoords f), hab]; rfl
      rw [(face_normal_cell m f c hg hl hc).2 hd, faceVector, if_neg (by omega), hab']
      simp only [pt, List.getD_cons_zero, List.getD_cons_succ, edgeNormal, mk2, neg2]
      congr 1; ext <;> simp only <;> ring
  refine ⟨_, hn, rfl, ?_, ?_, ?_⟩
  · have h0 := hs (a, b) he
    simp only [orient2] at h0
    simp only [edgeNormal, mk2]
    nlinarith [h0]
  · simp only [edgeNormal, mk2]; ring
  · simp only [edgeNormal, mk2]; ring

/-! ### surface meshes -/

theorem add_nothing (L : List Point) : L.foldl addAssign (zero 0) = zero 0 := by
  have key : ∀ p : Point, p.d = 0 → addAssign p = fun _ => p := by
    intro p hp; funext q; obtain ⟨d, x, y, z⟩ := p; simp only at hp; subst hp; simp [addAssign]
  induction L with
  | nil => rfl
  | cons a L ih => rw [List.foldl_cons, key _ rfl]; exact ih

/-- the centre of the cell is always the origin in the surface branch -/
theorem surfaceNormal_eq (f c : Nat) : surfaceNormal m f c =
    (let evec := pt (m.faceCoords f) 1 - pt (m.faceCoords f) 0
     let normal := cross evec (cross (pt (m.faceCoords f) 0 - zero 0) evec)
     mulAssign (divAssign normal (norm normal)) (Real.sqrt (dot evec evec))) := by
  simp only [surfaceNormal, add_nothing]
  have : ∀ r, divAssign (zero 0) r = zero 0 := by intro r; simp [divAssign, zero]
  rw [this]

theorem storeSurface_eq (f : Nat) (N : Point) (hN : ∀ c, surfaceNormal m f c = N) : ∀ (cs : List Nat) (acc : Normals),
    (∀ c ∈ cs, faceDir m f c = some 1 ∨ faceDir m f c = some (-1)) →
    storeSurfaceNormals m f cs acc = some
      ⟨if ∃ c ∈ cs, faceDir m f c = some 1 then N else acc.n0, if ∃ c ∈ cs, faceDir m f c = some (-1) then N else acc.n1⟩ := by
  intro cs
  induction cs with
  | nil => intro acc _; simp [storeSurfaceNormals]
  | cons c cs ih =>
    intro acc h
    have hc := h c (by simp)
    have ih' := fun acc => ih acc fun c hc => h c (by simp [hc])
    rcases hc with hc | hc
    · simp only [storeSurfaceNormals, hc, Option.bind_some, if_true, ih', hN]
      have h1 : (∃ c' ∈ c :: cs, faceDir m f c' = some 1) ↔ True := by simp [hc]
      have h2 : (∃ c' ∈ c :: cs, faceDir m f c' = some (-1)) ↔ ∃ c' ∈ cs, faceDir m f c' = some (-1) := by simp [hc]
      simp only [h1, h2, if_true, ite_self]
    · simp only [storeSurfaceNormals, hc, Option.bind_some, show ¬ ((-1 : Int) = 1) by decide, if_false, ih', hN]
      have h1 : (∃ c' ∈ c :: cs, faceDir m f c' = some 1) ↔ ∃ c' ∈ cs, faceDir m f c' = some 1 := by simp [hc]
      have h2 : (∃ c' ∈ c :: cs, faceDir m f c' = some (-1)) ↔ True := by simp [hc]
      simp only [h1, h2, if_true, ite_self]

/-- **C69 is false of the code.** On a surface mesh, the normal reported for an edge is the same vector with respect to all
of its cells, so it cannot point out of each of them. -/
theorem surface_normal_same (f : Nat) (h2 : m.manifoldDim = 2) (h3 : m.spaceDim = 3) (hl : Listed m f) :
    ∃ n, ∀ c ∈ m.faceCells f, faceNormal m f (some c) = some n := by
  refine ⟨surfaceNormal m f 0, ?_⟩
  intro c hc
  have hN : ∀ c, surfaceNormal m f c = surfaceNormal m f 0 := fun c => by rw [surfaceNormal_eq, surfaceNormal_eq]
  have he := storeSurface_eq m f _ hN (m.faceCells f) ⟨zero m.spaceDim, zero m.spaceDim⟩ hl
  simp only [faceNormal, computeFaceGeometry, h2, h3, show ¬ ((2 : Nat) = 3) by decide, show ¬ ((3 : Nat) = 2) by decide, if_false, if_true]
  rw [h3] at he
  rw [he]
  simp only [Option.map_some, Option.bind_some]
  rcases hl c hc with hd | hd
  · rw [hd]; simp only [Option.map_some, if_true]; rw [if_pos ⟨c, hc, hd⟩]
  · rw [hd]; simp only [Option.map_some, show ¬ ((-1 : Int) = 1) by decide, if_false]; rw [if_pos ⟨c, hc, hd⟩]

/-- two unit squares in the plane z = 0, sharing the edge x = 1 (face 0) -/
noncomputable def twoSquares : GMesh where
  manifoldDim := 2
  spaceDim := 3
  geomType := .CARTESIAN
  cellFaces := fun c => if c = 0 then [(0, 1)] else [(0, -1)]
  faceCells := fun _ => [0, 1]
  faceCoords := fun _ => [mk3 1 0 0, mk3 1 1 0]
  cellCoords := fun c => if c = 0 then [mk3 0 0 0, mk3 1 0 0, mk3 1 1 0, mk3 0 1 0] else [mk3 1 0 0, mk3 2 0 0, mk3 2 1 0, mk3 1 1 0]
  edgeNodes := fun _ => (0, 0)
  nodeCoord := fun _ => zero 3

/-- **C69, witness.** The edge between two squares in the plane z = 0: the normal (1,0,0) is reported for both cells, which
points into the second one. -/
theorem surface_normal_wrong : faceNormal twoSquares 0 (some 0) = some (mk3 1 0 0) ∧
    faceNormal twoSquares 0 (some 1) = some (mk3 1 0 0) ∧
    sdot (mk3 1 0 0) (vec (vertexMean 3 (twoSquares.cellCoords 1)) (vertexMean 3 (twoSquares.faceCoords 0))) < 0 := by
  have hl : Listed twoSquares 0 := by
    intro c hc
    simp only [twoSquares, List.mem_cons, List.not_mem_nil, or_false] at hc
    rcases hc with rfl | rfl
    · left; rfl
    · right; rfl
  obtain ⟨n, hn⟩ := surface_normal_same twoSquares 0 rfl rfl hl
  have h0 : faceNormal twoSquares 0 (some 0) = some (mk3 1 0 0) := by
    have : faceNormal twoSquares 0 (some 0) = some (surfaceNormal twoSquares 0 0) := rfl
    rw [this, surfaceNormal_eq]
    simp only [twoSquares, pt, List.getD_cons_zero, List.getD_cons_succ]
    congr 1
    have e1 : mk3 1 1 0 - mk3 1 0 0 = ⟨3, 0, 1, 0⟩ := by rw [sub3 _ rfl]; simp [mk3]
    have e2 : mk3 1 0 0 - zero 0 = ⟨3, 1, 0, 0⟩ := by rw [sub3 _ rfl]; simp [mk3, zero]
    rw [e1, e2, cross3, cross3, dot3]
    simp [Point.norm, dot, divAssign, mulAssign, mk3]
  refine ⟨h0, ?_, ?_⟩
  · rw [hn 1 (by simp [twoSquares]), ← hn 0 (by simp [twoSquares]), h0]
  · simp only [sdot, vec, vertexMean, mean, twoSquares, mk3, List.map_cons, List.map_nil, List.sum_cons, List.sum_nil,
      List.length_cons, List.length_nil]
    norm_num

/-! ### one-dimensional meshes -/

/-- **C71 is false of the code.** On every one-dimensional mesh, the centroid reported for every face is the origin. -/
theorem face_centroid_1d (f : Nat) (h1 : m.manifoldDim = 1) (hs : m.spaceDim = 1) {r} (h : computeFaceGeometry m f = some r) :
    r.2.1 = mk1 0 := by
  simp only [computeFaceGeometry, h1, show ¬ ((1 : Nat) = 3) by decide, show ¬ ((1 : Nat) = 2) by decide, if_false, if_true] at h
  simp only [Option.bind_eq_some_iff, Option.map_eq_some_iff] at h
  obtain ⟨_, _, _, _, _, _, rfl⟩ := h
  rw [hs]; rfl

/-- **C59 on one-dimensional meshes.** The normal with respect to a cell is the face's area, positive for direction 1 and
negative for direction -1; the area is 1 in Cartesian and 4πr² in spherical geometry. -/
theorem face_normal_1d (f c : Nat) (area : ℝ) (h1 : m.manifoldDim = 1) (hs : m.spaceDim = 1) (hl : Listed m f) (hc : c ∈ m.faceCells f)
    (ha : (m.geomType = .CARTESIAN ∧ area = 1) ∨ (m.geomType = .SPHERICAL ∧ area = 4 * Real.pi * (pt (m.faceCoords f) 0).x ^ 2)) :
    (faceDir m f c = some 1 → faceNormal m f (some c) = some (mk1 area)) ∧
    (faceDir m f c = some (-1) → faceNormal m f (some c) = some (mk1 (-area))) ∧
    (faceNormal m f none = if area ≠ 0 then some (mk1 area) else none) := by
  have hA : face1dArea (m.faceCoords f) m.geomType = some area := by
    rcases ha with ⟨h, rfl⟩ | ⟨h, rfl⟩ <;> rw [h] <;> rfl
  have he : computeFaceGeometry m f = some (area, zero 1,
      ⟨if ∃ c ∈ m.faceCells f, faceDir m f c = some 1 then mk1 area else zero 1,
       if ∃ c ∈ m.faceCells f, faceDir m f c = some (-1) then mk1 (-area) else zero 1⟩) := by
    simp only [computeFaceGeometry, h1, show ¬ ((1 : Nat) = 3) by decide, show ¬ ((1 : Nat) = 2) by decide, if_false, if_true, hA,
      Option.bind_some, hs]
    have : (zero 1).setAll area = some (mk1 area) := by simp [setAll, zero, mk1]
    rw [this, Option.bind_some, storeNormals_eq m f _ _ _ hl]
    have : neg (mk1 area) = mk1 (-area) := by simp [neg, mk1]
    rw [this]; rfl
  refine ⟨?_, ?_, ?_⟩
  · intro hd
    simp only [faceNormal, he, Option.bind_some, hd, Option.map_some, if_true]
    rw [if_pos ⟨c, hc, hd⟩]
  · intro hd
    simp only [faceNormal, he, Option.bind_some, hd, Option.map_some, show ¬ ((-1 : Int) = 1) by decide, if_false]
    rw [if_pos ⟨c, hc, hd⟩]
  · have hL : ∀ r, L22 (mk1 r) = r * r := by intro r; simp [L22, dot, mk1]
    have hz : ¬ L22 (zero 1) ≠ 0 := by simp [L22, dot, zero]
    have hn : neg (mk1 (-area)) = mk1 area := by simp [neg, mk1]
    simp only [faceNormal, he, Option.bind_some]
    by_cases h0 : area = 0
    · subst h0
      have e1 : mk1 0 = zero 1 := rfl
      have e2 : mk1 (-0) = zero 1 := by rw [neg_zero]; rfl
      simp only [e1, e2, ite_self]
      rw [if_neg hz, if_neg hz]; simp
    · have hL1 : L22 (mk1 area) ≠ 0 := by rw [hL]; exact mul_ne_zero h0 h0
      have hL2 : L22 (mk1 (-area)) ≠ 0 := by rw [hL]; exact mul_ne_zero (neg_ne_zero.2 h0) (neg_ne_zero.2 h0)
      by_cases hx : ∃ c ∈ m.faceCells f, faceDir m f c = some 1
      · rw [if_pos hx, if_pos hL1, if_pos h0]
      · have h2 : ∃ c ∈ m.faceCells f, faceDir m f c = some (-1) := by
          refine ⟨c, hc, ?_⟩
          rcases hl c hc with h | h
          · exact absurd ⟨c, hc, h⟩ hx
          · exact h
        rw [if_neg hx, if_neg hz, if_pos h2, if_pos hL2, if_pos h0, hn]

/-- one spherical cell from r = 0 to r = 3 -/
noncomputable def ball : GMesh where
  manifoldDim := 1
  spaceDim := 1
  geomType := .SPHERICAL
  cellFaces := fun _ => [(0, -1), (1, 1)]
  faceCells := fun _ => [0]
  faceCoords := fun f => if f = 0 then [mk1 0] else [mk1 3]
  cellCoords := fun _ => [mk1 0, mk1 3]
  edgeNodes := fun _ => (0, 0)
  nodeCoord := fun _ => zero 1

theorem ball_listed (f : Nat) (hf : f < 2) : Listed ball f := by
  intro c hc
  simp only [ball, List.mem_cons, List.not_mem_nil, or_false] at hc
  subst hc
  match f, hf with
  | 0, _ => right; rfl
  | 1, _ => left; rfl

/-- **C71, witness**: the face at r = 3 of a spherical cell gets the centroid r = 0. **C59 on a spherical mesh** fails at the
origin: asking for the natural normal of the face at r = 0 aborts (the area is 0). -/
theorem ball_geometry : (∃ r, computeFaceGeometry ball 1 = some r ∧ r.2.1 = mk1 0 ∧ pt (ball.faceCoords 1) 0 = mk1 3) ∧
    faceNormal ball 0 none = none := by
  constructor
  · have h : (computeFaceGeometry ball 1).isSome := rfl
    obtain ⟨r, hr⟩ := Option.isSome_iff_exists.1 h
    exact ⟨r, hr, face_centroid_1d ball 1 rfl rfl hr, rfl⟩
  · have := (face_normal_1d ball 0 0 0 rfl rfl (ball_listed 0 (by decide)) (by simp [ball])
      (.inr ⟨rfl, by simp [ball, pt, mk1]⟩)).2.2
    simpa using this

/-- the face at r = 3 has normal 36π -/
example : faceNormal ball 1 (some 0) = some (mk1 (4 * Real.pi * 3 ^ 2)) :=
  (face_normal_1d ball 1 0 _ rfl rfl (ball_listed 1 (by decide)) (by simp [ball]) (.inr ⟨rfl, by simp [ball, pt, mk1]⟩)).1 rfl

/-! ### edges -/

/-- **C70.** The vector of an edge seen from one of its two ends leads from that end to the other: end + vector = other end;
the orientation is 1 from the first end and -1 from the second. -/
theorem edge_vector_from (e p q : Nat) (hd : ∀ n, (m.nodeCoord n).d = 3 ∨ (m.nodeCoord n).d = 2)
    (hdim : (m.nodeCoord p).d = (m.nodeCoord q).d) (hz : ∀ n, (m.nodeCoord n).d = 2 → (m.nodeCoord n).z = 0)
    (h : m.edgeNodes e = (p, q)) (hpq : p ≠ q) :
    m.nodeCoord p + (edgeVector m e (some p)).1 = m.nodeCoord q ∧ (edgeVector m e (some p)).2 = 1 ∧
    m.nodeCoord q + (edgeVector m e (some q)).1 = m.nodeCoord p ∧ (edgeVector m e (some q)).2 = -1 ∧
    edgeVector m e none = edgeVector m e (some p) := by
  have hp : edgeVector m e (some p) = (m.nodeCoord q - m.nodeCoord p, 1) := by
    simp [edgeVector, computeEdgeGeometry, h]
  have hq : edgeVector m e (some q) = (neg (m.nodeCoord q - m.nodeCoord p), -1) := by
    simp [edgeVector, computeEdgeGeometry, h, Ne.symm hpq]
  have h0 : edgeVector m e none = (m.nodeCoord q - m.nodeCoord p, 1) := by
    simp [edgeVector, computeEdgeGeometry, h]
  rw [hp, hq, h0]
  refine ⟨?_, rfl, ?_, rfl, rfl⟩
  · rcases hd p with h3 | h2
    · have h3q := hdim ▸ h3
      rw [sub3 _ h3q, add3 _ h3]
      ext
      · exact h3q.symm
      all_goals simp
    · have h2q := hdim ▸ h2
      rw [sub2 _ h2q, add2 _ h2]
      ext
      · exact h2q.symm
      · simp
      · simp
      · exact (hz q h2q).symm
  · rcases hd p with h3 | h2
    · have h3q := hdim ▸ h3
      rw [sub3 _ h3q, neg3, add3 _ h3q]
      ext
      · exact h3.symm
      all_goals simp
    · have h2q := hdim ▸ h2
      rw [sub2 _ h2q, neg2, add2 _ h2q]
      ext
      · exact h2.symm
      · simp
      · simp
      · exact (hz p h2).symm

/-- **C70.** The length of an edge squared is the sum of the squared coordinate differences, and both ways of asking for the
centre of an edge give the midpoint. -/
theorem edge_length_centroid (e p q : Nat) (hd : (m.nodeCoord p).d = 3 ∧ (m.nodeCoord q).d = 3) (h : m.edgeNodes e = (p, q)) :
    let P := m.nodeCoord p
    let Q := m.nodeCoord q
    (computeEdgeGeometry m e).1 ^ 2 = (Q.x - P.x) ^ 2 + (Q.y - P.y) ^ 2 + (Q.z - P.z) ^ 2 ∧ 0 ≤ (computeEdgeGeometry m e).1 ∧
    (computeEdgeGeometry m e).2.2 = mk3 ((P.x + Q.x) / 2) ((P.y + Q.y) / 2) ((P.z + Q.z) / 2) ∧
    edgeCentroid m e = mk3 ((P.x + Q.x) / 2) ((P.y + Q.y) / 2) ((P.z + Q.z) / 2) := by
  intro P Q
  have hP : P.d = 3 := hd.1
  have hQ : Q.d = 3 := hd.2
  simp only [computeEdgeGeometry, edgeCentroid, h]
  show norm (Q - P) ^ 2 = _ ∧ 0 ≤ norm (Q - P) ∧ smul 0.5 (P + Q) = _ ∧ sdiv (P + Q) 2 = _
  rw [sub3 _ hQ, add3 _ hP, sdiv, smul3, smul3, Point.norm, dot3]
  refine ⟨?_, Real.sqrt_nonneg _, ?_, ?_⟩
  · rw [Real.sq_sqrt (add_nonneg (add_nonneg (mul_self_nonneg _) (mul_self_nonneg _)) (mul_self_nonneg _))]; ring
  · simp only [mk3]; ext <;> simp only <;> ring
  · simp only [mk3]; ext <;> simp only <;> ring

/-- a 3-4-12 edge -/
noncomputable def oneEdge : GMesh := { ball with
  edgeNodes := fun _ => (5, 9)
  nodeCoord := fun n => if n = 5 then mk3 1 1 1 else mk3 4 5 13 }

example : oneEdge.nodeCoord 9 + (edgeVector oneEdge 7 (some 9)).1 = oneEdge.nodeCoord 5 ∧ (edgeVector oneEdge 7 (some 9)).2 = -1 := by
  have h := edge_vector_from oneEdge 7 5 9 (fun n => by left; simp only [oneEdge]; split <;> rfl) rfl
    (fun n hn => by simp only [oneEdge] at hn; split at hn <;> cases hn) rfl (by decide)
  exact ⟨h.2.2.1, h.2.2.2.1⟩

end Jali.MeshGeom
