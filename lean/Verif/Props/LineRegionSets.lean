import Verif.Props.RegularRegionSets
import Verif.Props.LinePointSets
import Verif.Props.MeshSimple1D
/-!
C179: which cells, faces and nodes of a one-dimensional structured mesh the set of a box or a plane holds.
-/
namespace Jali.SimpleGeom
open Jali.Geom Jali.Geom.Point Jali.Geom.Spec Jali.MeshGeom Jali.Reg Jali.MstkGen

variable {nx : Nat} {x : Nat → ℝ}

/-- the point is in the interval with ends `p0`, `p1`, up to 1e-8 -/
def InSegment (p0 p1 : Point) (t : ℝ) : Prop := min p0.x p1.x - 1 / 10 ^ 8 ≤ t ∧ t ≤ max p0.x p1.x + 1 / 10 ^ 8

/-- the distance of the point to `q` is at most 1e-12, for a normal `n` of length 1 -/
def AtPoint (q n : Point) (t : ℝ) : Prop := |n.x * (t - q.x)| ≤ 1 / 10 ^ 12

theorem regionOf_box1 {nm : String} {id : Nat} {p0 p1 : Point} {lc : LifeCycle} {rg : AnyRegion} (h : mkBox nm id p0 p1 lc = .value rg)
    (h1 : p0.d = 1) (lab : List Nat × List Nat) : (regionOf lab rg).type = .BOX ∧
      ∀ t : ℝ, (regionOf lab rg).inside (mk1 t) = true ↔ InSegment p0 p1 t := by
  constructor
  · unfold mkBox at h
    split at h
    · cases h
    · simp only [Res.value.injEq] at h; subst h; rfl
  · intro t
    obtain ⟨b, hb, e⟩ := (box_region_inside nm id p0 p1 lc rg h (mk1 t)).2 h1.symm
    simp only [regionOf, hb, e]
    constructor
    · intro k; exact k 0 (by simp [mk1])
    · rintro k i hi
      obtain rfl : i = 0 := by simp only [mk1] at hi; omega
      exact k

theorem regionOf_plane1 {nm : String} {id : Nat} {q n : Point} {lc : LifeCycle} {rg : AnyRegion} (h : mkPlane nm id q n lc = .value rg)
    (h1 : q.d = 1) (lab : List Nat × List Nat) : (regionOf lab rg).type = .PLANE ∧
      ∀ t : ℝ, (regionOf lab rg).inside (mk1 t) = true ↔ AtPoint q n t := by
  constructor
  · unfold mkPlane at h
    split at h
    · cases h
    · simp only [Res.value.injEq] at h; subst h; rfl
  · intro t
    obtain ⟨b, hb, e⟩ := (plane_inside nm id q n lc rg h (mk1 t)).2 h1.symm
    simp only [regionOf, hb, e]
    simp [AtPoint, List.range_succ, Point.coord, mk1]

/-- what the construction of sets from regions asks of the one-dimensional mesh: the point queries do not matter -/
noncomputable def lineGeo (nx : Nat) (x : Nat → ℝ) (g : GeomType) (fr : Bool) (pic : Point → Nat → Bool) (ds : Point → Point → Rat) : Geo Point :=
  geoOf (lineMesh nx x g) fr (Simple1D.nodeGetCells nx) pic ds

/-- the geometry of cells is defined: Cartesian, or spherical without negative radii -/
def GoodLine (nx : Nat) (x : Nat → ℝ) (g : GeomType) : Prop := (∀ i < nx, x i < x (i + 1)) ∧ (g = .CARTESIAN ∨ g = .SPHERICAL ∧ 0 ≤ x 0)

theorem line_cell_centroid {g : GeomType} (hg : GoodLine nx x g) {c : Nat} (hc : c < nx) :
    ((computeCellGeometry (lineMesh nx x g) c).map Prod.snd).getD (zero 0) = mk1 ((x c + x (c + 1)) / 2) := by
  obtain ⟨hi, rfl | ⟨rfl, h0⟩⟩ := hg
  · rw [(line_cell_cartesian hi hc).1]; rfl
  · rw [(line_cell_spherical hi h0 hc).1]; rfl

theorem line_faceCoords {g : GeomType} {f : Nat} (hf : f < nx + 1) : (lineMesh nx x g).faceCoords f = [mk1 (x f)] := by
  show (Simple1D.faceGetNodes nx f).map (fun n => mk1 (x n)) = _
  rw [(Simple1D.downward nx).2 f hf]; rfl

theorem line_listed (g : GeomType) {f : Nat} (hf : f < nx + 1) : Listed (lineMesh nx x g) f := by
  intro c hc
  simp only [lineMesh, List.mem_map] at hc
  obtain ⟨y, hy, rfl⟩ := hc
  obtain ⟨c, rfl, h1, h2⟩ := (((Simple1D.upward nx).2.2 f hf).2 y).1 hy
  obtain ⟨-, e1, e2⟩ := (Simple1D.downward nx).1 c h1
  rw [e1] at h2
  simp only [faceDir, lineMesh, Int.toNat_natCast, e1, e2, List.zip_cons_cons, List.zip_nil_right, List.find?_cons, List.find?_nil]
  simp only [List.mem_cons, List.not_mem_nil, or_false] at h2
  rcases h2 with rfl | rfl
  · right; simp
  · left; simp

theorem line_face_geometry {g : GeomType} (hg : g = .CARTESIAN ∨ g = .SPHERICAL) {f : Nat} (hf : f < nx + 1) :
    ((computeFaceGeometry (lineMesh nx x g) f).map fun r => r.2.1).getD (zero 0) = mk1 0 := by
  have h : ∃ r, computeFaceGeometry (lineMesh nx x g) f = some r := by
    have hd : (lineMesh nx x g).manifoldDim = 1 := rfl
    have hA : ∃ area, face1dArea ((lineMesh nx x g).faceCoords f) (lineMesh nx x g).geomType = some area := by
      rcases hg with rfl | rfl <;> exact ⟨_, rfl⟩
    obtain ⟨area, hA⟩ := hA
    have e : (zero (lineMesh nx x g).spaceDim).setAll area = some (mk1 area) := by
      show (zero 1).setAll area = _
      simp [setAll, zero, mk1]
    simp only [computeFaceGeometry, hd, show ¬ ((1 : Nat) = 3) by decide, show ¬ ((1 : Nat) = 2) by decide, if_false, if_true, hA,
      Option.bind_some, e, storeNormals_eq _ f _ _ _ (line_listed g hf)]
    exact ⟨_, rfl⟩
  obtain ⟨r, h⟩ := h
  rw [h]
  show r.2.1 = _
  exact face_centroid_1d _ f rfl rfl h

variable {lab : List Nat × List Nat} {gm : List (Reg.Region Point)} {n : String} {rg : AnyRegion}

/-- **C179, cells.** The set of cells of a box on a one-dimensional mesh holds the cells whose middle is in the box; that of a plane holds
none. -/
theorem line_cell_sets (hl : ∀ r ∈ gm, r.type ≠ .LABELEDSET) (hr : findRegion gm n = some (regionOf lab rg)) {g : GeomType}
    {w : World} (hw : Fresh w .CELL nx) (fr : Bool) (pic : Point → Nat → Bool) (ds : Point → Point → Rat) :
    (∀ nm id p0 p1 lc, mkBox nm id p0 p1 lc = .value rg → p0.d = 1 → GoodLine nx x g →
      SetIs (lineGeo nx x g fr pic ds) gm w n .CELL (· < nx) (fun c => c) (fun c => InSegment p0 p1 ((x c + x (c + 1)) / 2))) ∧
    (∀ nm id q v lc, mkPlane nm id q v lc = .value rg → q.d = 1 →
      SetIs (lineGeo nx x g fr pic ds) gm w n .CELL (· < nx) (fun c => c) (fun _ => False)) := by
  have fits : Fits (lineGeo nx x g fr pic ds) gm w .CELL := hw.fits (fun _ v => line_node_cells nx v) hl
  have cAll : (w.view .CELL).nAll = nx := by simp [MSet.MeshView.nAll, hw.counts.1, hw.counts.2]
  constructor
  · intro nm id p0 p1 lc h h1 hg
    obtain ⟨t, hin⟩ := regionOf_box1 h h1 lab
    refine setIs_of fits hr (by rw [t]; rfl) fun e => ?_
    simp only [InRegion, t, cAll]
    have key : ∀ c < nx, ((regionOf lab rg).inside ((lineGeo nx x g fr pic ds).cellCentroid c) = true ↔
        InSegment p0 p1 ((x c + x (c + 1)) / 2)) := fun c hc => by
      rw [← hin]
      show (regionOf lab rg).inside (((computeCellGeometry (lineMesh nx x g) c).map Prod.snd).getD (zero 0)) = true ↔ _
      rw [line_cell_centroid hg hc]
    exact ⟨fun ⟨a, b⟩ => ⟨e, a, rfl, (key e a).1 b⟩, fun ⟨p, a, e', b⟩ => e' ▸ ⟨a, (key p a).2 b⟩⟩
  · intro nm id q v lc h h1
    obtain ⟨t, hin⟩ := regionOf_plane1 h h1 lab
    refine setIs_of fits hr (by rw [t]; rfl) fun e => ?_
    simp [InRegion, t, lineGeo, geoOf, lineMesh]

/-- **C179, nodes.** The set of nodes of a box or a plane on a one-dimensional mesh, in any geometry: those at positions in the box or plane. -/
theorem line_node_sets (hl : ∀ r ∈ gm, r.type ≠ .LABELEDSET) (hr : findRegion gm n = some (regionOf lab rg)) (g : GeomType)
    {w : World} (hw : Fresh w .NODE (nx + 1)) (fr : Bool) (pic : Point → Nat → Bool) (ds : Point → Point → Rat) :
    (∀ nm id p0 p1 lc, mkBox nm id p0 p1 lc = .value rg → p0.d = 1 →
      SetIs (lineGeo nx x g fr pic ds) gm w n .NODE (· < nx + 1) (fun v => v) (fun v => InSegment p0 p1 (x v))) ∧
    (∀ nm id q v lc, mkPlane nm id q v lc = .value rg → q.d = 1 →
      SetIs (lineGeo nx x g fr pic ds) gm w n .NODE (· < nx + 1) (fun v => v) (fun k => AtPoint q v (x k))) := by
  have fits : Fits (lineGeo nx x g fr pic ds) gm w .NODE := hw.fits (fun k => (by cases k)) hl
  have cAll : (w.view .NODE).nAll = nx + 1 := by simp [MSet.MeshView.nAll, hw.counts.1, hw.counts.2]
  constructor
  · intro nm id p0 p1 lc h h1
    obtain ⟨t, hin⟩ := regionOf_box1 h h1 lab
    refine setIs_of fits hr (by rw [t]; rfl) fun e => ?_
    simp only [InRegion, t, cAll]
    exact ⟨fun ⟨a, b⟩ => ⟨e, a, rfl, (hin _).1 b⟩, fun ⟨p, a, e', b⟩ => e' ▸ ⟨a, (hin _).2 b⟩⟩
  · intro nm id q v lc h h1
    obtain ⟨t, hin⟩ := regionOf_plane1 h h1 lab
    refine setIs_of fits hr (by rw [t]; rfl) fun e => ?_
    simp only [InRegion, t, cAll]
    exact ⟨fun ⟨a, b⟩ => ⟨e, a, rfl, (hin _).1 b⟩, fun ⟨p, a, e', b⟩ => e' ▸ ⟨a, (hin _).2 b⟩⟩

/-- **C179, faces, in part.** The set of faces of a plane holds the faces whose node is at the plane. The set of faces of a box **does
not depend on where the faces are**: it holds all of them if the origin is in the box, and none otherwise. -/
theorem line_face_sets_partial (hl : ∀ r ∈ gm, r.type ≠ .LABELEDSET) (hr : findRegion gm n = some (regionOf lab rg)) {g : GeomType}
    {w : World} (hw : Fresh w .FACE (nx + 1)) (fr : Bool) (pic : Point → Nat → Bool) (ds : Point → Point → Rat) :
    (∀ nm id q v lc, mkPlane nm id q v lc = .value rg → q.d = 1 →
      SetIs (lineGeo nx x g fr pic ds) gm w n .FACE (· < nx + 1) (fun f => f) (fun f => AtPoint q v (x f))) ∧
    (∀ nm id p0 p1 lc, mkBox nm id p0 p1 lc = .value rg → p0.d = 1 → g = .CARTESIAN ∨ g = .SPHERICAL →
      SetIs (lineGeo nx x g fr pic ds) gm w n .FACE (· < nx + 1) (fun f => f) (fun _ => InSegment p0 p1 0)) := by
  have fits : Fits (lineGeo nx x g fr pic ds) gm w .FACE := hw.fits (fun k => (by cases k)) hl
  have cAll : (w.view .FACE).nAll = nx + 1 := by simp [MSet.MeshView.nAll, hw.counts.1, hw.counts.2]
  constructor
  · intro nm id q v lc h h1
    obtain ⟨t, hin⟩ := regionOf_plane1 h h1 lab
    refine setIs_of fits hr (by rw [t]; rfl) fun e => ?_
    simp only [InRegion, t, cAll]
    have key : ∀ f < nx + 1, ((∀ y ∈ (lineGeo nx x g fr pic ds).faceCoords f, (regionOf lab rg).inside y = true) ↔ AtPoint q v (x f)) := fun f hf => by
      rw [← hin]
      show (∀ y ∈ (lineMesh nx x g).faceCoords f, _) ↔ _
      rw [line_faceCoords hf]
      simp
    exact ⟨fun ⟨a, b⟩ => ⟨e, a, rfl, (key e a).1 b⟩, fun ⟨p, a, e', b⟩ => e' ▸ ⟨a, (key p a).2 b⟩⟩
  · intro nm id p0 p1 lc h h1 hg
    obtain ⟨t, hin⟩ := regionOf_box1 h h1 lab
    refine setIs_of fits hr (by rw [t]; rfl) fun e => ?_
    simp only [InRegion, t, cAll]
    have key : ∀ f < nx + 1, ((regionOf lab rg).inside ((lineGeo nx x g fr pic ds).faceCentroid f) = true ↔ InSegment p0 p1 0) := fun f hf => by
      rw [← hin]
      show (regionOf lab rg).inside (((computeFaceGeometry (lineMesh nx x g) f).map fun r => r.2.1).getD (zero 0)) = true ↔ _
      rw [line_face_geometry hg hf]
    exact ⟨fun ⟨a, b⟩ => ⟨e, a, rfl, (key e a).1 b⟩, fun ⟨p, a, e', b⟩ => e' ▸ ⟨a, (key p a).2 b⟩⟩

/-! ### nodes at 1, 2, 3, 4; the box from 2 to 3 -/

/-- the box from 2 to 3 -/
noncomputable def segment23 : AnyRegion := .box ⟨"B", 1, 1, .PERMANENT⟩ (mk1 2) (mk1 3)

theorem segment23_made : mkBox "B" 1 (mk1 2) (mk1 3) .PERMANENT = .value segment23 := by
  simp [mkBox, mk1, Point.coord, segment23]

theorem segment23_found : findRegion [regionOf ([], []) segment23] "B" = some (regionOf ([], []) segment23) := by
  simp [findRegion, regionOf, segment23, AnyRegion.name, AnyRegion.base]

theorem segment23_plain : ∀ r ∈ [regionOf ([], []) segment23], r.type ≠ .LABELEDSET := by simp [regionOf, segment23, AnyRegion.type]

/-- **C179 is false of the faces of boxes**: on the mesh with nodes at 1, 2, 3, 4 the box from 2 to 3 has cell 1 and the nodes 1 and 2,
but no face, though the faces 1 and 2 are at 2 and 3. -/
theorem line_box_faces_false (pic : Point → Nat → Bool) (ds : Point → Point → Rat) :
    (∃ (a : Nat) (w' : World) (s : MSet.Obj),
      Reg.build (lineGeo 3 (fun i => (i : ℝ) + 1) .CARTESIAN true pic ds) [regionOf ([], []) segment23] 0 (freshWorld 3) "B" .CELL true =
        .ok (some a, w') ∧ w'.heap[a]? = some s ∧ ∀ c, c ∈ MSet.entities s .ALL ↔ c = 1) ∧
    (∃ (a : Nat) (w' : World) (s : MSet.Obj),
      Reg.build (lineGeo 3 (fun i => (i : ℝ) + 1) .CARTESIAN true pic ds) [regionOf ([], []) segment23] 0 (freshWorld 4) "B" .NODE true =
        .ok (some a, w') ∧ w'.heap[a]? = some s ∧ ∀ c, c ∈ MSet.entities s .ALL ↔ c = 1 ∨ c = 2) ∧
    (∃ (a : Nat) (w' : World) (s : MSet.Obj),
      Reg.build (lineGeo 3 (fun i => (i : ℝ) + 1) .CARTESIAN true pic ds) [regionOf ([], []) segment23] 0 (freshWorld 4) "B" .FACE true =
        .ok (some a, w') ∧ w'.heap[a]? = some s ∧ MSet.entities s .ALL = []) := by
  have good : GoodLine 3 (fun i => (i : ℝ) + 1) .CARTESIAN := ⟨fun i _ => by push_cast; linarith, .inl rfl⟩
  have small : ∀ c : Nat, c < 4 → c = 0 ∨ c = 1 ∨ c = 2 ∨ c = 3 := fun c h => by omega
  refine ⟨?_, ?_, ?_⟩
  · obtain ⟨a, w', s, e1, e2, -, -, -, e3⟩ := (line_cell_sets segment23_plain segment23_found (fresh_freshWorld 3 .CELL) true pic ds).1
      _ _ _ _ _ segment23_made rfl good 0 true
    refine ⟨a, w', s, e1, e2, fun c => (e3 c).trans ⟨?_, ?_⟩⟩
    · rintro ⟨p, hp, rfl, k⟩
      rcases small p (by omega) with rfl | rfl | rfl | rfl
      · exfalso; norm_num [InSegment, mk1] at k
      · rfl
      · exfalso; norm_num [InSegment, mk1] at k
      · exfalso; exact absurd hp (by decide)
    · rintro rfl
      exact ⟨1, by decide, rfl, by norm_num [InSegment, mk1]⟩
  · obtain ⟨a, w', s, e1, e2, -, -, -, e3⟩ := (line_node_sets (x := fun i => (i : ℝ) + 1) segment23_plain segment23_found .CARTESIAN
      (fresh_freshWorld 4 .NODE) true pic ds).1 _ _ _ _ _ segment23_made rfl 0 true
    refine ⟨a, w', s, e1, e2, fun c => (e3 c).trans ⟨?_, ?_⟩⟩
    · rintro ⟨p, hp, rfl, k⟩
      rcases small p (by omega) with rfl | rfl | rfl | rfl
      · exfalso; norm_num [InSegment, mk1] at k
      · exact .inl rfl
      · exact .inr rfl
      · exfalso; norm_num [InSegment, mk1] at k
    · rintro (rfl | rfl)
      · exact ⟨1, by decide, rfl, by norm_num [InSegment, mk1]⟩
      · exact ⟨2, by decide, rfl, by norm_num [InSegment, mk1]⟩
  · obtain ⟨a, w', s, e1, e2, -, -, -, e3⟩ := (line_face_sets_partial (x := fun i => (i : ℝ) + 1) segment23_plain segment23_found
      (fresh_freshWorld 4 .FACE) true pic ds).2 _ _ _ _ _ segment23_made rfl (.inl rfl) 0 true
    refine ⟨a, w', s, e1, e2, List.eq_nil_iff_forall_not_mem.2 fun c hc => ?_⟩
    obtain ⟨-, -, -, k⟩ := (e3 c).1 hc
    norm_num [InSegment, mk1] at k

end Jali.SimpleGeom
