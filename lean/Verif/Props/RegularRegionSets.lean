import Verif.Props.SameRegionSets
import Verif.Props.Regions
/-! C169: which cells, faces and nodes of a regular mesh the set of a box or a plane holds. -/
namespace Jali.MstkGen
open Spec Jali.Mstk Jali.Geom Jali.Geom.Point Jali.MeshGeom Jali.MeshGeom.Spec Jali.Reg

variable {dd : Simple.Dims} {bx : Simple.Box} {s : Source ℝ} {g : RegMesh ℝ} {r : MeshCache.Request}

/-- the point is in the box with two opposite corners `p0`, `p1`, up to 1e-8 -/
def InBox (p0 p1 : Point) (x y z : ℝ) : Prop :=
  (min p0.x p1.x - 1 / 10 ^ 8 ≤ x ∧ x ≤ max p0.x p1.x + 1 / 10 ^ 8) ∧ (min p0.y p1.y - 1 / 10 ^ 8 ≤ y ∧ y ≤ max p0.y p1.y + 1 / 10 ^ 8) ∧
  (min p0.z p1.z - 1 / 10 ^ 8 ≤ z ∧ z ≤ max p0.z p1.z + 1 / 10 ^ 8)

/-- the point is on the plane through `q` with normal `n`, up to 1e-12 -/
def OnPlane (q n : Point) (x y z : ℝ) : Prop := |n.x * (x - q.x) + n.y * (y - q.y) + n.z * (z - q.z)| ≤ 1 / 10 ^ 12

theorem regionOf_box {nm : String} {id : Nat} {p0 p1 : Point} {lc : LifeCycle} {rg : AnyRegion} (h : mkBox nm id p0 p1 lc = .value rg)
    (h3 : p0.d = 3) (lab : List Nat × List Nat) : (regionOf lab rg).type = .BOX ∧
      ∀ p : Point, p.d = 3 → ((regionOf lab rg).inside p = true ↔ InBox p0 p1 p.x p.y p.z) := by
  constructor
  · unfold mkBox at h
    split at h
    · cases h
    · simp only [Res.value.injEq] at h; subst h; rfl
  · intro p hp
    obtain ⟨b, hb, e⟩ := (box_region_inside nm id p0 p1 lc rg h p).2 (hp.trans h3.symm)
    simp only [regionOf, hb, e, hp]
    constructor
    · intro k; exact ⟨k 0 (by omega), k 1 (by omega), k 2 (by omega)⟩
    · rintro ⟨k0, k1, k2⟩ i hi
      obtain rfl | rfl | rfl : i = 0 ∨ i = 1 ∨ i = 2 := by omega
      exacts [k0, k1, k2]

theorem regionOf_plane {nm : String} {id : Nat} {q n : Point} {lc : LifeCycle} {rg : AnyRegion} (h : mkPlane nm id q n lc = .value rg)
    (h3 : q.d = 3) (lab : List Nat × List Nat) : (regionOf lab rg).type = .PLANE ∧
      ∀ p : Point, p.d = 3 → ((regionOf lab rg).inside p = true ↔ OnPlane q n p.x p.y p.z) := by
  constructor
  · unfold mkPlane at h
    split at h
    · cases h
    · simp only [Res.value.injEq] at h; subst h; rfl
  · intro p hp
    obtain ⟨b, hb, e⟩ := (plane_inside nm id q n lc rg h p).2 (hp.trans h3.symm)
    simp only [regionOf, hb, e, hp]
    simp [OnPlane, List.range_succ, Point.coord, add_assoc]

/-- The set of the region named `n` can be built; it holds, once each, exactly the entities numbered by `number` at the positions that
satisfy `good`. -/
def SetIs {α : Type} (ge : Geo Point) (gm : List (Reg.Region Point)) (w : World) (n : String) (kind : EntityKind) (there : α → Prop)
    (number : α → Nat) (good : α → Prop) : Prop :=
  ∀ (d : Nat) (b : Bool), ∃ a w' x, Reg.build ge gm d w n kind b = .ok (some a, w') ∧ w'.heap[a]? = some x ∧ x.name = n ∧ a ∈ w'.reg ∧
    (MSet.entities x .ALL).Nodup ∧ ∀ e, e ∈ MSet.entities x .ALL ↔ ∃ p, there p ∧ number p = e ∧ good p

theorem setIs_of {α : Type} {ge : Geo Point} {gm : List (Reg.Region Point)} {w : World} {n : String} {kind : EntityKind} {there : α → Prop}
    {number : α → Nat} {good : α → Prop} {rg : Reg.Region Point} (hf : Fits ge gm w kind) (hr : findRegion gm n = some rg)
    (hp : Positional kind rg.type = true) (h : ∀ e, InRegion ge w kind rg e ↔ ∃ p, there p ∧ number p = e ∧ good p) :
    SetIs ge gm w n kind there number good := by
  intro d b
  obtain ⟨w', x, h1, h2, h3, h4, -, h5, h6, -⟩ := region_set_exact hf n hr hp d b
  exact ⟨_, w', x, h1, by rw [h2]; simp, h4, by rw [h3]; simp, h6, fun e => (h5 e).trans (h e)⟩

/-- number of the node at a position in the numbering of MSTK -/
def mstkNode (dd : Simple.Dims) (p : Simple.Spec.Pos) : Nat := (p.i * (dd.ny + 1) + p.j) * (dd.nz + 1) + p.k
/-- number of the cell at a position in the numbering of MSTK -/
def mstkCell (dd : Simple.Dims) (p : Simple.Spec.Pos) : Nat := (p.i * dd.ny + p.j) * dd.nz + p.k

/-- middle between the lattice planes `i` and `i + 1` -/
noncomputable def mid (lo hi : ℝ) (n i : Nat) : ℝ := lo + (i + 1 / 2) * ((hi - lo) / n)
/-- lattice plane `i` -/
noncomputable def line (lo hi : ℝ) (n i : Nat) : ℝ := lo + i * ((hi - lo) / n)

theorem simple_in_box_cells (hp : SimpleGeom.Proper dd bx) {w : World} (hw : Fresh w .CELL (Simple.numCells dd)) {ge : Geo Point}
    (hg : ∀ c, ge.cellCentroid c = ((computeCellGeometry (SimpleGeom.simpleMesh dd bx) c).map Prod.snd).getD (Point.zero 0))
    {rg : Reg.Region Point} {p0 p1 : Point} (ht : rg.type = .BOX) (hin : ∀ p : Point, p.d = 3 → (rg.inside p = true ↔ InBox p0 p1 p.x p.y p.z))
    (e : Nat) : InRegion ge w .CELL rg e ↔ ∃ p, Simple.CellIn dd p ∧ Simple.cellIdx dd p = e ∧
      InBox p0 p1 (mid bx.x0 bx.x1 dd.nx p.i) (mid bx.y0 bx.y1 dd.ny p.j) (mid bx.z0 bx.z1 dd.nz p.k) := by
  simp only [InRegion, ht, MSet.MeshView.nAll, hw.counts.1, hw.counts.2, Nat.add_zero]
  have key : ∀ p, Simple.CellIn dd p → (rg.inside (ge.cellCentroid (Simple.cellIdx dd p)) = true ↔
      InBox p0 p1 (mid bx.x0 bx.x1 dd.nx p.i) (mid bx.y0 bx.y1 dd.ny p.j) (mid bx.z0 bx.z1 dd.nz p.k)) := by
    intro p hq
    rw [hg, SimpleGeom.simple_cell_geometry hp hq]
    exact hin _ rfl
  constructor
  · rintro ⟨h1, h2⟩
    obtain ⟨p, hq, rfl⟩ := Simple.cellIdx_surj dd h1
    exact ⟨p, hq, rfl, (key p hq).1 h2⟩
  · rintro ⟨p, hq, rfl, h2⟩
    exact ⟨Simple.cellIdx_lt dd hq, (key p hq).2 h2⟩

theorem simple_node_at {p : Simple.Spec.Pos} (hq : Simple.NodeIn dd p) : (SimpleGeom.simpleMesh dd bx).nodeCoord (Simple.nodeIdx dd p) =
    mk3 (line bx.x0 bx.x1 dd.nx p.i) (line bx.y0 bx.y1 dd.ny p.j) (line bx.z0 bx.z1 dd.nz p.k) := by
  have := SimpleGeom.nodes_points dd bx [p] (by simp [hq])
  simp only [List.map_cons, List.map_nil, List.cons.injEq, and_true] at this
  exact this

/-- **C169** The cells of the set of a box region on a structured mesh: those whose centre is in the box. -/
theorem structured_box_cells (hp : SimpleGeom.Proper dd bx) {nm : String} {id : Nat} {p0 p1 : Point} {lc : LifeCycle} {rg : AnyRegion}
    (h : mkBox nm id p0 p1 lc = .value rg) (h3 : p0.d = 3) {lab : List Nat × List Nat} {gm : List (Reg.Region Point)} {n : String}
    (hr : findRegion gm n = some (regionOf lab rg)) (hl : ∀ r ∈ gm, r.type ≠ .LABELEDSET) {w : World}
    (hw : Fresh w .CELL (Simple.numCells dd)) {fr : Bool} {nc : Nat → List Nat} {pic : Point → Nat → Bool} {ds : Point → Point → Rat}
    (hnc : ∀ v, (nc v).Nodup ∧ ∀ c ∈ nc v, c < Simple.numCells dd) :
    SetIs (geoOf (SimpleGeom.simpleMesh dd bx) fr nc pic ds) gm w n .CELL (Simple.CellIn dd) (Simple.cellIdx dd)
      (fun p => InBox p0 p1 (mid bx.x0 bx.x1 dd.nx p.i) (mid bx.y0 bx.y1 dd.ny p.j) (mid bx.z0 bx.z1 dd.nz p.k)) := by
  obtain ⟨t, hin⟩ := regionOf_box h h3 lab
  exact setIs_of (hw.fits (fun _ => hnc) hl) hr (by rw [t]; rfl) (simple_in_box_cells hp hw (fun _ => rfl) t hin)

/-- **C169** The nodes of the set of a box or plane region on a structured mesh: those in the box or on the plane. -/
theorem structured_nodes {lab : List Nat × List Nat} {gm : List (Reg.Region Point)} {n : String} (hl : ∀ r ∈ gm, r.type ≠ .LABELEDSET)
    {rg : AnyRegion} {good : ℝ → ℝ → ℝ → Prop}
    (h : (∃ nm id p0 p1 lc, mkBox nm id p0 p1 lc = .value rg ∧ p0.d = 3 ∧ good = InBox p0 p1) ∨
      (∃ nm id q v lc, mkPlane nm id q v lc = .value rg ∧ q.d = 3 ∧ good = OnPlane q v))
    (hr : findRegion gm n = some (regionOf lab rg)) {w : World} (hw : Fresh w .NODE (Simple.numNodes dd)) {fr : Bool} {nc : Nat → List Nat}
    {pic : Point → Nat → Bool} {ds : Point → Point → Rat} :
    SetIs (geoOf (SimpleGeom.simpleMesh dd bx) fr nc pic ds) gm w n .NODE (Simple.NodeIn dd) (Simple.nodeIdx dd)
      (fun p => good (line bx.x0 bx.x1 dd.nx p.i) (line bx.y0 bx.y1 dd.ny p.j) (line bx.z0 bx.z1 dd.nz p.k)) := by
  have hin : ((regionOf lab rg).type = .BOX ∨ (regionOf lab rg).type = .PLANE) ∧
      ∀ p : Point, p.d = 3 → ((regionOf lab rg).inside p = true ↔ good p.x p.y p.z) := by
    rcases h with ⟨nm, id, p0, p1, lc, h1, h2, rfl⟩ | ⟨nm, id, q, v, lc, h1, h2, rfl⟩
    · obtain ⟨t, k⟩ := regionOf_box h1 h2 lab; exact ⟨.inl t, k⟩
    · obtain ⟨t, k⟩ := regionOf_plane h1 h2 lab; exact ⟨.inr t, k⟩
  refine setIs_of (hw.fits (fun k => (by cases k)) hl) hr (by rcases hin.1 with t | t <;> rw [t] <;> rfl) fun e => ?_
  have key : ∀ p, Simple.NodeIn dd p → ((regionOf lab rg).inside ((SimpleGeom.simpleMesh dd bx).nodeCoord (Simple.nodeIdx dd p)) = true ↔
      good (line bx.x0 bx.x1 dd.nx p.i) (line bx.y0 bx.y1 dd.ny p.j) (line bx.z0 bx.z1 dd.nz p.k)) := by
    intro p hq
    rw [simple_node_at hq]
    exact hin.2 _ rfl
  have e0 : InRegion (geoOf (SimpleGeom.simpleMesh dd bx) fr nc pic ds) w .NODE (regionOf lab rg) e ↔
      e < Simple.numNodes dd ∧ (regionOf lab rg).inside ((SimpleGeom.simpleMesh dd bx).nodeCoord e) = true := by
    rcases hin.1 with t | t <;> simp only [InRegion, t, MSet.MeshView.nAll, hw.counts.1, hw.counts.2, Nat.add_zero, geoOf]
  rw [e0]
  constructor
  · rintro ⟨h1, h2⟩
    obtain ⟨p, hq, rfl⟩ := Simple.nodeIdx_surj dd h1
    exact ⟨p, hq, rfl, (key p hq).1 h2⟩
  · rintro ⟨p, hq, rfl, h2⟩
    exact ⟨Simple.nodeIdx_lt dd hq, (key p hq).2 h2⟩

/-- **C169** The faces of the set of a plane region on a structured mesh: those with all corners on the plane. -/
theorem structured_plane_faces {nm : String} {id : Nat} {q v : Point} {lc : LifeCycle} {rg : AnyRegion}
    (h : mkPlane nm id q v lc = .value rg) (h3 : q.d = 3) {lab : List Nat × List Nat} {gm : List (Reg.Region Point)} {n : String}
    (hr : findRegion gm n = some (regionOf lab rg)) (hl : ∀ r ∈ gm, r.type ≠ .LABELEDSET) {w : World}
    (hw : Fresh w .FACE (Simple.numFaces dd)) {fr : Bool} {nc : Nat → List Nat} {pic : Point → Nat → Bool} {ds : Point → Point → Rat} :
    SetIs (geoOf (SimpleGeom.simpleMesh dd bx) fr nc pic ds) gm w n .FACE (Simple.FaceIn dd) (Simple.faceIdx dd)
      (fun f => ∀ p ∈ Simple.faceCorners f, OnPlane q v (line bx.x0 bx.x1 dd.nx p.i) (line bx.y0 bx.y1 dd.ny p.j) (line bx.z0 bx.z1 dd.nz p.k)) := by
  obtain ⟨t, hin⟩ := regionOf_plane h h3 lab
  refine setIs_of (hw.fits (fun k => (by cases k)) hl) hr (by rw [t]; rfl) fun e => ?_
  simp only [InRegion, t, MSet.MeshView.nAll, hw.counts.1, hw.counts.2, Nat.add_zero, geoOf]
  have key : ∀ f, Simple.FaceIn dd f → ((∀ x ∈ (SimpleGeom.simpleMesh dd bx).faceCoords (Simple.faceIdx dd f), (regionOf lab rg).inside x = true) ↔
      ∀ p ∈ Simple.faceCorners f, OnPlane q v (line bx.x0 bx.x1 dd.nx p.i) (line bx.y0 bx.y1 dd.ny p.j) (line bx.z0 bx.z1 dd.nz p.k)) := by
    intro f hf
    rw [SimpleGeom.faceCoords_eq dd bx hf]
    simp only [List.forall_mem_map]
    exact forall₂_congr fun p _ => hin _ rfl
  constructor
  · rintro ⟨h1, h2⟩
    obtain ⟨f, hf, rfl⟩ := Simple.faceIdx_surj dd h1
    exact ⟨f, hf, rfl, (key f hf).1 h2⟩
  · rintro ⟨f, hf, rfl, h2⟩
    exact ⟨Simple.faceIdx_lt dd hf, (key f hf).2 h2⟩

/-- **C169** The same for the regular mesh of MSTK on one rank, with its numbers of cells and nodes. -/
theorem regular_region_sets (hp : SimpleGeom.Proper dd bx) (hm : RegularMesh s (domOf dd bx) (wholeBlk dd) g r)
    {gm : List (Reg.Region Point)} (hl : ∀ r ∈ gm, r.type ≠ .LABELEDSET) {fr : Bool} {nc : Nat → List Nat} {pic : Point → Nat → Bool}
    {ds : Point → Point → Rat} (hnc : ∀ v, (nc v).Nodup ∧ ∀ c ∈ nc v, c < Simple.numCells dd) :
    (∀ nm id p0 p1 lc rg lab n w, mkBox nm id p0 p1 lc = .value rg → p0.d = 3 → findRegion gm n = some (regionOf lab rg) →
      Fresh w .CELL (Simple.numCells dd) →
      SetIs (geoOf s.gmesh fr nc pic ds) gm w n .CELL (Simple.CellIn dd) (mstkCell dd)
        (fun p => InBox p0 p1 (mid bx.x0 bx.x1 dd.nx p.i) (mid bx.y0 bx.y1 dd.ny p.j) (mid bx.z0 bx.z1 dd.nz p.k))) ∧
    (∀ nm id p0 p1 lc rg lab n w, mkBox nm id p0 p1 lc = .value rg → p0.d = 3 → findRegion gm n = some (regionOf lab rg) →
      Fresh w .NODE (Simple.numNodes dd) →
      SetIs (geoOf s.gmesh fr nc pic ds) gm w n .NODE (Simple.NodeIn dd) (mstkNode dd)
        (fun p => InBox p0 p1 (line bx.x0 bx.x1 dd.nx p.i) (line bx.y0 bx.y1 dd.ny p.j) (line bx.z0 bx.z1 dd.nz p.k))) ∧
    (∀ nm id q v lc rg lab n w, mkPlane nm id q v lc = .value rg → q.d = 3 → findRegion gm n = some (regionOf lab rg) →
      Fresh w .NODE (Simple.numNodes dd) →
      SetIs (geoOf s.gmesh fr nc pic ds) gm w n .NODE (Simple.NodeIn dd) (mstkNode dd)
        (fun p => OnPlane q v (line bx.x0 bx.x1 dd.nx p.i) (line bx.y0 bx.y1 dd.ny p.j) (line bx.z0 bx.z1 dd.nz p.k))) := by
  obtain ⟨cell, face, node, n1, n2, n3, ha, hc, hn⟩ := frameworks_alike hp hm
  obtain ⟨ac, -, an⟩ := ha fr fr nc nc pic pic ds ds
  have cnum : ∀ p, Simple.CellIn dd p → mstkCell dd p < Simple.numCells dd ∧ cell (mstkCell dd p) = Simple.cellIdx dd p := by
    rintro ⟨i, j, k⟩ ⟨h1, h2, h3⟩
    refine ⟨?_, ?_⟩
    · show (i * dd.ny + j) * dd.nz + k < dd.nx * dd.ny * dd.nz
      have a1 : i * dd.ny + j + 1 ≤ dd.nx * dd.ny := by
        have : (i + 1) * dd.ny ≤ dd.nx * dd.ny := Nat.mul_le_mul_right _ h1
        have h2' : j < dd.ny := h2
        nlinarith
      have a2 : (i * dd.ny + j + 1) * dd.nz ≤ dd.nx * dd.ny * dd.nz := Nat.mul_le_mul_right _ a1
      have h3' : k < dd.nz := h3
      nlinarith
    · have := hc i j k h1 h2 h3
      rw [show mstkCell dd ⟨i, j, k⟩ = (i * dd.ny + j) * dd.nz + k from rfl, this]
      simp only [Simple.cellIdx, Simple.cellIndex]; ring
  have nnum : ∀ p, Simple.NodeIn dd p → mstkNode dd p < Simple.numNodes dd ∧ node (mstkNode dd p) = Simple.nodeIdx dd p := by
    rintro ⟨i, j, k⟩ ⟨h1, h2, h3⟩
    refine ⟨?_, ?_⟩
    · show (i * (dd.ny + 1) + j) * (dd.nz + 1) + k < (dd.nx + 1) * (dd.ny + 1) * (dd.nz + 1)
      have a1 : i * (dd.ny + 1) + j + 1 ≤ (dd.nx + 1) * (dd.ny + 1) := by
        have : (i + 1) * (dd.ny + 1) ≤ (dd.nx + 1) * (dd.ny + 1) := Nat.mul_le_mul_right _ h1
        have h2' : j < dd.ny + 1 := h2
        nlinarith
      have a2 : (i * (dd.ny + 1) + j + 1) * (dd.nz + 1) ≤ (dd.nx + 1) * (dd.ny + 1) * (dd.nz + 1) := Nat.mul_le_mul_right _ a1
      have h3' : k < dd.nz + 1 := h3
      nlinarith
    · have := hn i j k h1 h2 h3
      rw [show mstkNode dd ⟨i, j, k⟩ = (i * (dd.ny + 1) + j) * (dd.nz + 1) + k from rfl, this]
      simp only [Simple.nodeIdx, Simple.nodeIndex]; ring
  -- back from one set to the other
  have back : ∀ {α : Type} {kind : EntityKind} {N : Nat} {ren : Nat → Nat} {w : World} {n : String} {there : α → Prop} {number number' : α → Nat}
      {good : α → Prop} {rg : Reg.Region Point} (_ : Alike (geoOf s.gmesh fr nc pic ds) (geoOf (SimpleGeom.simpleMesh dd bx) fr nc pic ds) kind N ren)
      (_ : Fresh w kind N) (_ : kind = .CELL → N = Simple.numCells dd) (_ : findRegion gm n = some rg) (_ : Positional kind rg.type = true)
      (_ : ∀ p, there p → number' p < N ∧ ren (number' p) = number p)
      (_ : SetIs (geoOf (SimpleGeom.simpleMesh dd bx) fr nc pic ds) gm w n kind there number good),
      SetIs (geoOf s.gmesh fr nc pic ds) gm w n kind there number' good := by
    intro α kind N ren w n there number number' good rg al hw hN hr ht hnum hS
    have hnN : (w.view kind).nAll = N := by simp only [MSet.MeshView.nAll, hw.counts.1, hw.counts.2, Nat.add_zero]
    refine setIs_of (hw.fits (fun k => hN k ▸ hnc) hl) hr ht fun e => ?_
    have hin' : ∀ e, InRegion (geoOf (SimpleGeom.simpleMesh dd bx) fr nc pic ds) w kind rg e ↔ ∃ p, there p ∧ number p = e ∧ good p := by
      intro e
      obtain ⟨a, w', x, h1, h2, -, -, -, h4⟩ := hS 0 true
      obtain ⟨w2, x', k1, k2, -, -, -, k3, -⟩ := region_set_exact (g := geoOf (SimpleGeom.simpleMesh dd bx) fr nc pic ds)
        (hw.fits (fun k => hN k ▸ hnc) hl) n hr ht 0 true
      rw [h1] at k1
      cases k1
      rw [k2] at h2
      simp only [List.length_append, List.length_cons, List.length_nil, List.getElem?_append_right, Nat.le_refl, Nat.sub_self,
        List.getElem?_cons_zero, Option.some.injEq] at h2
      subst h2
      rw [← k3, h4]
    constructor
    · intro h1
      have he : e < N := hnN ▸ h1.1
      obtain ⟨p, hp1, hp2, hp3⟩ := (hin' _).1 ((inRegion_alike al hnN hnN rg he).1 h1)
      obtain ⟨m1, m2⟩ := hnum p hp1
      exact ⟨p, hp1, al.renumbers.inj _ m1 _ he (m2.trans hp2), hp3⟩
    · rintro ⟨p, hp1, rfl, hp3⟩
      obtain ⟨m1, m2⟩ := hnum p hp1
      refine (inRegion_alike al hnN hnN rg m1).2 ?_
      rw [m2]
      exact (hin' _).2 ⟨p, hp1, rfl, hp3⟩
  refine ⟨?_, ?_, ?_⟩
  · intro nm id p0 p1 lc rg lab n w h1 h2 h3 hw
    exact back ac hw (fun _ => rfl) h3 (by rw [(regionOf_box h1 h2 lab).1]; rfl) cnum (structured_box_cells hp h1 h2 h3 hl hw hnc)
  · intro nm id p0 p1 lc rg lab n w h1 h2 h3 hw
    exact back an hw (fun k => (by cases k)) h3 (by rw [(regionOf_box h1 h2 lab).1]; rfl) nnum
      (structured_nodes hl (.inl ⟨nm, id, p0, p1, lc, h1, h2, rfl⟩) h3 hw)
  · intro nm id q v lc rg lab n w h1 h2 h3 hw
    exact back an hw (fun k => (by cases k)) h3 (by rw [(regionOf_plane h1 h2 lab).1]; rfl) nnum
      (structured_nodes hl (.inr ⟨nm, id, q, v, lc, h1, h2, rfl⟩) h3 hw)

/-- the box (0,0,2) - (1,3,3) -/
noncomputable def exBoxRegion : AnyRegion := .box ⟨"A", 1, 3, .PERMANENT⟩ (mk3 0 0 2) (mk3 1 3 3)

/-- the mesh of 2 x 3 x 4 cells of the box (-1,0,2) - (1,9,4): cell 1 = (1, 0, 0) is in the set, cell 0 is not -/
example : ∃ a w' x, Reg.build (geoOf (SimpleGeom.simpleMesh ⟨2, 3, 4⟩ ⟨-1, 0, 2, 1, 9, 4⟩) true (fun _ => []) (fun _ _ => false) (fun _ _ => (0 : Rat)))
    [regionOf ([], []) exBoxRegion] 0 (freshWorld 24) "A" .CELL true = .ok (some a, w') ∧ w'.heap[a]? = some x ∧
    1 ∈ MSet.entities x .ALL ∧ 0 ∉ MSet.entities x .ALL := by
  have hp : SimpleGeom.Proper ⟨2, 3, 4⟩ ⟨-1, 0, 2, 1, 9, 4⟩ := by constructor <;> norm_num
  have hm : mkBox "A" 1 (mk3 0 0 2) (mk3 1 3 3) .PERMANENT = .value exBoxRegion := by
    simp [mkBox, mk3, Point.coord, List.range_succ, exBoxRegion]
  obtain ⟨a, w', x, h1, h2, -, -, -, h3⟩ := structured_box_cells hp hm rfl (lab := ([], [])) (gm := [regionOf ([], []) exBoxRegion]) (n := "A")
    (by simp [findRegion, regionOf, exBoxRegion, AnyRegion.name, AnyRegion.base]) (by simp [regionOf, exBoxRegion, AnyRegion.type])
    (fresh_freshWorld 24 .CELL) (fr := true) (nc := fun _ => []) (pic := fun _ _ => false) (ds := fun _ _ => 0) (by simp) 0 true
  refine ⟨a, w', x, h1, h2, (h3 1).2 ⟨⟨1, 0, 0⟩, ⟨by simp, by simp, by simp⟩, rfl, ?_⟩, fun h => ?_⟩
  · norm_num [InBox, mid, mk3]
  · obtain ⟨⟨i, j, k⟩, ⟨q1, q2, q3⟩, e, k1, -⟩ := (h3 0).1 h
    simp only [Simple.cellIdx, Simple.cellIndex] at e
    have : i = 0 := by omega
    subst this
    norm_num [mid, mk3] at k1

end Jali.MstkGen
