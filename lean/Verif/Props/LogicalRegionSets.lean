import Verif.Spec.LogicalSets
import Verif.Props.RegularRegionSets2
/-! C183: which cells and nodes of a regular mesh the set of a logical region holds. -/
namespace Jali.Reg
open Jali.MSet

variable {P K : Type} [Field K] [LinearOrder K]

theorem pointIn_prim {gm : List (Region P)} {d : Nat} {n : String} {r : Region P} (h : findRegion gm n = some r) (ht : r.type ≠ .LOGICAL) (p : P) :
    PointIn gm d n p ↔ r.inside p = true := by
  rw [PointIn]
  simp only [h, if_neg ht]

/-- where membership of an entity is the membership of a point, this is so for logical regions too -/
theorem member_pointIn {g : Geo P K} {gm : List (Region P)} {w : World} {kind : EntityKind} {e : Nat} {p : P} (he : e < (w.view kind).nAll)
    (h : ∀ n r, findRegion gm n = some r → r.type ≠ .LOGICAL → (InRegion g w kind r e ↔ r.inside p = true)) :
    ∀ (d : Nat) (n : String), member g gm w kind d n e ↔ PointIn gm d n p := by
  intro d
  induction d with
  | zero =>
    intro n
    rw [member, PointIn]
    cases hr : findRegion gm n with
    | none => rfl
    | some r =>
      simp only
      split
      · rfl
      · next ht => exact h n r hr ht
  | succ d ih =>
    intro n
    rw [member, PointIn]
    cases hr : findRegion gm n with
    | none => rfl
    | some r =>
      simp only
      split
      · cases hop : r.op <;> simp only
        · rw [and_iff_right he]; exact forall₂_congr fun c _ => not_congr (ih c)
        · exact exists_congr fun c => and_congr_right fun _ => ih c
        · exact forall₂_congr fun c _ => ih c
        · cases r.comps with
          | nil => rfl
          | cons c cs => exact and_congr (ih c) (forall₂_congr fun c' _ => not_congr (ih c'))
      · next ht => exact h n r hr ht

end Jali.Reg

namespace Jali.MstkGen
open Spec Jali.Mstk Jali.Geom Jali.Geom.Point Jali.MeshGeom Jali.MeshGeom.Spec Jali.Reg

/-- The set of the region named `n` can be built; it has the name, and holds, once each, exactly the entities numbered by `number` at the
positions that satisfy `good`; sets made before are kept. -/
def LogicalSetIs {α : Type} (ge : Geo Point) (gm : List (Reg.Region Point)) (d : Nat) (w : World) (n : String) (kind : EntityKind) (there : α → Prop)
    (number : α → Nat) (good : α → Prop) : Prop :=
  ∀ b : Bool, ∃ a w' x, Reg.build ge gm d w n kind b = .ok (some a, w') ∧ w'.heap[a]? = some x ∧ x.name = n ∧ x.kind = kind ∧
    (MSet.entities x .ALL).Nodup ∧ ∀ e, e ∈ MSet.entities x .ALL ↔ ∃ p, there p ∧ number p = e ∧ good p

/-- A geometric model whose logical regions are not nested in a circle (`Placed`), with no union of a single component and no difference that names
its first component again, and whose other regions are among `types`. -/
structure GoodModel (gm : List (Reg.Region Point)) (kind : EntityKind) (d : Nat) (types : RegionType → Prop) : Prop where
  placed : ∀ n r, findRegion gm n = some r → Reg.Placed gm kind d n
  plain : ∀ r ∈ gm, r.type = .LOGICAL ∨ types r.type
  unlabeled : ¬ types .LABELEDSET
  union : ∀ r ∈ gm, r.type = .LOGICAL → r.op = .UNION → r.comps.length ≠ 1
  diff : ∀ r ∈ gm, ∀ c cs, r.type = .LOGICAL → r.op = .SUBTRACT → r.comps = c :: cs → c ∉ cs

/-- logical regions on a mesh on one rank where entities are at points -/
theorem logicalSet_of {α : Type} {ge : Geo Point} {gm : List (Reg.Region Point)} {kind : EntityKind} {N d : Nat} {types : RegionType → Prop}
    {there : α → Prop} {number : α → Nat} {pos : α → Point} {w : World} (hg : GoodModel gm kind d types) (hw : Fresh w kind N)
    (hnc : kind = .CELL → ∀ v, (ge.nodeCells v).Nodup ∧ ∀ c ∈ ge.nodeCells v, c < N)
    (hlt : ∀ p, there p → number p < N) (hsurj : ∀ e < N, ∃ p, there p ∧ number p = e)
    (hin : ∀ r ∈ gm, types r.type → ∀ p, there p → (InRegion ge w kind r (number p) ↔ r.inside (pos p) = true))
    {n : String} {r : Reg.Region Point} (hr : findRegion gm n = some r) :
    LogicalSetIs ge gm d w n kind there number (fun p => PointIn gm d n (pos p)) := by
  have hN : (w.view kind).nAll = N := by simp only [MSet.MeshView.nAll, hw.counts.1, hw.counts.2, Nat.add_zero]
  have hl : ∀ r ∈ gm, r.type ≠ .LABELEDSET := by
    intro r hr ht
    rcases hg.plain r hr with h | h
    · rw [ht] at h; cases h
    · rw [ht] at h; exact hg.unlabeled h
  have hf : Fits ge gm w kind := hw.fits hnc hl
  have hs : Sane gm w kind := ⟨hg.union, hg.diff, fun _ _ _ _ => hw.counts.2⟩
  intro b
  obtain ⟨a, w', x, _, e1, e2, e3, e4, e5, e6, -⟩ := region_set_partial hf hs (member_meaning hf d hg.placed) (inOrder_fresh hw.heap hw.reg) d n
    (placed_ready hf (hg.placed n r hr)) b
  have key : ∀ p, there p → (member ge gm w kind d n (number p) ↔ PointIn gm d n (pos p)) := fun p hp =>
    member_pointIn (hN ▸ hlt p hp) (fun m q hq ht => hin q (findRegion_mem hq).1 ((hg.plain q (findRegion_mem hq).1).resolve_left ht) p hp) d n
  refine ⟨a, w', x, e1, e2, e3, e4, e6, fun e => (e5 e).trans ⟨fun h => ?_, ?_⟩⟩
  · obtain ⟨p, hp, rfl⟩ := hsurj e (hN ▸ member_lt (hg.placed n r hr) e h)
    exact ⟨p, hp, rfl, (key p hp).1 h⟩
  · rintro ⟨p, hp, rfl, h⟩
    exact (key p hp).2 h

variable {dd : Simple.Dims} {bx : Simple.Box}

/-- boxes only -/
def Boxes (t : RegionType) : Prop := t = .BOX
/-- boxes, planes and polygons -/
def Shapes (t : RegionType) : Prop := t = .BOX ∨ t = .PLANE ∨ t = .POLYGON

/-- centre of a cell of the grid -/
noncomputable def centre (dd : Simple.Dims) (bx : Simple.Box) (p : Simple.Spec.Pos) : Point :=
  mk3 (mid bx.x0 bx.x1 dd.nx p.i) (mid bx.y0 bx.y1 dd.ny p.j) (mid bx.z0 bx.z1 dd.nz p.k)
/-- node of the grid -/
noncomputable def corner (dd : Simple.Dims) (bx : Simple.Box) (p : Simple.Spec.Pos) : Point :=
  mk3 (line bx.x0 bx.x1 dd.nx p.i) (line bx.y0 bx.y1 dd.ny p.j) (line bx.z0 bx.z1 dd.nz p.k)

/-- **C183** Logical regions of boxes on a structured mesh: the set of cells holds exactly the cells with their centres in the region. -/
theorem structured_logical_cells (hp : SimpleGeom.Proper dd bx) {gm : List (Reg.Region Point)} {d : Nat} (hg : GoodModel gm .CELL d Boxes)
    {w : World} (hw : Fresh w .CELL (Simple.numCells dd)) {fr : Bool} {nc : Nat → List Nat} {pic : Point → Nat → Bool} {ds : Point → Point → Rat}
    (hnc : ∀ v, (nc v).Nodup ∧ ∀ c ∈ nc v, c < Simple.numCells dd) {n : String} {r : Reg.Region Point} (hr : findRegion gm n = some r) :
    LogicalSetIs (geoOf (SimpleGeom.simpleMesh dd bx) fr nc pic ds) gm d w n .CELL (Simple.CellIn dd) (Simple.cellIdx dd)
      (fun p => PointIn gm d n (centre dd bx p)) := by
  refine logicalSet_of hg hw (fun _ => hnc) (fun p hq => Simple.cellIdx_lt dd hq) (fun e he => Simple.cellIdx_surj dd he) (fun r _ ht p hq => ?_) hr
  simp only [InRegion, show r.type = .BOX from ht, MSet.MeshView.nAll, hw.counts.1, hw.counts.2, Nat.add_zero, geoOf,
    SimpleGeom.simple_cell_geometry hp hq]
  exact and_iff_right (Simple.cellIdx_lt dd hq)

/-- **C183** Logical regions of boxes, planes and polygons on a structured mesh: the set of nodes holds exactly the nodes in the region. -/
theorem structured_logical_nodes {gm : List (Reg.Region Point)} {d : Nat} (hg : GoodModel gm .NODE d Shapes)
    {w : World} (hw : Fresh w .NODE (Simple.numNodes dd)) {fr : Bool} {nc : Nat → List Nat} {pic : Point → Nat → Bool} {ds : Point → Point → Rat}
    {n : String} {r : Reg.Region Point} (hr : findRegion gm n = some r) :
    LogicalSetIs (geoOf (SimpleGeom.simpleMesh dd bx) fr nc pic ds) gm d w n .NODE (Simple.NodeIn dd) (Simple.nodeIdx dd)
      (fun p => PointIn gm d n (corner dd bx p)) := by
  refine logicalSet_of hg hw (fun k => (by cases k)) (fun p hq => Simple.nodeIdx_lt dd hq) (fun e he => Simple.nodeIdx_surj dd he) (fun r _ ht p hq => ?_) hr
  have e0 : InRegion (geoOf (SimpleGeom.simpleMesh dd bx) fr nc pic ds) w .NODE r (Simple.nodeIdx dd p) ↔
      Simple.nodeIdx dd p < Simple.numNodes dd ∧ r.inside ((SimpleGeom.simpleMesh dd bx).nodeCoord (Simple.nodeIdx dd p)) = true := by
    rcases ht with t | t | t <;> simp only [InRegion, t, MSet.MeshView.nAll, hw.counts.1, hw.counts.2, Nat.add_zero, geoOf]
  rw [e0, simple_node_at hq]
  exact and_iff_right (Simple.nodeIdx_lt dd hq)

theorem mstkCell_lt {p : Simple.Spec.Pos} (hq : Simple.CellIn dd p) : mstkCell dd p < Simple.numCells dd := by
  obtain ⟨i, j, k⟩ := p
  exact pair_lt (pair_lt hq.1 hq.2.1) hq.2.2

theorem mstkNode_lt {p : Simple.Spec.Pos} (hq : Simple.NodeIn dd p) : mstkNode dd p < Simple.numNodes dd := by
  obtain ⟨i, j, k⟩ := p
  exact pair_lt (pair_lt hq.1 hq.2.1) hq.2.2

section
variable {s : Source ℝ} {g : RegMesh ℝ} {r : MeshCache.Request}

/-- **C183** The same for the cells and nodes of the regular mesh of MSTK on one rank, with its numbers. -/
theorem regular_logical_sets (hp : SimpleGeom.Proper dd bx) (hm : RegularMesh s (domOf dd bx) (wholeBlk dd) g r)
    {gm : List (Reg.Region Point)} {d : Nat} {fr : Bool} {nc : Nat → List Nat} {pic : Point → Nat → Bool} {ds : Point → Point → Rat}
    {n : String} {rg : Reg.Region Point} (hr : findRegion gm n = some rg) {w : World} :
    (GoodModel gm .CELL d Boxes → Fresh w .CELL (Simple.numCells dd) → (∀ v, (nc v).Nodup ∧ ∀ c ∈ nc v, c < Simple.numCells dd) →
      LogicalSetIs (geoOf s.gmesh fr nc pic ds) gm d w n .CELL (Simple.CellIn dd) (mstkCell dd) (fun p => PointIn gm d n (centre dd bx p))) ∧
    (GoodModel gm .NODE d Shapes → Fresh w .NODE (Simple.numNodes dd) →
      LogicalSetIs (geoOf s.gmesh fr nc pic ds) gm d w n .NODE (Simple.NodeIn dd) (mstkNode dd) (fun p => PointIn gm d n (corner dd bx p))) := by
  obtain ⟨cell, face, node, n1, n2, n3, ha, hc, hn⟩ := frameworks_alike hp hm
  obtain ⟨ac, -, an⟩ := ha fr fr nc nc pic pic ds ds
  have cnum : ∀ p, Simple.CellIn dd p → cell (mstkCell dd p) = Simple.cellIdx dd p := by
    rintro ⟨i, j, k⟩ ⟨h1, h2, h3⟩
    rw [show mstkCell dd ⟨i, j, k⟩ = (i * dd.ny + j) * dd.nz + k from rfl, hc i j k h1 h2 h3]
    simp only [Simple.cellIdx, Simple.cellIndex]; ring
  have nnum : ∀ p, Simple.NodeIn dd p → node (mstkNode dd p) = Simple.nodeIdx dd p := by
    rintro ⟨i, j, k⟩ ⟨h1, h2, h3⟩
    rw [show mstkNode dd ⟨i, j, k⟩ = (i * (dd.ny + 1) + j) * (dd.nz + 1) + k from rfl, hn i j k h1 h2 h3]
    simp only [Simple.nodeIdx, Simple.nodeIndex]; ring
  refine ⟨fun hg hw hnc => ?_, fun hg hw => ?_⟩
  · refine logicalSet_of hg hw (fun _ => hnc) (fun p hq => mstkCell_lt hq) (fun e he => ?_) (fun q _ ht p hq => ?_) hr
    · obtain ⟨p, hq, h⟩ := Simple.cellIdx_surj dd (ac.renumbers.into e he)
      exact ⟨p, hq, ac.renumbers.inj _ (mstkCell_lt hq) _ he ((cnum p hq).trans h)⟩
    · have e1 := ac.cellCentroid rfl _ (mstkCell_lt hq)
      rw [cnum p hq] at e1
      simp only [InRegion, show q.type = .BOX from ht, MSet.MeshView.nAll, hw.counts.1, hw.counts.2, Nat.add_zero, ← e1]
      simp only [geoOf, SimpleGeom.simple_cell_geometry hp hq]
      exact and_iff_right (mstkCell_lt hq)
  · refine logicalSet_of hg hw (fun k => (by cases k)) (fun p hq => mstkNode_lt hq) (fun e he => ?_) (fun q _ ht p hq => ?_) hr
    · obtain ⟨p, hq, h⟩ := Simple.nodeIdx_surj dd (an.renumbers.into e he)
      exact ⟨p, hq, an.renumbers.inj _ (mstkNode_lt hq) _ he ((nnum p hq).trans h)⟩
    · have e1 := an.nodeCoord rfl _ (mstkNode_lt hq)
      rw [nnum p hq] at e1
      have e0 : InRegion (geoOf s.gmesh fr nc pic ds) w .NODE q (mstkNode dd p) ↔
          mstkNode dd p < Simple.numNodes dd ∧ q.inside ((geoOf s.gmesh fr nc pic ds).nodeCoord (mstkNode dd p)) = true := by
        rcases ht with t | t | t <;> simp only [InRegion, t, MSet.MeshView.nAll, hw.counts.1, hw.counts.2, Nat.add_zero]
      rw [e0, ← e1]
      show _ ∧ q.inside ((SimpleGeom.simpleMesh dd bx).nodeCoord (Simple.nodeIdx dd p)) = true ↔ _
      rw [simple_node_at hq]
      exact and_iff_right (mstkNode_lt hq)

end

section
variable {dm : Dom2 ℝ} {b : Blk2} {s : Source ℝ} {g : RegMesh2 ℝ} {r : MeshCache.Request}

/-- centre of a cell of the grid in the plane -/
noncomputable def centreAt2 (dm : Dom2 ℝ) (b : Blk2) (p : Nat × Nat) : Point :=
  mk2 (mid2 dm.X0 dm.X1 dm.NX (b.i0 + p.1)) (mid2 dm.Y0 dm.Y1 dm.NY (b.j0 + p.2))
/-- node of the grid in the plane -/
noncomputable def nodeAt2 (dm : Dom2 ℝ) (b : Blk2) (p : Nat × Nat) : Point :=
  mk2 (gridPt dm.X0 dm.X1 dm.NX (b.i0 + p.1)) (gridPt dm.Y0 dm.Y1 dm.NY (b.j0 + p.2))

/-- every box of the model is one that the constructor made of points in the plane -/
def PlaneBoxes (gm : List (Reg.Region Point)) : Prop :=
  ∀ r ∈ gm, r.type = .BOX → ∃ nm id p0 p1 lc rg lab, mkBox nm id p0 p1 lc = .value rg ∧ p0.d = 2 ∧ r = regionOf lab rg

/-- **C183** The same for cells and nodes of a block of a regular mesh in the plane. -/
theorem regular_logical_sets2 (hd : GoodDom2 dm) (hb : GoodBlk2 dm b) (h : RegularMesh2 s dm b g r)
    {gm : List (Reg.Region Point)} {d : Nat} {fr : Bool} {nc : Nat → List Nat} {pic : Point → Nat → Bool} {ds : Point → Point → Rat}
    {n : String} {rg : Reg.Region Point} (hr : findRegion gm n = some rg) {w : World} :
    (GoodModel gm .CELL d Boxes → PlaneBoxes gm → Fresh w .CELL (b.nx * b.ny) → (∀ v, (nc v).Nodup ∧ ∀ c ∈ nc v, c < b.nx * b.ny) →
      LogicalSetIs (geoOf s.gmesh fr nc pic ds) gm d w n .CELL (fun p : Nat × Nat => p.1 < b.nx ∧ p.2 < b.ny) (cell2At b)
        (fun p => PointIn gm d n (centreAt2 dm b p))) ∧
    (GoodModel gm .NODE d Shapes → Fresh w .NODE ((b.nx + 1) * (b.ny + 1)) →
      LogicalSetIs (geoOf s.gmesh fr nc pic ds) gm d w n .NODE (fun p : Nat × Nat => p.1 < b.nx + 1 ∧ p.2 < b.ny + 1) (node2 b)
        (fun p => PointIn gm d n (nodeAt2 dm b p))) := by
  refine ⟨fun hg hpb hw hnc => ?_, fun hg hw => ?_⟩
  · refine logicalSet_of (number := cell2At b) hg hw (fun _ => hnc) (fun p hq => pair_lt hq.1 hq.2) (fun e he => cell_surj2 hb he) (fun q hmem ht p hq => ?_) hr
    obtain ⟨nm, id, p0, p1, lc, rg, lab, h1, h2, rfl⟩ := hpb q hmem ht
    obtain ⟨t, hin⟩ := regionOf_box2 h1 h2 lab
    obtain ⟨cen, c1, c2, c3, c4⟩ := centroid_at2 hd hb h hq.1 hq.2
    simp only [InRegion, t, MSet.MeshView.nAll, hw.counts.1, hw.counts.2, Nat.add_zero, geoOf]
    rw [c1, hin _ c2, c3, c4, hin (centreAt2 dm b p) rfl]
    exact and_iff_right (pair_lt hq.1 hq.2)
  · refine logicalSet_of (number := node2 b) hg hw (fun k => (by cases k)) (fun p hq => pair_lt hq.1 hq.2) (fun e he => node_surj2 he) (fun q _ ht p hq => ?_) hr
    have e0 : InRegion (geoOf s.gmesh fr nc pic ds) w .NODE q (node2 b p) ↔
        node2 b p < (b.nx + 1) * (b.ny + 1) ∧ q.inside (s.gmesh.nodeCoord (node2 b p)) = true := by
      rcases ht with t | t | t <;> simp only [InRegion, t, MSet.MeshView.nAll, hw.counts.1, hw.counts.2, Nat.add_zero, geoOf]
    rw [e0, node_at2 hd hb h hq.1 hq.2]
    exact and_iff_right (pair_lt hq.1 hq.2)

end

/-- the boxes (0,0,0) - (2,2,2) and (1,0,0) - (2,2,2), the first without the second, and the complement of that -/
noncomputable def nestedGm : List (Reg.Region Point) := boxGm ++ [regionOf ([], []) (.logical ⟨"D", 4, 3, .PERMANENT⟩ (some .COMPLEMENT) ["C"])]

theorem nestedGm_cases {n : String} {r : Reg.Region Point} (h : findRegion nestedGm n = some r) : (n = "A" ∧ r.type = .BOX) ∨ (n = "B" ∧ r.type = .BOX) ∨
    (n = "C" ∧ r.type = .LOGICAL ∧ r.op = .SUBTRACT ∧ r.comps = ["A", "B"]) ∨ (n = "D" ∧ r.type = .LOGICAL ∧ r.op = .COMPLEMENT ∧ r.comps = ["C"]) := by
  obtain ⟨h1, h2⟩ := findRegion_mem h
  simp only [nestedGm, boxGm, List.cons_append, List.nil_append, List.mem_cons, List.not_mem_nil, or_false] at h1
  rcases h1 with rfl | rfl | rfl | rfl <;> simp only [regionOf, AnyRegion.name, AnyRegion.base] at h2 <;> subst h2 <;>
    simp [regionOf, AnyRegion.type, AnyRegion.operation, AnyRegion.components]

theorem nestedGm_model (kind : EntityKind) (hk : Positional kind .BOX = true) : GoodModel nestedGm kind 2 Boxes := by
  have f : ∀ {n r}, findRegion boxGm n = some r → findRegion nestedGm n = some r := by
    intro n r h
    simp only [findRegion, nestedGm, List.find?_append] at h ⊢
    rw [h]; rfl
  have up : ∀ {n d}, Reg.Placed boxGm kind d n → Reg.Placed nestedGm kind d n := by
    intro n d h
    induction h with
    | prim d n r h1 h2 => exact .prim d n r (f h1) h2
    | logical d n r h1 h2 h3 h4 h5 _ ih => exact .logical d n r (f h1) h2 h3 h4 h5 ih
  have hA : Reg.Placed nestedGm kind 0 "A" := .prim 0 "A" (boxGm.head (by simp [boxGm])) (f (by simp [findRegion, boxGm, regionOf, AnyRegion.name, AnyRegion.base])) hk
  have hB : Reg.Placed nestedGm kind 0 "B" := .prim 0 "B" (boxGm.tail.head (by simp [boxGm])) (f (by simp [findRegion, boxGm, regionOf, AnyRegion.name, AnyRegion.base])) hk
  have hA1 : Reg.Placed nestedGm kind 1 "A" := .prim 1 "A" (boxGm.head (by simp [boxGm])) (f (by simp [findRegion, boxGm, regionOf, AnyRegion.name, AnyRegion.base])) hk
  have hB1 : Reg.Placed nestedGm kind 1 "B" := .prim 1 "B" (boxGm.tail.head (by simp [boxGm])) (f (by simp [findRegion, boxGm, regionOf, AnyRegion.name, AnyRegion.base])) hk
  have hC : Reg.Placed nestedGm kind 1 "C" := up (boxGm_placed kind hk "C" _ (by simp [findRegion, boxGm, regionOf, AnyRegion.name, AnyRegion.base]; rfl))
  refine ⟨?_, ?_, by simp [Boxes], ?_, ?_⟩
  · intro n r hr
    rcases nestedGm_cases hr with ⟨rfl, ht⟩ | ⟨rfl, ht⟩ | ⟨rfl, ht, ho, hc⟩ | ⟨rfl, ht, ho, hc⟩
    · exact .prim 2 _ r hr (ht ▸ hk)
    · exact .prim 2 _ r hr (ht ▸ hk)
    · exact .logical 1 _ r hr ht (by simp [ho]) (by simp [hc]) (by simp [hc]) (by simp [hc, hA1, hB1])
    · exact .logical 1 _ r hr ht (by simp [ho]) (by simp [hc]) (by simp [ho]) (by simp [hc, hC])
  · intro r hr
    simp only [nestedGm, boxGm, List.cons_append, List.nil_append, List.mem_cons, List.not_mem_nil, or_false] at hr
    rcases hr with rfl | rfl | rfl | rfl <;> simp [regionOf, AnyRegion.type, Boxes]
  · intro r hr
    simp only [nestedGm, boxGm, List.cons_append, List.nil_append, List.mem_cons, List.not_mem_nil, or_false] at hr
    rcases hr with rfl | rfl | rfl | rfl <;> simp [regionOf, AnyRegion.type, AnyRegion.operation, AnyRegion.components]
  · intro r hr c cs
    simp only [nestedGm, boxGm, List.cons_append, List.nil_append, List.mem_cons, List.not_mem_nil, or_false] at hr
    rcases hr with rfl | rfl | rfl | rfl <;> simp [regionOf, AnyRegion.type, AnyRegion.operation, AnyRegion.components] <;> try (rintro rfl rfl; decide)

/-- what the region "D" means -/
theorem nested_D (p : Point) (hp : p.d = 3) : PointIn nestedGm 2 "D" p ↔
    ¬ (InBox (mk3 0 0 0) (mk3 2 2 2) p.x p.y p.z ∧ ¬ InBox (mk3 1 0 0) (mk3 2 2 2) p.x p.y p.z) := by
  have mA : mkBox "A" 1 (mk3 0 0 0) (mk3 2 2 2) .PERMANENT = .value (.box ⟨"A", 1, 3, .PERMANENT⟩ (mk3 0 0 0) (mk3 2 2 2)) := by
    simp [mkBox, mk3, Point.coord, List.range_succ]
  have mB : mkBox "B" 2 (mk3 1 0 0) (mk3 2 2 2) .PERMANENT = .value (.box ⟨"B", 2, 3, .PERMANENT⟩ (mk3 1 0 0) (mk3 2 2 2)) := by
    simp [mkBox, mk3, Point.coord, List.range_succ]
  have fA : findRegion nestedGm "A" = some (regionOf ([], []) (.box ⟨"A", 1, 3, .PERMANENT⟩ (mk3 0 0 0) (mk3 2 2 2))) := by
    simp [findRegion, nestedGm, boxGm, regionOf, AnyRegion.name, AnyRegion.base]
  have fB : findRegion nestedGm "B" = some (regionOf ([], []) (.box ⟨"B", 2, 3, .PERMANENT⟩ (mk3 1 0 0) (mk3 2 2 2))) := by
    simp [findRegion, nestedGm, boxGm, regionOf, AnyRegion.name, AnyRegion.base]
  have fC : findRegion nestedGm "C" = some (regionOf ([], []) (.logical ⟨"C", 3, 3, .PERMANENT⟩ (some .SUBTRACT) ["A", "B"])) := by
    simp [findRegion, nestedGm, boxGm, regionOf, AnyRegion.name, AnyRegion.base]
  have fD : findRegion nestedGm "D" = some (regionOf ([], []) (.logical ⟨"D", 4, 3, .PERMANENT⟩ (some .COMPLEMENT) ["C"])) := by
    simp [findRegion, nestedGm, boxGm, regionOf, AnyRegion.name, AnyRegion.base]
  have eA := (regionOf_box mA rfl ([], [])).2 p hp
  have eB := (regionOf_box mB rfl ([], [])).2 p hp
  have pA : PointIn nestedGm 0 "A" p ↔ _ := (pointIn_prim fA (by simp [regionOf, AnyRegion.type]) p).trans eA
  have pB : PointIn nestedGm 0 "B" p ↔ _ := (pointIn_prim fB (by simp [regionOf, AnyRegion.type]) p).trans eB
  have pC : PointIn nestedGm 1 "C" p ↔ PointIn nestedGm 0 "A" p ∧ ¬ PointIn nestedGm 0 "B" p := by
    rw [PointIn]
    simp [fC, regionOf, AnyRegion.type, AnyRegion.operation, AnyRegion.components]
  have pD : PointIn nestedGm 2 "D" p ↔ ¬ PointIn nestedGm 1 "C" p := by
    rw [PointIn]
    simp [fD, regionOf, AnyRegion.type, AnyRegion.operation, AnyRegion.components]
  rw [pD, pC, pA, pB]

/-- the mesh of 4 x 3 x 4 cells of the box (-1,0,0) - (3,2,2): the set of "D" has cell 0, left of both boxes, not cell 1, in the first box but not
the second, and has cell 2, in both -/
example : ∃ a w' x, Reg.build (geoOf (SimpleGeom.simpleMesh ⟨4, 3, 4⟩ ⟨-1, 0, 0, 3, 2, 2⟩) true (fun _ => []) (fun _ _ => false) (fun _ _ => (0 : Rat)))
    nestedGm 2 (freshWorld 48) "D" .CELL true = .ok (some a, w') ∧ w'.heap[a]? = some x ∧
    0 ∈ MSet.entities x .ALL ∧ 1 ∉ MSet.entities x .ALL ∧ 2 ∈ MSet.entities x .ALL := by
  have hp : SimpleGeom.Proper ⟨4, 3, 4⟩ ⟨-1, 0, 0, 3, 2, 2⟩ := by constructor <;> norm_num
  obtain ⟨a, w', x, h1, h2, -, -, -, h3⟩ := structured_logical_cells hp (nestedGm_model .CELL rfl)
    (fresh_freshWorld 48 .CELL) (fr := true) (nc := fun _ => []) (pic := fun _ _ => false) (ds := fun _ _ => 0) (by simp) (n := "D")
    (by simp [findRegion, nestedGm, boxGm, regionOf, AnyRegion.name, AnyRegion.base]; rfl) true
  refine ⟨a, w', x, h1, h2, (h3 0).2 ⟨⟨0, 0, 0⟩, ⟨by simp, by simp, by simp⟩, rfl, ?_⟩, fun h => ?_, (h3 2).2 ⟨⟨2, 0, 0⟩, ⟨by simp, by simp, by simp⟩, rfl, ?_⟩⟩
  · beta_reduce
    rw [nested_D _ rfl]
    norm_num [centre, InBox, mid, mk3]
  · obtain ⟨⟨i, j, k⟩, ⟨q1, q2, q3⟩, e, k1⟩ := (h3 1).1 h
    simp only [Simple.cellIdx, Simple.cellIndex] at e q1 q2 q3
    have hi : i = 1 := by omega
    have hj : j = 0 := by omega
    have hk : k = 0 := by omega
    subst hi hj hk
    rw [nested_D _ rfl] at k1
    norm_num [centre, InBox, mid, mk3] at k1
  · beta_reduce
    rw [nested_D _ rfl]
    norm_num [centre, InBox, mid, mk3]

end Jali.MstkGen
