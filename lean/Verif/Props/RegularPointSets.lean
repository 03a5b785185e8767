import Verif.Props.PointSets
import Verif.Props.PointLocation3
import Verif.Props.RegularSides
import Verif.Props.RegularRegionSets
import Verif.Proof.NearestGrid
/-!
C174: the set of cells of a point region on a regular mesh of hexahedra, for every block of every grid and every point.
-/
namespace Jali.MstkGen
open Spec Jali.Geom Jali.Geom.Point Jali.Geom.Spec Jali.MeshGeom Jali.Mstk Jali.Reg

variable {d : Dom ℝ} {b : Blk} {s : Source ℝ} {g : RegMesh ℝ} {r : MeshCache.Request}

/-- the point is in the closed box of which the first and the seventh corner of the cell are opposite corners -/
def InCell (cell : MstkGen.Region ℝ) (p : Point) : Prop := ∃ lo hi, cell.vs[0]? = some lo ∧ cell.vs[6]? = some hi ∧
  lo.x ≤ p.x ∧ p.x ≤ hi.x ∧ lo.y ≤ p.y ∧ p.y ≤ hi.y ∧ lo.z ≤ p.z ∧ p.z ≤ hi.z

theorem box_inner {x0 x1 y0 y1 z0 z1 : ℝ} (hx : x0 < x1) (hy : y0 < y1) (hz : z0 < z1) (t : Point) :
    (∀ f ∈ boxSides x0 x1 y0 y1 z0 z1, ∀ x ∈ facets f, InnerSide t x) ↔
      x0 ≤ t.x ∧ t.x ≤ x1 ∧ y0 ≤ t.y ∧ t.y ≤ y1 ∧ z0 ≤ t.z ∧ t.z ≤ z1 := by
  have pos : ∀ {k u v : ℝ}, 0 < k → (0 ≤ k * (v - u) ↔ u ≤ v) := by
    intro k u v hk
    rw [mul_nonneg_iff_of_pos_left hk, sub_nonneg]
  have kxy : 0 < (x1 - x0) * (y1 - y0) / 12 := by have := mul_pos (sub_pos.2 hx) (sub_pos.2 hy); linarith
  have kxz : 0 < (x1 - x0) * (z1 - z0) / 12 := by have := mul_pos (sub_pos.2 hx) (sub_pos.2 hz); linarith
  have kyz : 0 < (y1 - y0) * (z1 - z0) / 12 := by have := mul_pos (sub_pos.2 hy) (sub_pos.2 hz); linarith
  have face : ∀ (p q u v : Point) (k e : ℝ), (∀ x ∈ facets [p, q, u, v], tetVol t x.1 x.2.1 x.2.2 = k * e) → 0 < k →
      ((∀ x ∈ facets [p, q, u, v], InnerSide t x) ↔ 0 ≤ e) := by
    intro p q u v k e h hk
    constructor
    · intro hi
      have h0 := hi (p, q, vertexMean 3 [p, q, u, v]) (by rw [facets4]; simp)
      unfold InnerSide at h0
      rw [h _ (by rw [facets4]; simp)] at h0
      exact (mul_nonneg_iff_of_pos_left hk).1 h0
    · intro he x hx
      unfold InnerSide
      rw [h x hx]
      exact mul_nonneg hk.le he
  simp only [boxSides, List.forall_mem_cons, List.not_mem_nil, false_imp_iff, implies_true, and_true]
  rw [face _ _ _ _ ((x1 - x0) * (y1 - y0) / 12) (t.z - z0) _ kxy, face _ _ _ _ ((x1 - x0) * (y1 - y0) / 12) (z1 - t.z) _ kxy,
    face _ _ _ _ ((x1 - x0) * (z1 - z0) / 12) (t.y - y0) _ kxz, face _ _ _ _ ((y1 - y0) * (z1 - z0) / 12) (x1 - t.x) _ kyz,
    face _ _ _ _ ((x1 - x0) * (z1 - z0) / 12) (y1 - t.y) _ kxz, face _ _ _ _ ((y1 - y0) * (z1 - z0) / 12) (t.x - x0) _ kyz]
  · simp only [sub_nonneg]
    constructor
    · rintro ⟨h1, h2, h3, h4, h5, h6⟩; exact ⟨h6, h4, h3, h5, h1, h2⟩
    · rintro ⟨h6, h4, h3, h5, h1, h2⟩; exact ⟨h1, h2, h3, h4, h5, h6⟩
  all_goals
    intro x hx
    rw [facets4, mean4] at hx
    simp only [List.mem_cons, List.not_mem_nil, or_false] at hx
    rcases hx with rfl | rfl | rfl | rfl <;> (simp only [tetVol, det3, vec, mk3]; ring)

/-- **C174** `point_in_cell` on a regular mesh: the cell contains the point exactly if its closed box does -/
theorem regular_point_in_cell (hd : GoodDom d) (hb : GoodBlk d b) (h : RegularMesh s d b g r) {c : Nat} {cell : MstkGen.Region ℝ}
    (hc : g.regions[c]? = some cell) (t : Point) : pointInCell s.gmesh t c = true ↔ InCell cell t := by
  have hs := h.solid hd hb
  obtain ⟨_, _, h4, _⟩ := generated_mesh_is_polyhedral d hd b hb g h.generated s.j.m h.held
  obtain ⟨rfl, G, rg, I, J, L, rfl, hr, rfl, hat⟩ := regular_cell hd hb h hc
  obtain ⟨_, hlen⟩ := coords_mean hd hb G h.placed h.space rg hr
  rw [solid_cell_contains_partial hs t hat (by rw [gmesh_cellCoords hs hat, hlen]; omega) (fun q _ => by rw [h4 q.1]; omega),
    surface_box hd G h.placed h.space rg hr]
  have px : gx d I < gx d (I + 1) := gridPt_lt hd.x hd.nx (Nat.lt_succ_self I)
  have py : gy d J < gy d (J + 1) := gridPt_lt hd.y hd.ny (Nat.lt_succ_self J)
  have pz : gz d L < gz d (L + 1) := gridPt_lt hd.z hd.nz (Nat.lt_succ_self L)
  rw [box_inner px py pz]
  constructor
  · rintro ⟨h1, h2, h3, h4, h5, h6⟩
    refine ⟨V d I J L, V d (I + 1) (J + 1) (L + 1), rfl, rfl, ?_⟩
    simp only [V, gridCoord_eq _ _ hd.nx, gridCoord_eq _ _ hd.ny, gridCoord_eq _ _ hd.nz]
    exact ⟨h1, h2, h3, h4, h5, h6⟩
  · rintro ⟨lo, hi, e1, e2, h1, h2, h3, h4, h5, h6⟩
    cases e1; cases e2
    simp only [V, gridCoord_eq _ _ hd.nx, gridCoord_eq _ _ hd.ny, gridCoord_eq _ _ hd.nz] at h1 h2 h3 h4 h5 h6
    exact ⟨h1, h2, h3, h4, h5, h6⟩

/-- what the construction of sets from regions asks of the mesh, with `node_get_cells`, `point_in_cell` and the squared distance
`(vpnt-rgnpnt)*(vpnt-rgnpnt)` (Mesh.cc:2711) -/
noncomputable def pointGeo (s : Source ℝ) (fr : Bool) : Geo Point ℝ :=
  geoOf s.gmesh fr (fun n => (s.j.nodeCells3 n .ALL).getD []) (pointInCell s.gmesh) fun a c => dot (a - c) (a - c)

/-- nodes of a regular mesh: number, position -/
theorem node_at (hd : GoodDom d) (hb : GoodBlk d b) (h : RegularMesh s d b g r) (G : Grid d b s.j.m) (n : Nat) (hn : n < s.j.m.nv) :
    ∃ v I J L, s.j.m.vmap.at n = some v ∧ G.vo v = V d I J L ∧ s.gmesh.nodeCoord n = mk3 (gx d I) (gy d J) (gz d L) ∧
      b.i0 ≤ I ∧ I ≤ b.i0 + b.nx ∧ b.j0 ≤ J ∧ J ≤ b.j0 + b.ny ∧ b.k0 ≤ L ∧ L ≤ b.k0 + b.nz := by
  obtain ⟨rfl, _⟩ := grid_of_build hd hb h.generated h.held
  obtain ⟨v, hv⟩ := s.j.m.vnum.at_some hn
  have hm : G.vo v ∈ (genOf d b).verts := by rw [← G.vlist]; exact List.mem_ofFn.mpr ⟨v, rfl⟩
  obtain ⟨⟨i, j, k⟩, ht, hvo⟩ := List.mem_map.mp hm
  rw [mem_loopIdx] at ht
  dsimp only at ht
  have hvo' : G.vo v = V d (b.i0 + i) (b.j0 + j) (b.k0 + k) := hvo.symm
  refine ⟨v, b.i0 + i, b.j0 + j, b.k0 + k, hv, hvo', ?_, by omega, by omega, by omega, by omega, by omega, by omega⟩
  have e := node_place s (.inl h.space) v
  rw [s.j.m.vnum.id_of_at hv, Nat.add_sub_cancel] at e
  rw [e, place_pt G h.placed h.space, hvo', pt_V hd]

theorem node_of (hd : GoodDom d) (hb : GoodBlk d b) (h : RegularMesh s d b g r) (G : Grid d b s.j.m) {I J L : Nat}
    (h1 : b.i0 ≤ I) (h2 : I ≤ b.i0 + b.nx) (h3 : b.j0 ≤ J) (h4 : J ≤ b.j0 + b.ny) (h5 : b.k0 ≤ L) (h6 : L ≤ b.k0 + b.nz) :
    ∃ n < s.j.m.nv, s.gmesh.nodeCoord n = mk3 (gx d I) (gy d J) (gz d L) := by
  obtain ⟨rfl, _⟩ := grid_of_build hd hb h.generated h.held
  have hm : V d I J L ∈ List.ofFn G.vo := by
    rw [G.vlist]
    refine List.mem_map.mpr ⟨(I - b.i0, J - b.j0, L - b.k0), mem_loopIdx.2 ⟨by dsimp only; omega, by dsimp only; omega, by dsimp only; omega⟩, ?_⟩
    show V d (b.i0 + (I - b.i0)) (b.j0 + (J - b.j0)) (b.k0 + (L - b.k0)) = _
    rw [Nat.add_sub_cancel' h1, Nat.add_sub_cancel' h3, Nat.add_sub_cancel' h5]
  obtain ⟨v, hv⟩ := List.mem_ofFn.mp hm
  refine ⟨s.j.m.vmap.id v - 1, s.j.m.vnum.lt_of_at (s.j.m.vnum.at_id v), ?_⟩
  rw [node_place s (.inl h.space) v, place_pt G h.placed h.space, hv, pt_V hd]

theorem dist_grid {x y z : ℝ} {p : Point} (hp : p.d = 3) :
    dot (mk3 x y z - p) (mk3 x y z - p) = (x - p.x) ^ 2 + ((y - p.y) ^ 2 + (z - p.z) ^ 2) := by
  obtain ⟨d, px, py, pz⟩ := p
  subst hp
  show dot (Point.sub _ _) (Point.sub _ _) = _
  simp [Point.sub, dot, mk3]
  ring

/-- **C174** The set of cells of a point region on a regular mesh: exactly the cells whose closed box contains the point, all of them also
when the point is on a face, an edge or a node, and none if the point is outside. Cells are wider than 1e-16, and some node is nearer
than 1e8. -/
theorem regular_point_set (hd : GoodDom d) (hb : GoodBlk d b) (h : RegularMesh s d b g r)
    (wide : 1 / 10 ^ 16 < (d.X1 - d.X0) / d.NX ∧ 1 / 10 ^ 16 < (d.Y1 - d.Y0) / d.NY ∧ 1 / 10 ^ 16 < (d.Z1 - d.Z0) / d.NZ)
    {nm : String} {id : Nat} {p : Point} {lc : LifeCycle} {rg : AnyRegion} (hm : mkPointRegion nm id p lc = .value rg) (h3 : p.d = 3)
    (near : ∃ v ∈ g.verts, (v.x - p.x) ^ 2 + (v.y - p.y) ^ 2 + (v.z - p.z) ^ 2 < 10 ^ 16)
    {lab : List Nat × List Nat} {gm : List (Reg.Region Point)} {n : String} (hr : findRegion gm n = some (regionOf lab rg))
    (hl : ∀ q ∈ gm, q.type ≠ .LABELEDSET) {w : World} (hw : Fresh w .CELL g.regions.length) (hv : (w.view .NODE).nAll = g.verts.length)
    (fr : Bool) (k : Nat) (rev : Bool) :
    ∃ a w' x, Reg.build (pointGeo s fr) gm k w n .CELL rev = .ok (some a, w') ∧ w'.heap[a]? = some x ∧ x.name = n ∧ a ∈ w'.reg ∧
      (MSet.entities x .ALL).Nodup ∧ ∀ c, c ∈ MSet.entities x .ALL ↔ ∃ cell, g.regions[c]? = some cell ∧ InCell cell p := by
  obtain ⟨hg, ⟨G⟩⟩ := grid_of_build hd hb h.generated h.held
  have nv : g.verts.length = s.j.m.nv := by rw [hg, ← G.vlist, List.length_ofFn]
  have nr : g.regions.length = s.j.m.nr := by rw [hg, ← G.rlist, List.length_ofFn]
  simp only [mkPointRegion, Res.value.injEq] at hm
  subst hm
  have hat : ∀ c, c < s.j.m.nr → ∃ x, (s.j.m.rmap s.j.bg).at c = some x := fun c hc => (s.j.m.rnum s.j.bg).at_some hc
  have hnc : ∀ v, ((s.j.nodeCells3 v .ALL).getD []).Nodup ∧ ∀ c ∈ (s.j.nodeCells3 v .ALL).getD [], c < g.regions.length := by
    intro v
    cases hc : s.j.nodeCells3 v .ALL with
    | none => simp
    | some l =>
      refine ⟨(cells_listed_once s.j .ALL).2.2.1 v l hc, fun c hm => ?_⟩
      obtain ⟨l', hl', -⟩ : Has (s.j.cellNodes3 c) v := (nodes_cells_agree3 s.j c v).2 ⟨l, hc, hm⟩
      unfold JMesh.cellNodes3 at hl'
      rw [Option.map_eq_some_iff] at hl'
      obtain ⟨x, hx, -⟩ := hl'
      rw [nr]
      exact (s.j.m.rnum s.j.bg).lt_of_at hx
  have hf : Fits (pointGeo s fr) gm w .CELL := by
    refine ⟨⟨fun e => ?_, fun e => ?_⟩, fun _ v => ?_, fun q hq ht => absurd ht (hl q hq)⟩
    · rw [hw.owned, hw.counts.1]
    · simp only [hw.ghost, MSet.MeshView.nAll, hw.counts.1, hw.counts.2, false_iff]
      omega
    · simp only [MSet.MeshView.nAll, hw.counts.1, hw.counts.2, Nat.add_zero]
      exact hnc v
  have cAll : (w.view .CELL).nAll = g.regions.length := by simp [MSet.MeshView.nAll, hw.counts.1, hw.counts.2]
  have dist : ∀ {m : Nat} {I J L : Nat}, s.gmesh.nodeCoord m = mk3 (gx d I) (gy d J) (gz d L) →
      (pointGeo s fr).dist2 ((pointGeo s fr).nodeCoord m) p = (gx d I - p.x) ^ 2 + ((gy d J - p.y) ^ 2 + (gz d L - p.z) ^ 2) := by
    intro m I J L e
    show dot (s.gmesh.nodeCoord m - p) (s.gmesh.nodeCoord m - p) = _
    rw [e]; exact dist_grid h3
  obtain ⟨w', x, h1, h2, h4, h5, h6, h7⟩ := point_region_exact hf n hr rfl p rfl (by
      obtain ⟨v, hvm, hlt⟩ := near
      rw [hg] at hvm
      obtain ⟨⟨i, j, l⟩, ht, rfl⟩ := List.mem_map.mp hvm
      rw [mem_loopIdx] at ht
      dsimp only at ht
      obtain ⟨m, hm, hc⟩ := node_of hd hb h G (I := b.i0 + i) (J := b.j0 + j) (L := b.k0 + l) (by omega) (by omega) (by omega) (by omega)
        (by omega) (by omega)
      refine ⟨m, by rw [hv, nv]; exact hm, ?_⟩
      rw [dist hc]
      simp only [shifted, V, gridCoord_eq _ _ hd.nx, gridCoord_eq _ _ hd.ny, gridCoord_eq _ _ hd.nz] at hlt
      simp only [gx, gy, gz]
      linarith) (by
      rintro m ⟨hm, hmin⟩ c hc hin
      rw [cAll] at hc
      have hbox := (regular_point_in_cell hd hb h (List.getElem?_eq_getElem hc) p).1 hin
      have hc' : c < s.j.m.nr := nr ▸ hc
      obtain ⟨I, J, L, hro, i1, i2, j1, j2, l1, l2⟩ := G.ro_is ⟨c, hc'⟩
      have hcell : g.regions[c]? = some (RG d I J L) := by
        rw [hg, ← G.rlist, ← hro, List.getElem?_ofFn, dif_pos hc']
      obtain ⟨lo, hi, e1, e2, hbx⟩ := hbox
      have hce : g.regions[c] = RG d I J L := Option.some.inj ((List.getElem?_eq_getElem _).symm.trans hcell)
      rw [hce] at e1 e2
      cases e1; cases e2
      simp only [V, gridCoord_eq _ _ hd.nx, gridCoord_eq _ _ hd.ny, gridCoord_eq _ _ hd.nz] at hbx
      obtain ⟨b1, b2, b3, b4, b5, b6⟩ := hbx
      obtain ⟨v, I', J', L', hvat, hvo, hpos, u1, u2, u3, u4, u5, u6⟩ := node_at hd hb h G m (by rw [← nv, ← hv]; exact hm)
      have better : ∀ A B C, b.i0 ≤ A → A ≤ b.i0 + b.nx → b.j0 ≤ B → B ≤ b.j0 + b.ny → b.k0 ≤ C → C ≤ b.k0 + b.nz →
          (gx d I' - p.x) ^ 2 + ((gy d J' - p.y) ^ 2 + (gz d L' - p.z) ^ 2) ≤ 1 / 10 ^ 32 ∨
          (gx d I' - p.x) ^ 2 + ((gy d J' - p.y) ^ 2 + (gz d L' - p.z) ^ 2) ≤
            (gx d A - p.x) ^ 2 + ((gy d B - p.y) ^ 2 + (gz d C - p.z) ^ 2) := by
        intro A B C a1 a2 a3 a4 a5 a6
        rcases hmin with hmin | hmin
        · rw [dist hpos] at hmin
          exact .inl hmin
        · obtain ⟨m', hm', hc'⟩ := node_of hd hb h G a1 a2 a3 a4 a5 a6
          have := hmin m' (by rw [hv, nv]; exact hm')
          rw [dist hpos, dist hc'] at this
          exact .inr this
      have small : (∀ Q : Prop, (gx d I' - p.x) ^ 2 + ((gy d J' - p.y) ^ 2 + (gz d L' - p.z) ^ 2) ≤ 1 / 10 ^ 32 ∨ Q →
          (¬ (gx d I' - p.x) ^ 2 + ((gy d J' - p.y) ^ 2 + (gz d L' - p.z) ^ 2) ≤ 1 / 10 ^ 32 → Q)) := fun Q h1 h2 => h1.resolve_left h2
      by_cases hs : (gx d I' - p.x) ^ 2 + ((gy d J' - p.y) ^ 2 + (gz d L' - p.z) ^ 2) ≤ 1 / 10 ^ 32
      all_goals
        have cx : I' = I ∨ I' = I + 1 := grid_corner (e := d.X1) (a := d.X0) hd.x hd.nx b1 b2 wide.1
          (q := (gy d J' - p.y) ^ 2 + (gz d L' - p.z) ^ 2) (by positivity) (by
            first
            | exact .inl hs
            | exact .inr fun K hK => small _ (better K J' L' (by omega) (by omega) u3 u4 u5 u6) hs)
        have cy : J' = J ∨ J' = J + 1 := grid_corner (e := d.Y1) (a := d.Y0) hd.y hd.ny b3 b4 wide.2.1
          (q := (gx d I' - p.x) ^ 2 + (gz d L' - p.z) ^ 2) (by positivity) (by
            simp only [gx, gy, gz] at hs
            first
            | (left; simp only [gx, gy, gz]; linarith)
            | (right; intro K hK
               have := small _ (better I' K L' u1 u2 (by omega) (by omega) u5 u6) (by simp only [gx, gy, gz]; exact hs)
               simp only [gx, gy, gz] at this ⊢
               linarith))
        have cz : L' = L ∨ L' = L + 1 := grid_corner (e := d.Z1) (a := d.Z0) hd.z hd.nz b5 b6 wide.2.2
          (q := (gx d I' - p.x) ^ 2 + (gy d J' - p.y) ^ 2) (by positivity) (by
            simp only [gx, gy, gz] at hs
            first
            | (left; simp only [gx, gy, gz]; linarith)
            | (right; intro K hK
               have := small _ (better I' J' K u1 u2 u3 u4 (by omega) (by omega)) (by simp only [gx, gy, gz]; exact hs)
               simp only [gx, gy, gz] at this ⊢
               linarith))
        have hvm : v ∈ s.j.m.mrVertices (s.j.m.region ⟨c, hc'⟩) := by
          have hp := verts_perm hd hb G ⟨c, hc'⟩
          rw [hro] at hp
          have hin : G.vo v ∈ (RG d I J L).vs := by
            rw [hvo]
            rcases cx with rfl | rfl <;> rcases cy with rfl | rfl <;> rcases cz with rfl | rfl <;> simp [RG]
          obtain ⟨v', hv', e⟩ := List.mem_map.mp (hp.mem_iff.mpr hin)
          exact G.vinj hb e ▸ hv'
        have hat' : (s.j.m.rmap s.j.bg).at c = some ⟨c, hc'⟩ := by
          rw [h.plain]
          exact rmap_plain s.j.m (fun i => (G.rgid i).2) ⟨c, hc'⟩
        have hhas : Has (s.j.nodeCells3 m .ALL) c := (nodes_cells_agree3 s.j c m).1 ((has_cellNodes3 (j := s.j) c m).2 ⟨_, v, hat', hvat, hvm⟩)
        obtain ⟨l, hl1, hl2⟩ := hhas
        show c ∈ (s.j.nodeCells3 m .ALL).getD []
        rw [hl1]; exact hl2) k rev
  refine ⟨_, w', x, h1, by rw [h2]; simp, h5, by rw [h4]; simp, h7, fun c => ?_⟩
  rw [h6, cAll]
  constructor
  · rintro ⟨hc, hin⟩
    exact ⟨_, List.getElem?_eq_getElem hc, (regular_point_in_cell hd hb h (List.getElem?_eq_getElem hc) p).1 hin⟩
  · rintro ⟨cell, hc, hin⟩
    exact ⟨(List.getElem?_eq_some_iff.mp hc).1, (regular_point_in_cell hd hb h hc p).2 hin⟩

/-- a mesh on one rank without sets: `n` cells, `k` nodes, all of them owned -/
def freshWorld3 (n k : Nat) : World := ⟨fun q => ⟨fun e => if e < (if q = .NODE then k else n) then .PARALLEL_OWNED else .TYPE_UNKNOWN,
  if q = .NODE then k else n, 0⟩, [], []⟩

theorem fresh_freshWorld3 (n k : Nat) : Fresh (freshWorld3 n k) .CELL n := by
  refine ⟨rfl, rfl, fun e => ?_, fun e => ?_, rfl, rfl⟩
  · simp only [freshWorld3]; split <;> simp_all
  · simp only [freshWorld3]; split <;> split <;> simp

/-- 2 x 2 x 3 cells; the point is on the face between the cells 0 and 6: both of them, and not cell 1 -/
example : ∃ (s : Source ℝ) (a : Nat) (w' : World) (x : MSet.Obj),
    Reg.build (pointGeo s true) [regionOf ([], []) (.point ⟨"P", 1, 0, .PERMANENT⟩ (mk3 (1 / 2) (1 / 3) (1 / 2)))] 0 (freshWorld3 12 36) "P" .CELL true =
      .ok (some a, w') ∧ w'.heap[a]? = some x ∧ 0 ∈ MSet.entities x .ALL ∧ 6 ∈ MSet.entities x .ALL ∧ 1 ∉ MSet.entities x .ALL := by
  have hd : GoodDom (⟨0, 0, 0, 1, 2, 3, 2, 2, 3⟩ : Dom ℝ) := ⟨by norm_num, by norm_num, by norm_num, by norm_num, by norm_num, by norm_num⟩
  have hb : GoodBlk (⟨0, 0, 0, 1, 2, 3, 2, 2, 3⟩ : Dom ℝ) ⟨0, 0, 0, 2, 2, 3⟩ :=
    ⟨by norm_num, by norm_num, by norm_num, by norm_num, by norm_num, by norm_num⟩
  obtain ⟨s, g, r, h, hlen⟩ := regular_exists hd hb
  have hg : g = genOf _ _ := Option.some.inj (h.generated.symm.trans (generate_eq _ hd.nx hd.ny hd.nz hb.nx hb.ny hb.nz))
  have hcell : ∀ (c : Nat) (t : Nat × Nat × Nat), (loopIdx 2 2 3)[c]? = some t →
      g.regions[c]? = some (shifted (⟨0, 0, 0, 2, 2, 3⟩ : Blk) (RG (⟨0, 0, 0, 1, 2, 3, 2, 2, 3⟩ : Dom ℝ)) t) := by
    intro c t hc
    rw [hg]
    show ((loopIdx 2 2 3).map _)[c]? = _
    rw [List.getElem?_map, hc]; rfl
  obtain ⟨a, w', x, e1, e2, -, -, -, e3⟩ := regular_point_set hd hb h (by norm_num) (nm := "P") (id := 1) (p := mk3 (1 / 2) (1 / 3) (1 / 2))
    (lc := .PERMANENT) rfl rfl ⟨V _ 0 0 0, by
      rw [hg]; exact List.mem_map.mpr ⟨(0, 0, 0), by decide, rfl⟩, by simp [V, gridCoord, mk3]; norm_num⟩
    (gm := [regionOf ([], []) (.point ⟨"P", 1, 0, .PERMANENT⟩ (mk3 (1 / 2) (1 / 3) (1 / 2)))]) (n := "P") (lab := ([], []))
    (by simp [findRegion, regionOf, AnyRegion.name, AnyRegion.base]) (by simp [regionOf, AnyRegion.type])
    (w := freshWorld3 12 36) (hlen ▸ fresh_freshWorld3 12 36) (by rw [hg]; rfl) true 0 true
  refine ⟨s, a, w', x, e1, e2, (e3 0).2 ⟨_, hcell 0 (0, 0, 0) (by decide), ?_⟩, (e3 6).2 ⟨_, hcell 6 (1, 0, 0) (by decide), ?_⟩, fun hx => ?_⟩
  · refine ⟨_, _, rfl, rfl, ?_⟩
    norm_num [V, gridCoord, mk3]
  · refine ⟨_, _, rfl, rfl, ?_⟩
    norm_num [V, gridCoord, mk3]
  · obtain ⟨cell, hc, lo, hi, h1, h2, -, -, -, -, h3, -⟩ := (e3 1).1 hx
    rw [hcell 1 (0, 0, 1) (by decide)] at hc
    cases hc
    cases h1
    norm_num [V, gridCoord, mk3] at h3

end Jali.MstkGen
