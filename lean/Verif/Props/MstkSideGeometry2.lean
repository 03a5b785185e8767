import Verif.Proof.MstkSideGeometry2
import Verif.Props.MstkSideGeometry
import Verif.Props.CornerGeometry
/-
C134: volumes and normals of the sides and corners of MSTK meshes of polygons in the plane; C133 for corners.
-/
namespace Jali.Mstk
open Jali.Geom Jali.Geom.Point Jali.Geom.Spec Jali.Sides Jali.Sides.Spec

variable {s : Source ℝ} {r : MeshCache.Request}

/-- the cell of a face of MSTK, in two dimensions, is not a boundary ghost -/
def JMesh.Real2 (j : JMesh) (g : Fin j.m.nf) : Prop := j.bg = true → (j.m.face g).bndryGhost = false

theorem base_req : (s.base r).req = r := by
  unfold Source.base; split <;> rfl

theorem caches2 (h : s.Flat r) (hs : r.sides = true) {c : Types.Caches} {i : Info} (hc : Types.cacheExtra (s.base r) = some c)
    (hi : c.side = some i) : cacheSideInfo (Types.source (s.j.base2 r) c.types) = some i ∧
      Valid (Types.source (s.j.base2 r) c.types) ∧ Oriented (Types.source (s.j.base2 r) c.types) ∧
      NodesOk (Types.source (s.j.base2 r) c.types) := by
  rw [base_eq2 h] at hc
  obtain ⟨c', i', hc', hi', a, b, d, e⟩ := side_caches (mesh_ok2 s.j r h.made h.polygons h.cells) hs
  rw [hc] at hc'; cases hc'
  rw [hi] at hi'; cases hi'
  exact ⟨a, b, d, e⟩

theorem caches2_exist (h : s.Flat r) (hs : r.sides = true) : ∃ c i, Types.cacheExtra (s.base r) = some c ∧ c.side = some i := by
  rw [base_eq2 h]
  obtain ⟨c', i', hc', hi', _⟩ := side_caches (mesh_ok2 s.j r h.made h.polygons h.cells) hs
  exact ⟨c', i', hc', hi'⟩

theorem real_type2 (h : s.Flat r) {c : Types.Caches} (hc : Types.cacheExtra (s.base r) = some c) {cell : Nat} {g : Fin s.j.m.nf}
    (hr : (s.j.m.cmap s.j.bg).at cell = some g) (hreal : s.j.Real2 g) : ¬ c.types.cell[cell]? = some .BOUNDARY_GHOST := by
  rw [base_eq2 h] at hc
  obtain ⟨c', hc', _, ht, _⟩ := types_of_mesh2 s.j r h.made h.polygons h.cells
  rw [hc] at hc'; cases hc'
  have h0 : c.types.cell[cell]? = some (expected (s.j.m.face g).ptype (s.j.bg && (s.j.m.face g).bndryGhost)) := ht cell g hr
  rw [h0]
  unfold expected
  intro e
  have hb : (s.j.bg && (s.j.m.face g).bndryGhost) = false := by
    unfold JMesh.Real2 at hreal
    cases hb : s.j.bg
    · rfl
    · rw [hreal hb]; rfl
  rw [hb] at e
  split at e <;> cases e

/-! ### corners, in two and three dimensions -/

theorem sumWedges_congr {c : Types.Caches} {i : Info} {k : CornerInfo} (ws : List Nat) (v : ℝ)
    (key : ∀ w ∈ ws, s.wedgeVolume r c i k w = SideGeom.wedgeVolume (s.smesh r c i k) w) :
    s.sumWedges r c i k ws v = SideGeom.sumWedges (s.smesh r c i k) ws v := by
  induction ws generalizing v with
  | nil => rfl
  | cons w ws ih =>
    show (s.wedgeVolume r c i k w).bind _ = (SideGeom.wedgeVolume _ w).bind _
    rw [key w (List.mem_cons_self ..)]
    congr 1
    funext x
    exact ih (v + x) (fun w hw => key w (List.mem_cons_of_mem _ hw))

/-- a corner of a cell that is not a boundary ghost has the volume computed for it -/
theorem corner_volume_real {c : Types.Caches} {i : Info} {k : CornerInfo} (hs : r.sides = true) (hco : r.corners = true)
    (hv : Valid (Types.source (s.base r) c.types)) (hn : NodesOk (Types.source (s.base r) c.types))
    (hci : cacheSideInfo (Types.source (s.base r) c.types) = some i) (hck : cacheCornerInfo (Types.source (s.base r) c.types) i = some k)
    (hi : c.side = some i) (hk : c.corner = some k) {cn cell : Nat} (hcn : cornerGetCell i k cn = some cell)
    (hreal : ¬ c.types.cell[cell]? = some .BOUNDARY_GHOST) :
    s.cornerVolume r c i k cn = SideGeom.cornerVolume (s.smesh r c i k) cn := by
  obtain ⟨i', k', e', ek', h1, h2, h3, _⟩ := corners _ hv hn
  rw [hci] at e'; cases e'
  rw [hck] at ek'; cases ek'
  unfold cornerGetCell at hcn
  cases hws : k.cornerWedges[cn]? with
  | none => rw [hws] at hcn; cases hcn
  | some ws =>
    have hlt : cn < k.cornerWedges.length := by
      by_contra hge
      rw [List.getElem?_eq_none (by omega)] at hws; cases hws
    obtain ⟨cell', _, n, _, h4, h5⟩ := h1 cn hlt
    have hcell : cell' = cell := by
      unfold cornerGetCell at h4
      rw [h4] at hcn; exact Option.some.inj hcn
    subst hcell
    have hall := (h3 cn ws cell' n hws h4 h5).2
    rw [hws, Option.bind_some] at hcn
    cases hw0 : ws.head? with
    | none => rw [hw0] at hcn; cases hcn
    | some w0 =>
      have hmem : w0 ∈ ws := by
        cases ws with
        | nil => cases hw0
        | cons a l => cases hw0; exact List.mem_cons_self ..
      obtain ⟨⟨rec, hrec, hcell⟩, _⟩ := (hall w0).mp hmem
      have hrec' : i.side (w0 / 2) = some rec := hrec
      unfold Source.cornerVolume SideGeom.cornerVolume
      have ht : Types.entityGetType (s.base r) c .CORNER cn = c.types.cell[cell']? := by
        unfold Types.entityGetType
        dsimp only
        rw [base_req, if_pos hco, hk, Option.bind_some, hws, Option.bind_some, hw0, Option.bind_some]
        unfold Types.sideCell
        rw [hi, Option.bind_some, hrec', Option.map_some, Option.bind_some, hcell]
      rw [ht, if_neg hreal]
      show (k.cornerWedges[cn]?).bind _ = (k.cornerWedges[cn]?).bind _
      rw [hws, Option.bind_some, Option.bind_some]
      have key : ∀ w ∈ ws, s.wedgeVolume r c i k w = SideGeom.wedgeVolume (s.smesh r c i k) w := by
        intro w hw
        obtain ⟨⟨rec, hrec, hcell⟩, _⟩ := (hall w).mp hw
        unfold Source.wedgeVolume SideGeom.wedgeVolume Source.sideVolume SideGeom.sideVolume
        rw [side_geo_real hs hi (by rintro b rfl; exact base_req) (show i.side (w / 2) = some rec from hrec) (by rw [hcell]; exact hreal) k]
      exact sumWedges_congr ws 0 key

/-- the corners of a cell fill its sides -/
theorem corner_volumes_of {c : Types.Caches} {i : Info} {k : CornerInfo} (hs : r.sides = true) (hco : r.corners = true)
    (hS : SideGeom.Solid (Types.source (s.base r) c.types) s.j.loop (s.coords c.types) ∨
      SideGeom.Plane (Types.source (s.base r) c.types) (s.coords c.types))
    (hv : Valid (Types.source (s.base r) c.types)) (hn : NodesOk (Types.source (s.base r) c.types))
    (hci : cacheSideInfo (Types.source (s.base r) c.types) = some i) (hck : cacheCornerInfo (Types.source (s.base r) c.types) i = some k)
    (hi : c.side = some i) (hk : c.corner = some k) {cell : Nat} (hmem : cell ∈ (Types.source (s.base r) c.types).cells)
    (hreal : ¬ c.types.cell[cell]? = some .BOUNDARY_GHOST) :
    ∃ (lc ls : List Nat) (vc vs : List ℝ), k.cellCorners[cell]? = some lc ∧ i.cellGetSides cell = some ls ∧
      lc.map (s.cornerVolume r c i k) = vc.map some ∧ ls.map (s.sideVolume r c i k) = vs.map some ∧ vc.sum = vs.sum := by
  obtain ⟨i', k', e', ek', H⟩ := SideGeom.corner_volumes_sum _ s.j.loop _ hS hn
  rw [hci] at e'; cases e'
  rw [hck] at ek'; cases ek'
  obtain ⟨lc, ls, vc, vs, h1, h2, h3, h4, h5⟩ := H cell hmem
  refine ⟨lc, ls, vc, vs, h1, h2, ?_, ?_, h5⟩
  · rw [← h3]
    obtain ⟨i', k', e', ek', _, _, _, _, hl, _⟩ := corners _ hv hn
    rw [hci] at e'; cases e'
    rw [hck] at ek'; cases ek'
    obtain ⟨lc', hlc', _, hin⟩ := hl cell (hv.cells_lt cell hmem)
    rw [h1] at hlc'; cases hlc'
    exact List.map_congr_left fun cn hcn => corner_volume_real hs hco hv hn hci hck hi hk ((hin cn).mp hcn).2 hreal
  · rw [← h4]
    obtain ⟨i', e', _, _, _, _, hcs, _⟩ := sides_are_incidences _ hv
    rw [hci] at e'; cases e'
    obtain ⟨l', hl', _, hin⟩ := hcs cell (hv.cells_lt cell hmem)
    rw [h2] at hl'; cases hl'
    refine List.map_congr_left fun x hx => ?_
    obtain ⟨rec, hrec, hcell⟩ := (hin x).mp hx
    unfold Source.sideVolume SideGeom.sideVolume
    rw [side_geo_real hs hi (by rintro b rfl; exact base_req) hrec (by rw [hcell]; exact hreal) k]
    rfl

theorem corner_cache {b : Types.Base} (hw : Types.WellFormed b) {c : Types.Caches} {i : Info} (hc : Types.cacheExtra b = some c)
    (hi : c.side = some i) (hco : b.req.corners = true) (hs : b.req.sides = true) :
    ∃ k, c.corner = some k ∧ cacheCornerInfo (Types.source b c.types) i = some k := by
  obtain ⟨c', hc', _, hv, hside, _, hcor, _⟩ := Types.cacheExtra_ok b hw
  rw [hc] at hc'; cases hc'
  have hi' := ((hside i).mp hi).2
  obtain ⟨i', k, e, ek, _⟩ := corners _ (hv hs) (Types.nodesOk_source _ (hw.valid hs).2.2)
  rw [hi'] at e; cases e
  exact ⟨k, (hcor k).mpr ⟨hco, i, hi', ek⟩, ek⟩

/-- **C133** corners: the volumes of the corners of a cell of a mesh of polyhedra add up to the volumes of its sides -/
theorem corner_volumes_of_mesh (h : s.Solid r) (hs : r.sides = true) (hco : r.corners = true) {c : Types.Caches} {i : Info}
    (hc : Types.cacheExtra (s.base r) = some c) (hi : c.side = some i) {cell : Nat} {rg : Fin s.j.m.nr}
    (hr : (s.j.m.rmap s.j.bg).at cell = some rg) (hreal : s.j.Real3 rg) :
    ∃ (k : CornerInfo) (lc ls : List Nat) (vc vs : List ℝ), c.corner = some k ∧ k.cellCorners[cell]? = some lc ∧
      i.cellGetSides cell = some ls ∧ lc.map (s.cornerVolume r c i k) = vc.map some ∧ ls.map (s.sideVolume r c i k) = vs.map some ∧
      vc.sum = vs.sum := by
  obtain ⟨hci, hv, ho, hn⟩ := caches3 h hs hc hi
  have hreal' := real_type3 h hc hr hreal
  obtain ⟨k, hk, hck⟩ := corner_cache (by rw [base_eq3 h]; exact mesh_ok3 s.j r h.made h.polygons h.regions) hc hi
    (by rw [base_req]; exact hco) (by rw [base_req]; exact hs)
  have S := solid3 h hs c.types hv ho
  have hmem : cell ∈ (s.j.base3 r).cells.all := by
    rw [cells3_range]; exact List.mem_range.mpr ((s.j.m.rnum s.j.bg).lt_of_at hr)
  rw [← base_eq3 h] at hci hv hn S hmem
  exact ⟨k, by
    obtain ⟨lc, ls, vc, vs, H⟩ := corner_volumes_of hs hco (.inl S) hv hn hci hck hi hk hmem hreal'
    exact ⟨lc, ls, vc, vs, hk, H⟩⟩

/-! ### C134 -/

/-- **C134** a side of a cell lies over one edge of the cell; its volume is the area of the triangle of the edge and the centroid of the
cell, its normal that of the edge, as a face, with respect to the cell -/
theorem plane_side_of_mesh (h : s.Flat r) (hs : r.sides = true) (hfl : s.j.faceflip = s.j.edgeflip)
    (h3 : ∀ g, 3 ≤ (s.j.m.face g).edges.length) {c : Types.Caches} {i : Info} (hc : Types.cacheExtra (s.base r) = some c)
    (hi : c.side = some i) (k : CornerInfo) {x : Nat} {rec : Rec} (hx : i.side x = some rec) :
    ∃ (g : Fin s.j.m.nf) (p : Fin s.j.m.ne × Bool), (s.j.m.cmap s.j.bg).at rec.cell = some g ∧ p ∈ (s.j.m.face g).edges ∧
      s.j.m.emap.id p.1 - 1 = rec.face ∧ rec.edge = rec.face ∧
      (s.j.Real2 g →
        let A := s.place (s.j.m.start p)
        let B := s.place (s.j.m.finish p)
        let C := (s.coords c.types).cellCentroid rec.cell
        s.sideVolume r c i k x = some (|orient2 C A B| / 2) ∧
          s.sideNormal r c i k x = MeshGeom.faceNormal s.gmesh rec.face (some rec.cell) ∧
          s.sideNormal r c i k x = some (MeshGeom.edgeNormal A B)) := by
  obtain ⟨hci, hv, ho, hn⟩ := caches2 h hs hc hi
  obtain ⟨hf, he⟩ := closure_sides h.made.closed hs
  have S := plane2 h hs hfl h3 c.types hv
  obtain ⟨i', e', hok⟩ := cache_ok hv
  rw [hci] at e'; cases e'
  obtain ⟨v, hvis, rfl⟩ := hok.side_iff.1 hx
  have hst := SideGeom.plane_stored S hok k hvis
  have hm := mem_visits.1 (List.mem_of_getElem? hvis)
  obtain ⟨g, p, hg, hp, hpf, hpd⟩ := (hasFace2 h.ready _ _ _).mp hm.1
  have hedge : (v.edge, v.edir) ∈ (Types.shape (s.j.base2 r)).faceEdges v.face := hm.2
  rw [← hpf, faceEdges2_of h.ready (h.made.readyE he)] at hedge
  have ep1 := (Prod.mk.inj (List.mem_singleton.mp hedge)).1
  refine ⟨g, p, hg, hp, hpf, ep1.trans hpf, fun hreal => ?_⟩
  have hgeo := side_geo_real (s := s) (r := r) hs hi (by rintro b rfl; exact base_req) hx (real_type2 h hc hg hreal) k
  have hsm : s.smesh r c i k = SideGeom.ofCaches (Types.source (s.j.base2 r) c.types) i k (s.coords c.types) := by
    unfold Source.smesh; rw [base_eq2 h]
  rw [hsm] at hgeo
  dsimp only at hst
  have hue := used_edge2 (r := r) (h.made.readyE he) hfl c.types p
  rw [hpd, ← ep1] at hue
  have hue' : (if v.fdir = 1 then (Types.source (s.j.base2 r) c.types).edgeNodes v.edge
      else ((Types.source (s.j.base2 r) c.types).edgeNodes v.edge).swap) =
      (s.j.m.vmap.id (s.j.m.start p) - 1, s.j.m.vmap.id (s.j.m.finish p) - 1) := hue
  rw [hue'] at hst
  have hnode : ∀ u, (s.coords c.types).nodeCoord (s.j.m.vmap.id u - 1) = s.place u := node_place s (.inr h.space)
  dsimp only at hst
  rw [hnode, hnode] at hst
  have hnorm : s.sideNormal r c i k x = some (MeshGeom.edgeNormal (s.place (s.j.m.start p)) (s.place (s.j.m.finish p))) := by
    unfold Source.sideNormal; rw [hgeo, hst]; rfl
  refine ⟨?_, ?_, hnorm⟩
  · unfold Source.sideVolume
    rw [hgeo, hst, Option.map_some]
    dsimp only
    congr 3
    simp only [orient2, mkRec_cell]; ring
  · rw [hnorm, ← plane_normals_of_mesh h hg hp, hpf, mkRec_face, mkRec_cell]

/-- **C134** the sides of a cell that runs counter-clockwise around the average of its corners: no volume is negative, and they add up to
the area reported for the cell exactly if no edge runs clockwise seen from the centroid of the cell -/
theorem plane_sides_fill_cell (h : s.Flat r) (hs : r.sides = true) (hfl : s.j.faceflip = s.j.edgeflip)
    (h3 : ∀ g, 3 ≤ (s.j.m.face g).edges.length) {c : Types.Caches} {i : Info} (hc : Types.cacheExtra (s.base r) = some c)
    (hi : c.side = some i) (k : CornerInfo) {cell : Nat} {g : Fin s.j.m.nf} (hg : (s.j.m.cmap s.j.bg).at cell = some g)
    (hreal : s.j.Real2 g) (hst : StarShaped (s.corners g)) :
    ∃ (l : List Nat) (vs : List ℝ) (area : ℝ) (cen : Point), i.cellGetSides cell = some l ∧ l.map (s.sideVolume r c i k) = vs.map some ∧
      MeshGeom.computeCellGeometry s.gmesh cell = some (area, cen) ∧ (∀ v ∈ vs, 0 ≤ v) ∧
      (vs.sum = area ↔ ∀ p ∈ (s.j.m.face g).edges, 0 ≤ orient2 cen (s.place (s.j.m.start p)) (s.place (s.j.m.finish p))) := by
  obtain ⟨hci, hv, ho, hn⟩ := caches2 h hs hc hi
  have S := plane2 h hs hfl h3 c.types hv
  have hlt := (s.j.m.cnum s.j.bg).lt_of_at hg
  have hmem : cell ∈ (Types.source (s.j.base2 r) c.types).cells := by
    show cell ∈ (s.j.base2 r).cells.all
    rw [cells2_range]; exact List.mem_range.mpr hlt
  obtain ⟨i', e', hvol⟩ := SideGeom.sides_fill_cell_2d _ _ S
  rw [hci] at e'; cases e'
  obtain ⟨l, vs, hl, hvs, hpos, hsum⟩ := hvol k cell hmem
  obtain ⟨i', e', _, _, _, _, hcs, _⟩ := sides_are_incidences _ hv
  rw [hci] at e'; cases e'
  obtain ⟨l', hl', _, hin⟩ := hcs cell (hv.cells_lt cell hmem)
  rw [hl] at hl'; cases hl'
  obtain ⟨area, cen, hga, hA, _⟩ := area_of_mesh h hg (h3 g)
  have hcen : (s.coords c.types).cellCentroid cell = cen := by
    obtain ⟨l', hl'⟩ := cellGet_some2 h hg
    unfold Source.coords; dsimp only
    rw [hl', Option.bind_some]
    unfold Source.cellGeo
    rw [if_neg (real_type2 h hc hg hreal), hga]; rfl
  have hnodes : ((Types.source (s.j.base2 r) c.types).cellNodes cell).map (s.coords c.types).nodeCoord = s.corners g := by
    rw [cell_nodes2 hg, List.map_map]
    exact List.map_congr_left fun v _ => node_place s (.inr h.space) v
  rw [hnodes, hcen, ← (hA hst).2.1, corners_edges h.polygons] at hsum
  refine ⟨l, vs, area, cen, hl, ?_, hga, hpos, hsum.trans ⟨fun H p hp => ?_, fun H e he => ?_⟩⟩
  · rw [← hvs]
    refine List.map_congr_left fun x hx => ?_
    obtain ⟨rec, hrec, hcell⟩ := (hin x).mp hx
    unfold Source.sideVolume
    rw [side_geo_real (s := s) (r := r) hs hi (by rintro b rfl; exact base_req) hrec
      (real_type2 h hc (by rw [hcell]; exact hg) hreal) k]
    unfold Source.smesh; rw [base_eq2 h]
    rfl
  · exact H (s.place (s.j.m.start p), s.place (s.j.m.finish p)) (List.mem_map.mpr ⟨p, hp, rfl⟩)
  · obtain ⟨p, hp, rfl⟩ := List.mem_map.mp he
    exact H p hp

/-- **C134** the corners of a cell: a corner at node `n` of a cell that is star-shaped around its centroid is the quadrilateral of the node,
the middle of the edge to the next node, the centroid of the cell and the middle of the edge from the previous node, and its volume the
area of it -/
theorem plane_corner_of_mesh (h : s.Flat r) (hs : r.sides = true) (hco : r.corners = true) (hfl : s.j.faceflip = s.j.edgeflip)
    (h3 : ∀ g, 3 ≤ (s.j.m.face g).edges.length) {c : Types.Caches} {i : Info} (hc : Types.cacheExtra (s.base r) = some c)
    (hi : c.side = some i) : ∃ k, c.corner = some k ∧ ∀ (cn cell : Nat) (g : Fin s.j.m.nf), cornerGetCell i k cn = some cell →
      (s.j.m.cmap s.j.bg).at cell = some g → s.j.Real2 g →
      let C := (s.coords c.types).cellCentroid cell
      (∀ p ∈ (s.j.m.face g).edges, 0 < orient2 C (s.place (s.j.m.start p)) (s.place (s.j.m.finish p))) →
      ∃ (p q : Fin s.j.m.ne × Bool), p ∈ (s.j.m.face g).edges ∧ q ∈ (s.j.m.face g).edges ∧ s.j.m.start p = s.j.m.finish q ∧
        cornerGetNode (Types.source (s.base r) c.types) i k cn = some (s.j.m.vmap.id (s.j.m.start p) - 1) ∧
        let outline := [s.place (s.j.m.start p), SideGeom.Spec.mid2 (s.place (s.j.m.start p)) (s.place (s.j.m.finish p)), C,
          SideGeom.Spec.mid2 (s.place (s.j.m.start q)) (s.place (s.j.m.finish q))]
        SideGeom.cornerFacets2 (s.smesh r c i k) cn = some outline ∧
        s.cornerVolume r c i k cn = some (shoelace outline) ∧ 0 < shoelace outline := by
  obtain ⟨hci, hv, ho, hn⟩ := caches2 h hs hc hi
  obtain ⟨hf, he⟩ := closure_sides h.made.closed hs
  have E := h.made.readyE he
  have S := plane2 h hs hfl h3 c.types hv
  obtain ⟨k, hk, hck⟩ := corner_cache (by rw [base_eq2 h]; exact mesh_ok2 s.j r h.made h.polygons h.cells) hc hi
    (by rw [base_req]; exact hco) (by rw [base_req]; exact hs)
  refine ⟨k, hk, fun cn cell g hcell hg hreal hpos => ?_⟩
  have hnode : ∀ u, (s.coords c.types).nodeCoord (s.j.m.vmap.id u - 1) = s.place u := node_place s (.inr h.space)
  have hmid : ∀ cl f e, Incident (Types.source (s.j.base2 r) c.types) cl f e → (s.coords c.types).faceCentroid f =
      sdiv ((s.coords c.types).nodeCoord ((Types.source (s.j.base2 r) c.types).edgeNodes e).1 +
        (s.coords c.types).nodeCoord ((Types.source (s.j.base2 r) c.types).edgeNodes e).2) 2 := by
    rintro cl f e ⟨⟨d, hd⟩, ed, hed⟩
    obtain ⟨g', p, _, _, rfl, _⟩ := (hasFace2 h.ready cl f d).mp hd
    have hed' : (e, ed) ∈ (Types.shape (s.j.base2 r)).faceEdges (s.j.m.emap.id p.1 - 1) := hed
    rw [faceEdges2_of h.ready E] at hed'
    obtain rfl := (Prod.mk.inj (List.mem_singleton.mp hed')).1
    have hlt : s.j.m.emap.id p.1 - 1 < s.j.edgeflip.length := by rw [E.flips]; exact s.j.m.enum.id_lt p.1
    have hen : (Types.source (s.j.base2 r) c.types).edgeNodes (s.j.m.emap.id p.1 - 1) =
        (s.j.m.vmap.id (s.j.m.start (p.1, !s.j.edgeflip[s.j.m.emap.id p.1 - 1])) - 1,
          s.j.m.vmap.id (s.j.m.finish (p.1, !s.j.edgeflip[s.j.m.emap.id p.1 - 1])) - 1) := by
      show (s.j.edgeGetNodes (s.j.m.emap.id p.1 - 1)).getD (0, 0) = _
      rw [publicE E _ (s.j.m.enum.id_lt p.1), edgeNodes_eq s.j E p.1 _ (List.getElem?_eq_getElem hlt)]; rfl
    rw [hen]
    dsimp only
    rw [hnode, hnode, face_middle h c.types p.1 _ _ (by
      rw [gmesh_faceCoords2 h p.1, hfl, List.getElem?_eq_getElem hlt, Option.getD_some]
      show _ = [s.place (s.j.m.start (p.1, !s.j.edgeflip[s.j.m.emap.id p.1 - 1])), s.place (s.j.m.finish (p.1, !s.j.edgeflip[s.j.m.emap.id p.1 - 1]))]
      cases s.j.edgeflip[s.j.m.emap.id p.1 - 1] <;> rfl)]
    have hd := fun v => (place_d s (.inr h.space) v).trans h.space
    rw [SideGeom.edge_mid2 (hd _), add2 _ (hd _), smul2]
    norm_num [mk2]
    constructor <;> ring
  have hcw := hck
  rw [base_eq2 h] at hcw
  obtain ⟨i', k', e', ek', H⟩ := SideGeom.corner_outline_2d _ _ S hn hmid
  rw [hci] at e'; cases e'
  rw [hcw] at ek'; cases ek'
  have hlt' : cn < k.cornerWedges.length := by
    by_contra hge
    unfold cornerGetCell at hcell
    rw [List.getElem?_eq_none (by omega)] at hcell; cases hcell
  obtain ⟨i', k', e', ek', h1, _⟩ := corners _ hv hn
  rw [hci] at e'; cases e'
  rw [hcw] at ek'; cases ek'
  obtain ⟨cell', _, n, hnm, h4, h5⟩ := h1 cn hlt'
  rw [hcell] at h4; cases h4
  have hedges : polyEdges ((Types.source (s.j.base2 r) c.types).cellNodes cell) = (s.j.m.face g).edges.map fun p =>
      (s.j.m.vmap.id (s.j.m.start p) - 1, s.j.m.vmap.id (s.j.m.finish p) - 1) := by
    rw [cell_nodes2 hg, edges_map]
    have hw := walk_eq s.j.m h.polygons g
    rw [mfVertices_true] at hw
    have hw' : polyEdges ((s.j.m.face g).edges.map s.j.m.start) = (s.j.m.face g).edges.map fun p => (s.j.m.start p, s.j.m.finish p) := hw
    rw [hw', List.map_map]; rfl
  obtain ⟨a, b, outline, v, ha, hb, hout, hfac, hvol, hsh, hvpos⟩ := H cn cell n hcell h5 (by
    rw [hedges]
    intro e he
    obtain ⟨p, hp, rfl⟩ := List.mem_map.mp he
    dsimp only
    rw [hnode, hnode]
    exact hpos p hp)
  rw [hedges] at ha hb
  obtain ⟨p, hp, ep⟩ := List.mem_map.mp ha
  obtain ⟨q, hq, eq⟩ := List.mem_map.mp hb
  obtain ⟨ep1, ep2⟩ := Prod.mk.inj ep
  obtain ⟨eq1, eq2⟩ := Prod.mk.inj eq
  have hpq : s.j.m.start p = s.j.m.finish q := s.j.m.vnum.id_inj (ep1.trans eq2.symm)
  have hout' : outline = [s.place (s.j.m.start p), SideGeom.Spec.mid2 (s.place (s.j.m.start p)) (s.place (s.j.m.finish p)),
      (s.coords c.types).cellCentroid cell, SideGeom.Spec.mid2 (s.place (s.j.m.start q)) (s.place (s.j.m.finish q))] := by
    rw [hout, ← ep2, ← eq1, ← ep1, hnode, hnode, hnode, ← hpq]
  refine ⟨p, q, hp, hq, hpq, ?_, ?_⟩
  · rw [base_eq2 h, h5, ep1]
  · dsimp only
    rw [← hout']
    have hsm : s.smesh r c i k = SideGeom.ofCaches (Types.source (s.j.base2 r) c.types) i k (s.coords c.types) := by
      unfold Source.smesh; rw [base_eq2 h]
    refine ⟨by rw [hsm]; exact hfac, ?_, by rw [← hsh]; exact hvpos⟩
    rw [← base_eq2 h] at hv hn hci
    rw [corner_volume_real hs hco hv hn hci hck hi hk hcell (real_type2 h hc hg hreal), hsm, hvol, hsh]

end Jali.Mstk

/-! ### example: square and triangle; the common edge is flipped, as a face and as an edge -/
namespace Jali.Mstk
open Jali.Geom Jali.Geom.Point Jali.Geom.Spec Jali.Sides Jali.Sides.Spec

noncomputable abbrev kiteE : Source ℝ :=
  { kite 2 with j := { kiteJ with edgeflip := [false, true, false, false, false, false] } }

theorem kiteE_flat : kiteE.Flat (MeshCache.closure ⟨true, true, true, true, true⟩) where
  made := ⟨⟨_, rfl⟩, rfl, rfl, fun _ => rfl, fun _ => rfl⟩
  faces := rfl
  dim := rfl
  space := rfl
  polygons := (kite_flat 2).polygons
  cells := (kite_flat 2).cells

theorem kiteE_three : ∀ g : Fin 2, 3 ≤ (kiteMesh.face g).edges.length := by decide +kernel

theorem kiteE_square : ∃ cen, MeshGeom.computeCellGeometry kiteE.gmesh 0 = some (1, cen) ∧ cen.x = 1 / 2 ∧ cen.y = 1 / 2 := by
  have hst : StarShaped (kiteE.corners (0 : Fin 2)) := kite_star 2 (by norm_num) 0
  obtain ⟨area, cen, e, hA, _⟩ := area_of_mesh kiteE_flat (c := 0) (g := (0 : Fin 2)) kite_cells.1 (kiteE_three 0)
  obtain ⟨_, h1, h2, h3⟩ := hA hst
  have hc : kiteE.corners (0 : Fin 2) = [mk2 0 0, mk2 1 0, mk2 1 1, mk2 0 1] := (kite_corners 2).1
  rw [hc] at h1 h2 h3
  simp only [shoelace, momentX, momentY, mk2, polyEdges, List.rotate_cons_succ, List.rotate_zero, List.zip_cons_cons, List.cons_append,
    List.nil_append, List.zip_nil_right, List.map_cons, List.map_nil, List.sum_cons, List.sum_nil] at h1 h2 h3
  norm_num at h1 h2 h3
  subst h1
  refine ⟨cen, e, by linarith, by linarith⟩

theorem kiteE_seen (cen : Point) (hx : cen.x = 1 / 2) (hy : cen.y = 1 / 2) : ∀ p ∈ (kiteE.j.m.face (0 : Fin 2)).edges,
    0 < orient2 cen (kiteE.place (kiteE.j.m.start p)) (kiteE.place (kiteE.j.m.finish p)) := by
  intro p hp
  have hp' : p ∈ ([(0, true), (1, true), (2, true), (3, true)] : List (Fin 6 × Bool)) := hp
  simp only [List.mem_cons, List.not_mem_nil, or_false] at hp'
  rcases hp' with rfl | rfl | rfl | rfl
  · show 0 < orient2 cen (mk2 0 0) (mk2 1 0)
    simp only [orient2, mk2, hx, hy]; norm_num
  · show 0 < orient2 cen (mk2 1 0) (mk2 1 1)
    simp only [orient2, mk2, hx, hy]; norm_num
  · show 0 < orient2 cen (mk2 1 1) (mk2 0 1)
    simp only [orient2, mk2, hx, hy]; norm_num
  · show 0 < orient2 cen (mk2 0 1) (mk2 0 0)
    simp only [orient2, mk2, hx, hy]; norm_num

/-- the sides of the square fill it, and each of its corners has the area of its outline -/
example : ∃ (c : Types.Caches) (i : Info) (k : CornerInfo),
    Types.cacheExtra (kiteE.base (MeshCache.closure ⟨true, true, true, true, true⟩)) = some c ∧ c.side = some i ∧ c.corner = some k ∧
      (∃ (l : List Nat) (vs : List ℝ), i.cellGetSides 0 = some l ∧
        l.map (kiteE.sideVolume (MeshCache.closure ⟨true, true, true, true, true⟩) c i k) = vs.map some ∧ vs.sum = 1) ∧
      ∀ cn, cornerGetCell i k cn = some 0 → ∃ v, kiteE.cornerVolume (MeshCache.closure ⟨true, true, true, true, true⟩) c i k cn = some v ∧ 0 < v := by
  obtain ⟨c, i, hc, hi⟩ := caches2_exist kiteE_flat rfl
  obtain ⟨cen, e, hx, hy⟩ := kiteE_square
  obtain ⟨k, hk, hcor⟩ := plane_corner_of_mesh kiteE_flat rfl rfl rfl kiteE_three hc hi
  refine ⟨c, i, k, hc, hi, hk, ?_, ?_⟩
  · obtain ⟨l, vs, area, cen', h1, h2, h3, _, h5⟩ := plane_sides_fill_cell kiteE_flat rfl rfl kiteE_three hc hi k (cell := 0) (g := (0 : Fin 2))
      kite_cells.1 (by intro _; rfl) (kite_star 2 (by norm_num) 0)
    rw [e] at h3; cases h3
    exact ⟨l, vs, h1, h2, h5.mpr fun p hp => (kiteE_seen _ hx hy p hp).le⟩
  · intro cn hcn
    have hcen : (kiteE.coords c.types).cellCentroid 0 = cen := by
      obtain ⟨l', hl'⟩ := cellGet_some2 kiteE_flat (c := 0) (g := (0 : Fin 2)) kite_cells.1
      unfold Source.coords; dsimp only
      rw [hl', Option.bind_some]
      unfold Source.cellGeo
      rw [if_neg (real_type2 kiteE_flat hc (g := (0 : Fin 2)) kite_cells.1 (by intro _; rfl)), e]; rfl
    obtain ⟨p, q, _, _, _, _, _, hv, hpos⟩ := hcor cn 0 (0 : Fin 2) hcn kite_cells.1 (by intro _; rfl) (by
      rw [hcen]; exact kiteE_seen cen hx hy)
    exact ⟨_, hv, hpos⟩

end Jali.Mstk
