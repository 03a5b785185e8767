import Verif.Proof.MstkSideGeometry
import Verif.Props.MstkGeometry2
/-
An MSTK mesh of polygons in the plane meets what the theorems about sides, wedges and corners need, provided that the faces and the edges,
which are the same entities of MSTK, are flipped alike.
-/
namespace Jali.Mstk
open Jali.Geom Jali.Geom.Point Jali.Geom.Spec Jali.Sides Jali.Sides.Spec

variable {s : Source ℝ} {r : MeshCache.Request}

theorem base_eq2 (h : s.Flat r) : s.base r = s.j.base2 r := by
  unfold Source.base; rw [if_neg (not_dim3 h)]

theorem used_edge2 (he : s.j.ReadyE) (hfl : s.j.faceflip = s.j.edgeflip) (t : Types.TypeInfo) (p : Fin s.j.m.ne × Bool) :
    (if flipDir s.j.faceflip (s.j.m.emap.id p.1 - 1) p.2 = 1 then (Types.source (s.j.base2 r) t).edgeNodes (s.j.m.emap.id p.1 - 1)
      else ((Types.source (s.j.base2 r) t).edgeNodes (s.j.m.emap.id p.1 - 1)).swap) =
      (s.j.m.vmap.id (s.j.m.start p) - 1, s.j.m.vmap.id (s.j.m.finish p) - 1) := by
  rw [hfl]
  exact used_edge3 (r := r) he t p

theorem centroid_d2 (l : List Point) (h2 : ∀ p ∈ l, p.d = 2) (h : 3 ≤ l.length) : (polygonAreaCentroidNormal l).centroid.d = 2 := by
  have hd := h2 _ (pt_zero_mem (show 0 < l.length by omega))
  rcases Nat.lt_or_ge 3 l.length with hl | hl
  · rw [polygon_loop l hl]
    simp only [hd, divAssign, mulAssign]
    exact foldl_addAssign_d _ _
  · have hl3 : l.length = 3 := by omega
    simp only [polygonAreaCentroidNormal, hl3, hd]
    exact (meanPoint2 l).1

theorem cell_geometry_eq2 (h : s.Flat r) {c : Nat} {g : Fin s.j.m.nf} (hc : (s.j.m.cmap s.j.bg).at c = some g) :
    MeshGeom.computeCellGeometry s.gmesh c =
      some ((polygonAreaCentroidNormal (s.corners g)).area, (polygonAreaCentroidNormal (s.corners g)).centroid) := by
  unfold MeshGeom.computeCellGeometry
  rw [if_neg (by rw [(gmesh_dim2 h).1]; decide), if_pos (gmesh_dim2 h).1, gmesh_cellCoords2 h hc]

theorem cellGet_some2 (h : s.Flat r) {c : Nat} {g : Fin s.j.m.nf} (hc : (s.j.m.cmap s.j.bg).at c = some g) :
    ∃ l, s.cellGet c = some l := by
  unfold Source.cellGet
  rw [if_neg (not_dim3 h), hc]
  have : ∀ v, ∃ x, s.pointAt v = some x := by
    intro v; unfold Source.pointAt; rw [if_pos (by rw [h.space]; decide)]; exact ⟨_, rfl⟩
  choose g hg using this
  exact ⟨_, mapM_total (g := g) fun v _ => hg v⟩

theorem cell_centroid_d2 (h : s.Flat r) (h3 : ∀ g, 3 ≤ (s.j.m.face g).edges.length) (t : Types.TypeInfo) (c : Nat) :
    ((s.coords t).cellCentroid c).d = 2 := by
  unfold Source.coords; dsimp only
  cases hc : (s.j.m.cmap s.j.bg).at c with
  | none =>
    have : s.cellGet c = none := by
      unfold Source.cellGet; rw [if_neg (not_dim3 h), hc]; rfl
    rw [this]; exact h.space
  | some g =>
    obtain ⟨l, hl⟩ := cellGet_some2 h hc
    rw [hl, Option.bind_some]
    unfold Source.cellGeo
    split
    · exact h.space
    · rw [cell_geometry_eq2 h hc, Option.map_some, Option.getD_some]
      refine centroid_d2 _ (corners_d2 h g) ?_
      have := h3 g
      simpa [Source.corners] using this

theorem cell_nodes2 {c : Nat} {g : Fin s.j.m.nf} (hc : (s.j.m.cmap s.j.bg).at c = some g) (t : Types.TypeInfo) :
    (Types.source (s.j.base2 r) t).cellNodes c = ((s.j.m.face g).edges.map s.j.m.start).map fun v => s.j.m.vmap.id v - 1 := by
  show (s.j.cellNodes2 c).getD [] = _
  unfold JMesh.cellNodes2
  rw [hc, Option.map_some, Option.getD_some, mfVertices_true]

theorem cell_faces2 (h : s.Flat r) {c : Nat} {g : Fin s.j.m.nf} (hc : (s.j.m.cmap s.j.bg).at c = some g) (t : Types.TypeInfo) :
    (Types.source (s.j.base2 r) t).cellFaces c = (s.j.m.face g).edges.map fun p =>
      (s.j.m.emap.id p.1 - 1, flipDir s.j.faceflip (s.j.m.emap.id p.1 - 1) p.2) := by
  show (s.j.cellGetFaces2 c).getD [] = _
  rw [(public2 h.ready).1 c ((s.j.m.cnum s.j.bg).lt_of_at hc), cellFaces2_eq h.ready hc, Option.getD_some]

/-- a plane MSTK mesh with sides is a plane mesh in the sense of the theorems about sides -/
theorem plane2 (h : s.Flat r) (hs : r.sides = true) (hfl : s.j.faceflip = s.j.edgeflip) (h3 : ∀ g, 3 ≤ (s.j.m.face g).edges.length)
    (t : Types.TypeInfo) (hv : Valid (Types.source (s.j.base2 r) t)) :
    SideGeom.Plane (Types.source (s.j.base2 r) t) (s.coords t) where
  valid := hv
  dim := rfl
  around := by
    obtain ⟨hf, he⟩ := closure_sides h.made.closed hs
    have E := h.made.readyE he
    intro c hc
    have hc' : c < s.j.m.nf := by
      have hc' : c ∈ (s.j.base2 r).cells.all := hc
      rw [cells2_range] at hc'; exact List.mem_range.mp hc'
    obtain ⟨g, hg⟩ := (s.j.m.cnum s.j.bg).at_some hc'
    unfold SideGeom.Spec.PlaneCell
    rw [cell_faces2 h hg, cell_nodes2 hg, edges_map, List.flatMap_map]
    have hw := walk_eq s.j.m h.polygons g
    rw [mfVertices_true] at hw
    have hw' : polyEdges ((s.j.m.face g).edges.map s.j.m.start) = (s.j.m.face g).edges.map fun p => (s.j.m.start p, s.j.m.finish p) := hw
    rw [hw', List.map_map]
    refine List.Perm.of_eq ?_
    generalize (s.j.m.face g).edges = l
    induction l with
    | nil => rfl
    | cons p l ih =>
      rw [List.flatMap_cons, List.map_cons, ih]
      have e1 : (Types.source (s.j.base2 r) t).faceEdges (s.j.m.emap.id p.1 - 1) = _ := faceEdges2_of (r := r) h.ready E p.1
      dsimp only
      rw [e1, List.map_cons, List.map_nil]
      dsimp only
      rw [used_edge2 E hfl]; rfl
  nodes n := by
    show (s.gmesh.nodeCoord n).d = 2
    rw [node_d s (.inr h.space), h.space]
  cells c := cell_centroid_d2 h h3 t c

theorem faceGet_some2 (h : s.Flat r) (e : Fin s.j.m.ne) : ∃ l, s.faceGet (s.j.m.emap.id e - 1) = some l := by
  have hlt : s.j.m.emap.id e - 1 < s.j.faceflip.length := by rw [h.ready.flips]; exact s.j.m.enum.id_lt e
  unfold Source.faceGet
  rw [if_pos h.ready.faces, if_neg (not_dim3 h), s.j.m.enum.at_id e, List.getElem?_eq_getElem hlt]
  have : ∀ v, ∃ x, s.pointAt v = some x := by
    intro v; unfold Source.pointAt; rw [if_pos (by rw [h.space]; decide)]; exact ⟨_, rfl⟩
  choose g hg using this
  dsimp only [Option.bind_some]
  split
  · exact ⟨_, mapM_total (g := g) fun v _ => hg v⟩
  · exact ⟨_, mapM_total (g := g) fun v _ => hg v⟩

/-- the centroid of a face is the middle of its edge -/
theorem face_middle (h : s.Flat r) (t : Types.TypeInfo) (e : Fin s.j.m.ne) (a b : Point)
    (hab : s.gmesh.faceCoords (s.j.m.emap.id e - 1) = [a, b]) :
    (s.coords t).faceCentroid (s.j.m.emap.id e - 1) = smul 0.5 (a + b) := by
  obtain ⟨l, hl⟩ := faceGet_some2 h e
  show ((s.faceGet _).bind _).getD _ = _
  rw [hl, Option.bind_some]
  unfold MeshGeom.computeFaceGeometry
  dsimp only
  rw [if_neg (by rw [(gmesh_dim2 h).1]; decide), if_pos (gmesh_dim2 h).1, if_pos (gmesh_dim2 h).2,
    MeshGeom.storeNormals_eq s.gmesh _ _ _ _ (listed2 h e), hab]
  rfl

end Jali.Mstk
