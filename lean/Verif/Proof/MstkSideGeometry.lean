import Verif.Model.MstkSideGeometry
import Verif.Props.MstkGeometry
import Verif.Props.MstkSides
import Verif.Props.SideGeometry
import Verif.Props.CornerGeometry
/-
An MSTK mesh of polyhedra meets what the theorems about sides, wedges and corners need, with the corners of a face taken in the order of
MSTK.
-/
namespace Jali.Mstk
open Jali.Geom Jali.Geom.Point Jali.Geom.Spec Jali.Sides Jali.Sides.Spec

variable {s : Source ℝ} {r : MeshCache.Request}

/-- the nodes of a face in the order of MSTK, whether or not the face is flipped -/
def JMesh.loop (j : JMesh) (f : Nat) : List Nat :=
  ((j.m.fmap.at f).map fun fh => ((j.m.face fh).edges.map j.m.start).map fun v => j.m.vmap.id v - 1).getD []

theorem node_place (s : Source ℝ) (h : s.spaceDim = 3 ∨ s.spaceDim = 2) (v : Fin s.j.m.nv) :
    s.gmesh.nodeCoord (s.j.m.vmap.id v - 1) = s.place v := by
  show ((s.nodeGet _).map asPoint).getD _ = _
  unfold Source.nodeGet
  rw [s.j.m.vnum.at_id, Option.bind_some, asPoint_pointAt s h, Option.getD_some]

theorem node_d (s : Source ℝ) (h : s.spaceDim = 3 ∨ s.spaceDim = 2) (n : Nat) : (s.gmesh.nodeCoord n).d = s.spaceDim := by
  show (((s.nodeGet n).map asPoint).getD _).d = _
  unfold Source.nodeGet
  cases s.j.m.vmap.at n with
  | none => rfl
  | some v => rw [Option.bind_some, asPoint_pointAt s h, Option.getD_some, place_d s h]

theorem polyhed_centroid_d (cc : List Point) (fs : List (List Point)) (hc : ∀ p ∈ cc, p.d = 3) (hf : ∀ f ∈ fs, ∀ p ∈ f, p.d = 3) :
    (polyhedVolCentroid cc (fs.map List.length) fs.flatten).2.d = 3 := by
  rcases Nat.lt_trichotomy cc.length 4 with h | h | h
  · unfold polyhedVolCentroid; rw [if_pos h]; rfl
  · unfold polyhedVolCentroid
    rw [if_neg (by omega), if_pos h]
    obtain ⟨a, b, c, d, rfl⟩ : ∃ a b c d, cc = [a, b, c, d] := by
      match cc, h with
      | [a, b, c, d], _ => exact ⟨a, b, c, d, rfl⟩
    have ha : a.d = 3 := hc a (by simp)
    show (sdiv (a + b + c + d) 4).d = 3
    rw [add3 _ ha]
    rw [add3 _ rfl]
    rw [add3 _ rfl]
    rw [sdiv, smul3]
  · rw [polyhed_loop cc fs h hf]

theorem faceGet_some (h : s.Solid r) (fh : Fin s.j.m.nf) : ∃ l, s.faceGet (s.j.m.fmap.id fh - 1) = some l := by
  have hlt : s.j.m.fmap.id fh - 1 < s.j.faceflip.length := by rw [h.ready.flips]; exact s.j.m.fnum.id_lt fh
  unfold Source.faceGet
  rw [if_pos h.ready.faces, if_pos h.dim, s.j.m.fnum.at_id fh, List.getElem?_eq_getElem hlt]
  have : ∀ v, ∃ x, s.pointAt v = some x := by
    intro v; unfold Source.pointAt; rw [if_pos (by rw [h.space])]; exact ⟨_, rfl⟩
  choose g hg using this
  exact ⟨_, mapM_total (g := g) fun v _ => hg v⟩

theorem cellGet_some (h : s.Solid r) {c : Nat} {rg : Fin s.j.m.nr} (hc : (s.j.m.rmap s.j.bg).at c = some rg) :
    ∃ l, s.cellGet c = some l := by
  unfold Source.cellGet
  rw [if_pos h.dim, hc]
  have : ∀ v, ∃ x, s.pointAt v = some x := by
    intro v; unfold Source.pointAt; rw [if_pos (by rw [h.space])]; exact ⟨_, rfl⟩
  choose g hg using this
  exact ⟨_, mapM_total (g := g) fun v _ => hg v⟩

theorem face_centroid_of (h : s.Solid r) (t : Types.TypeInfo) (fh : Fin s.j.m.nf) :
    (s.coords t).faceCentroid (s.j.m.fmap.id fh - 1) =
      (polygonAreaCentroidNormal (s.gmesh.faceCoords (s.j.m.fmap.id fh - 1))).centroid := by
  obtain ⟨l, hl⟩ := faceGet_some h fh
  show ((s.faceGet _).bind _).getD _ = _
  rw [hl, Option.bind_some]
  unfold MeshGeom.computeFaceGeometry
  dsimp only
  rw [if_pos (gmesh_dim3 h).1, MeshGeom.storeNormals_eq s.gmesh _ _ _ _ (listed h fh)]
  rfl

theorem face_corners_d (h : s.Solid r) (fh : Fin s.j.m.nf) :
    3 ≤ (s.gmesh.faceCoords (s.j.m.fmap.id fh - 1)).length ∧ ∀ p ∈ s.gmesh.faceCoords (s.j.m.fmap.id fh - 1), p.d = 3 := by
  obtain ⟨k, hk⟩ := oriented_rotated h (fh, true)
  have hd := outward_d h (fh, true)
  have hl := outward_length (s := s) (fh, true)
  unfold MeshGeom.orientedFace at hk
  split at hk
  · rw [hk]
    exact ⟨by rw [List.length_rotate, hl]; exact h.three fh, fun p hp => hd p (by simpa using hp)⟩
  · have hk' := congrArg List.reverse hk
    rw [List.reverse_reverse] at hk'
    dsimp only at hk'
    rw [hk']
    exact ⟨by rw [List.length_reverse, List.length_rotate, hl]; exact h.three fh, fun p hp => hd p (by simpa using hp)⟩

theorem cell_corners_d (h : s.Solid r) {c : Nat} {rg : Fin s.j.m.nr} (hc : (s.j.m.rmap s.j.bg).at c = some rg) :
    ∀ p ∈ s.gmesh.cellCoords c, p.d = 3 := by
  rw [gmesh_cellCoords h hc]
  intro p hp
  obtain ⟨v, _, rfl⟩ := List.mem_map.mp hp
  rw [place_d s (.inl h.space), h.space]

theorem face_centroid_d (h : s.Solid r) (t : Types.TypeInfo) (f : Nat) : ((s.coords t).faceCentroid f).d = 3 := by
  cases hf : s.j.m.fmap.at f with
  | none =>
    have : s.faceGet f = none := by
      unfold Source.faceGet; rw [if_pos h.ready.faces, if_pos h.dim, hf]; rfl
    unfold Source.coords; dsimp only
    rw [this]; exact h.space
  | some fh =>
    obtain rfl := s.j.m.fnum.at_iff.mp hf
    rw [face_centroid_of h]
    exact SideGeom.polygon_centroid_d _ (face_corners_d h fh).1 (face_corners_d h fh).2

theorem cell_geometry_eq (h : s.Solid r) (c : Nat) : MeshGeom.computeCellGeometry s.gmesh c =
    some (polyhedVolCentroid (s.gmesh.cellCoords c) (((s.gmesh.cellFaces c).map (MeshGeom.orientedFace s.gmesh)).map List.length)
      ((s.gmesh.cellFaces c).map (MeshGeom.orientedFace s.gmesh)).flatten) := by
  unfold MeshGeom.computeCellGeometry
  rw [if_pos (gmesh_dim3 h).1]

theorem cell_centroid_d (h : s.Solid r) (t : Types.TypeInfo) (c : Nat) : ((s.coords t).cellCentroid c).d = 3 := by
  unfold Source.coords; dsimp only
  cases hc : (s.j.m.rmap s.j.bg).at c with
  | none =>
    have : s.cellGet c = none := by
      unfold Source.cellGet; rw [if_pos h.dim, hc]; rfl
    rw [this]; exact h.space
  | some rg =>
    obtain ⟨l, hl⟩ := cellGet_some h hc
    rw [hl, Option.bind_some]
    unfold Source.cellGeo
    split
    · exact h.space
    · rw [cell_geometry_eq h, Option.map_some, Option.getD_some]
      refine polyhed_centroid_d _ _ (cell_corners_d h hc) ?_
      intro f hf p hp
      obtain ⟨fd, hfd, rfl⟩ := List.mem_map.mp hf
      rw [gmesh_cellFaces h hc] at hfd
      obtain ⟨q, _, rfl⟩ := List.mem_map.mp hfd
      obtain ⟨k, hk⟩ := oriented_rotated h q
      rw [hk] at hp
      exact outward_d h q p (by simpa using hp)

theorem base_eq3 (h : s.Solid r) : s.base r = s.j.base3 r := by
  unfold Source.base; rw [if_pos h.dim]

theorem used_edge3 (he : s.j.ReadyE) (t : Types.TypeInfo) (p : Fin s.j.m.ne × Bool) :
    SideGeom.Spec.usedEdge (Types.source (s.j.base3 r) t)
      (s.j.m.emap.id p.1 - 1, flipDir s.j.edgeflip (s.j.m.emap.id p.1 - 1) p.2) =
      (s.j.m.vmap.id (s.j.m.start p) - 1, s.j.m.vmap.id (s.j.m.finish p) - 1) := by
  have h0 := along_edge s.j he p
  unfold SideGeom.Spec.usedEdge
  show (if flipDir s.j.edgeflip (s.j.m.emap.id p.1 - 1) p.2 = 1 then (s.j.edgeGetNodes (s.j.m.emap.id p.1 - 1)).getD (0, 0)
    else ((s.j.edgeGetNodes (s.j.m.emap.id p.1 - 1)).getD (0, 0)).swap) = _
  rw [publicE he _ (s.j.m.enum.id_lt p.1)]
  unfold along at h0
  cases e : s.j.edgeNodes (s.j.m.emap.id p.1 - 1) with
  | none => rw [e] at h0; cases h0
  | some ab =>
    rw [e, Option.bind_some] at h0
    rw [Option.getD_some]
    rcases flipDir_unit s.j.edgeflip (s.j.m.emap.id p.1 - 1) p.2 with e1 | e1
    · rw [e1, if_pos rfl] at h0 ⊢
      exact Option.some.inj h0
    · rw [e1, if_neg (by decide)] at h0 ⊢
      rw [if_pos rfl] at h0
      exact Option.some.inj h0

/-- an MSTK mesh with sides is a solid mesh in the sense of the theorems about sides -/
theorem solid3 (h : s.Solid r) (hs : r.sides = true) (t : Types.TypeInfo) (hv : Valid (Types.source (s.j.base3 r) t))
    (ho : Oriented (Types.source (s.j.base3 r) t)) :
    SideGeom.Solid (Types.source (s.j.base3 r) t) s.j.loop (s.coords t) where
  valid := hv
  oriented := ho
  dim := rfl
  around := by
    obtain ⟨hf, he⟩ := closure_sides h.made.closed hs
    intro c f fd hface
    obtain ⟨rg, q, _, _, rfl, _⟩ := (hasFace3 h.ready c f fd).mp hface
    have e1 := faceEdges3_of (r := r) h.ready (h.made.readyE he) q.1
    have e2 : (Types.source (s.j.base3 r) t).faceEdges (s.j.m.fmap.id q.1 - 1) = _ := e1
    rw [e2, List.map_map]
    unfold JMesh.loop
    rw [s.j.m.fnum.at_id, Option.map_some, Option.getD_some, edges_map]
    have hw := walk_eq s.j.m h.polygons q.1
    rw [mfVertices_true] at hw
    have hw' : polyEdges ((s.j.m.face q.1).edges.map s.j.m.start) = (s.j.m.face q.1).edges.map fun p => (s.j.m.start p, s.j.m.finish p) := hw
    rw [hw', List.map_map]
    exact List.Perm.of_eq (List.map_congr_left fun p _ => used_edge3 (h.made.readyE he) t p)
  nodes n := by
    show (s.gmesh.nodeCoord n).d = 3
    rw [node_d s (.inl h.space), h.space]
  faces f := face_centroid_d h t f
  cells c := cell_centroid_d h t c

end Jali.Mstk
