import Verif.Proof.MstkGeometry
/-
The queries of an MSTK mesh of polygons in the plane in terms of the MSTK mesh.
-/
namespace Jali.Mstk
open Jali.Geom Jali.Geom.Point Jali.Geom.Spec Jali.MeshGeom

variable {s : Source ℝ} {r : MeshCache.Request}

theorem Source.Flat.ready (h : s.Flat r) : s.j.Ready2 := h.made.ready h.faces

theorem gmesh_dim2 (h : s.Flat r) : s.gmesh.manifoldDim = 2 ∧ s.gmesh.spaceDim = 2 := by
  constructor
  · show (if s.dim3 then 3 else 2) = 2
    rw [h.dim]; rfl
  · exact h.space

theorem not_dim3 (h : s.Flat r) : ¬ s.dim3 = true := by rw [h.dim]; decide

theorem gmesh_cellFaces2 (h : s.Flat r) {c : Nat} {g : Fin s.j.m.nf} (hc : (s.j.m.cmap s.j.bg).at c = some g) :
    s.gmesh.cellFaces c = (s.j.m.face g).edges.map fun p =>
      (s.j.m.emap.id p.1 - 1, flipDir s.j.faceflip (s.j.m.emap.id p.1 - 1) p.2) := by
  show ((if s.dim3 then s.j.cellGetFaces3 c else s.j.cellGetFaces2 c)).getD [] = _
  rw [if_neg (not_dim3 h), (cached_connectivity2 s.j r h.made 2).1 h.faces c, cellFaces2_eq h.ready hc]
  rfl

theorem gmesh_faceCells2 (h : s.Flat r) {f c : Nat} (hf : f < s.j.m.ne) :
    c ∈ s.gmesh.faceCells f ↔ HasFst (s.j.cellFaces2 c) f := by
  obtain ⟨P, _⟩ := face_get_cells_of_mesh2 s.j r h.made h.faces h.cells f hf
  show c ∈ ((if s.dim3 then s.j.faceGetCells3 f .ALL else s.j.faceGetCells2 f .ALL).getD []).map Int.toNat ↔ _
  rw [if_neg (not_dim3 h), ← (cached_connectivity2 s.j r h.made 2).1 h.faces c]
  refine Iff.trans ?_ (P.allOk c)
  obtain ⟨l, hl, _, _, hnn⟩ := P.answers .ALL
  have hl' : s.j.faceGetCells2 f .ALL = some l := hl
  unfold Has
  rw [hl', Option.getD_some, List.mem_map]
  constructor
  · rintro ⟨x, hx, e⟩
    refine ⟨l, rfl, ?_⟩
    rw [← e, Int.toNat_of_nonneg (hnn x hx)]; exact hx
  · rintro ⟨l', e, hx⟩
    cases e
    exact ⟨_, hx, by simp⟩

theorem gmesh_faceCoords2 (h : s.Flat r) (e : Fin s.j.m.ne) :
    s.gmesh.faceCoords (s.j.m.emap.id e - 1) =
      if s.j.faceflip[s.j.m.emap.id e - 1]?.getD false then [s.place (s.j.m.edge e).v1, s.place (s.j.m.edge e).v0]
      else [s.place (s.j.m.edge e).v0, s.place (s.j.m.edge e).v1] := by
  have hlt : s.j.m.emap.id e - 1 < s.j.faceflip.length := by rw [h.ready.flips]; exact s.j.m.enum.id_lt e
  show ((s.faceGet (s.j.m.emap.id e - 1)).getD []).map asPoint = _
  unfold Source.faceGet
  rw [if_pos h.ready.faces, if_neg (not_dim3 h), s.j.m.enum.at_id e, List.getElem?_eq_getElem hlt]
  simp only [Option.bind_some, Option.getD_some]
  split
  · exact mapM_asPoint s (.inr h.space) [(s.j.m.edge e).v1, (s.j.m.edge e).v0]
  · exact mapM_asPoint s (.inr h.space) [(s.j.m.edge e).v0, (s.j.m.edge e).v1]

theorem gmesh_cellCoords2 (h : s.Flat r) {c : Nat} {g : Fin s.j.m.nf} (hc : (s.j.m.cmap s.j.bg).at c = some g) :
    s.gmesh.cellCoords c = s.corners g := by
  show ((s.cellGet c).getD []).map asPoint = _
  unfold Source.cellGet
  rw [if_neg (not_dim3 h), hc, Option.bind_some, mapM_asPoint s (.inr h.space) _, mfVertices_true]
  rfl

/-- a face of a cell in the direction of the cell runs from the start to the end of the edge, as the cell uses it -/
theorem oriented_edge (h : s.Flat r) (p : Fin s.j.m.ne × Bool) :
    orientedFace s.gmesh (s.j.m.emap.id p.1 - 1, flipDir s.j.faceflip (s.j.m.emap.id p.1 - 1) p.2) =
      [s.place (s.j.m.start p), s.place (s.j.m.finish p)] := by
  unfold orientedFace
  rw [gmesh_faceCoords2 h p.1]
  unfold flipDir MMesh.start MMesh.finish
  generalize s.j.faceflip[s.j.m.emap.id p.1 - 1]?.getD false = fl
  obtain ⟨e, d⟩ := p
  cases fl <;> cases d <;> simp [dirInt]

theorem good_face2 (h : s.Flat r) (e : Fin s.j.m.ne) : GoodFace s.gmesh (s.j.m.emap.id e - 1) := by
  refine .inr ⟨(gmesh_dim2 h).1, (gmesh_dim2 h).2, ?_, ?_⟩
  · rw [gmesh_faceCoords2 h e]; split <;> rfl
  · rw [gmesh_faceCoords2 h e]
    intro p hp
    have hd := fun v => (place_d s (.inr h.space) v).trans h.space
    split at hp <;> simp only [List.mem_cons, List.not_mem_nil, or_false] at hp <;> rcases hp with rfl | rfl <;> exact hd _

theorem cellFaces_nodup2 (h : s.Flat r) {c : Nat} {g : Fin s.j.m.nf} (hc : (s.j.m.cmap s.j.bg).at c = some g) :
    ((s.gmesh.cellFaces c).map Prod.fst).Nodup := by
  rw [gmesh_cellFaces2 h hc, List.map_map]
  have := nodup_map_id s.j.m.enum (h.polygons.noedge g)
  rw [List.map_map] at this
  exact this

theorem listed2 (h : s.Flat r) (e : Fin s.j.m.ne) : Listed s.gmesh (s.j.m.emap.id e - 1) := by
  intro c hc
  rw [gmesh_faceCells2 h (s.j.m.enum.id_lt e), hasFst_cellFaces2 h.ready] at hc
  obtain ⟨g, e', hg, hf, hm⟩ := hc
  rw [s.j.m.enum.at_id e] at hf
  cases hf
  obtain ⟨q, hq, e1⟩ := List.mem_map.mp hm
  have hmem : (s.j.m.emap.id q.1 - 1, flipDir s.j.faceflip (s.j.m.emap.id q.1 - 1) q.2) ∈ s.gmesh.cellFaces c := by
    rw [gmesh_cellFaces2 h hg]
    exact List.mem_map_of_mem hq
  have := faceDir_of_mem s.gmesh (cellFaces_nodup2 h hg) hmem
  rw [e1] at this
  rw [this]
  rcases flipDir_unit s.j.faceflip (s.j.m.emap.id e - 1) q.2 with e | e
  · exact .inl (congrArg some e)
  · exact .inr (congrArg some e)

theorem corners_edges (hp : s.j.m.Polygons) (g : Fin s.j.m.nf) : polyEdges (s.corners g) =
    (s.j.m.face g).edges.map fun p => (s.place (s.j.m.start p), s.place (s.j.m.finish p)) := by
  have hw := walk_eq s.j.m hp g
  rw [mfVertices_true] at hw
  have hw' : polyEdges ((s.j.m.face g).edges.map s.j.m.start) = (s.j.m.face g).edges.map fun p => (s.j.m.start p, s.j.m.finish p) := hw
  unfold Source.corners
  rw [edges_map, hw', List.map_map]; rfl

end Jali.Mstk
