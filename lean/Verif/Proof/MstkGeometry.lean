import Verif.Model.MstkGeometry
import Verif.Spec.MstkGeometry
import Verif.Props.MstkCoords
import Verif.Props.MstkFaceCells
import Verif.Props.MeshGeometry
/-
The queries of an MSTK mesh of polyhedra in terms of the MSTK mesh.
-/
namespace Jali.Mstk
open Jali.Geom Jali.Geom.Point Jali.Geom.Spec Jali.MeshGeom

theorem asPoint_pointAt (s : Source ℝ) (h : s.spaceDim = 3 ∨ s.spaceDim = 2) (v : Fin s.j.m.nv) :
    (s.pointAt v).map asPoint = some (s.place v) := by
  unfold Source.pointAt Source.place
  rcases h with h | h <;> rw [h] <;> simp [Xyz.toList, asPoint]

theorem mapM_asPoint (s : Source ℝ) (h : s.spaceDim = 3 ∨ s.spaceDim = 2) (l : List (Fin s.j.m.nv)) :
    ((l.mapM s.pointAt).getD []).map asPoint = l.map s.place := by
  have key : ∀ v, ∃ x, s.pointAt v = some x ∧ asPoint x = s.place v := by
    intro v
    have := asPoint_pointAt s h v
    cases e : s.pointAt v with
    | none => rw [e] at this; simp at this
    | some x => exact ⟨x, rfl, by rw [e] at this; simpa using this⟩
  choose g hg using key
  rw [mapM_total (g := g) (fun v _ => (hg v).1), Option.getD_some, List.map_map]
  exact List.map_congr_left fun v _ => (hg v).2

theorem place_d (s : Source ℝ) (h : s.spaceDim = 3 ∨ s.spaceDim = 2) (v : Fin s.j.m.nv) : (s.place v).d = s.spaceDim := by
  unfold Source.place
  rcases h with h | h <;> rw [h] <;> rfl

section Solid
variable {s : Source ℝ} {r : MeshCache.Request}

theorem Source.Solid.ready (h : s.Solid r) : s.j.Ready3 := h.made.ready h.faces

theorem gmesh_dim3 (h : s.Solid r) : s.gmesh.manifoldDim = 3 ∧ s.gmesh.spaceDim = 3 := by
  constructor
  · show (if s.dim3 then 3 else 2) = 3
    rw [h.dim]; rfl
  · exact h.space

theorem gmesh_cellFaces (h : s.Solid r) {c : Nat} {rg : Fin s.j.m.nr} (hc : (s.j.m.rmap s.j.bg).at c = some rg) :
    s.gmesh.cellFaces c = (s.j.m.region rg).faces.map fun q =>
      (s.j.m.fmap.id q.1 - 1, flipDir s.j.faceflip (s.j.m.fmap.id q.1 - 1) q.2) := by
  show ((if s.dim3 then s.j.cellGetFaces3 c else s.j.cellGetFaces2 c)).getD [] = _
  rw [h.dim, if_pos rfl, (cached_connectivity3 s.j r h.made).1 h.faces c, cellFaces3_eq h.ready hc]
  rfl

theorem gmesh_faceCells (h : s.Solid r) {f c : Nat} (hf : f < s.j.m.nf) :
    c ∈ s.gmesh.faceCells f ↔ HasFst (s.j.cellFaces3 c) f := by
  obtain ⟨P, _⟩ := face_get_cells_of_mesh3 s.j r h.made h.faces h.regions f hf
  show c ∈ ((if s.dim3 then s.j.faceGetCells3 f .ALL else s.j.faceGetCells2 f .ALL).getD []).map Int.toNat ↔ _
  rw [h.dim, if_pos rfl, ← (cached_connectivity3 s.j r h.made).1 h.faces c]
  refine Iff.trans ?_ (P.allOk c)
  obtain ⟨l, hl, _, _, hnn⟩ := P.answers .ALL
  have hl' : s.j.faceGetCells3 f .ALL = some l := hl
  unfold Has
  rw [hl', Option.getD_some, List.mem_map]
  constructor
  · rintro ⟨x, hx, e⟩
    refine ⟨l, rfl, ?_⟩
    rw [← e, Int.toNat_of_nonneg (hnn x hx)]; exact hx
  · rintro ⟨l', e, hx⟩
    cases e
    exact ⟨_, hx, by simp⟩

/-- the corners of a face in the order of `face_get_coordinates` -/
theorem gmesh_faceCoords (h : s.Solid r) (fh : Fin s.j.m.nf) :
    s.gmesh.faceCoords (s.j.m.fmap.id fh - 1) =
      (s.j.m.mfVertices (s.j.m.face fh) (!(s.j.faceflip[s.j.m.fmap.id fh - 1]?.getD false))).map s.place := by
  have hlt : s.j.m.fmap.id fh - 1 < s.j.faceflip.length := by rw [h.ready.flips]; exact s.j.m.fnum.id_lt fh
  show ((s.faceGet (s.j.m.fmap.id fh - 1)).getD []).map asPoint = _
  unfold Source.faceGet
  rw [if_pos h.ready.faces, if_pos h.dim, s.j.m.fnum.at_id fh, List.getElem?_eq_getElem hlt]
  exact mapM_asPoint s (.inl h.space) _

theorem gmesh_cellCoords (h : s.Solid r) {c : Nat} {rg : Fin s.j.m.nr} (hc : (s.j.m.rmap s.j.bg).at c = some rg) :
    s.gmesh.cellCoords c = (s.j.m.mrVertices (s.j.m.region rg)).map s.place := by
  show ((s.cellGet c).getD []).map asPoint = _
  unfold Source.cellGet
  rw [if_pos h.dim, hc]
  exact mapM_asPoint s (.inl h.space) _

/-- a face as taken by `compute_cell_geometry` is the face as seen from the region, perhaps started at another corner -/
theorem oriented_rotated (h : s.Solid r) (q : Fin s.j.m.nf × Bool) : ∃ k,
    orientedFace s.gmesh (s.j.m.fmap.id q.1 - 1, flipDir s.j.faceflip (s.j.m.fmap.id q.1 - 1) q.2) = (s.outward q).rotate k := by
  unfold orientedFace
  rw [gmesh_faceCoords h q.1]
  unfold flipDir Source.outward Source.corners
  have hrot : (s.j.m.face q.1).edges.map s.j.m.finish = ((s.j.m.face q.1).edges.map s.j.m.start).rotate 1 := h.polygons.closed q.1
  generalize s.j.faceflip[s.j.m.fmap.id q.1 - 1]?.getD false = fl
  obtain ⟨f, d⟩ := q
  have hrev : ∀ l : List Point, ∃ k, (l.rotate 1).reverse = l.reverse.rotate k := by
    intro l
    exact ⟨l.length - 1 % l.length, by rw [List.reverse_rotate]⟩
  cases fl <;> cases d
  · exact ⟨0, by simp [mfVertices_true, dirInt]⟩
  · exact ⟨0, by simp [mfVertices_true, dirInt]⟩
  · obtain ⟨k, hk⟩ := hrev (((s.j.m.face f).edges.map s.j.m.start).map s.place)
    refine ⟨k, ?_⟩
    rw [if_pos (by simp [dirInt])]
    show (s.j.m.mfVertices (s.j.m.face f) false).map s.place = _
    rw [mfVertices_false, hrot, List.map_reverse, List.map_rotate, hk]; rfl
  · refine ⟨1, ?_⟩
    rw [if_neg (by simp [dirInt])]
    show ((s.j.m.mfVertices (s.j.m.face f) false).map s.place).reverse = _
    rw [mfVertices_false, hrot, List.map_reverse, List.reverse_reverse, List.map_rotate]; rfl

theorem outward_length (q : Fin s.j.m.nf × Bool) : (s.outward q).length = (s.j.m.face q.1).edges.length := by
  unfold Source.outward Source.corners
  split <;> simp

theorem outward_d (h : s.Solid r) (q : Fin s.j.m.nf × Bool) : ∀ p ∈ s.outward q, p.d = 3 := by
  unfold Source.outward Source.corners
  intro p hp
  have : p ∈ ((s.j.m.face q.1).edges.map s.j.m.start).map s.place := by
    split at hp
    · exact hp
    · exact List.mem_reverse.mp hp
  obtain ⟨v, _, rfl⟩ := List.mem_map.mp this
  rw [place_d s (.inl h.space), h.space]

theorem good_face (h : s.Solid r) (fh : Fin s.j.m.nf) : GoodFace s.gmesh (s.j.m.fmap.id fh - 1) := by
  refine .inl ⟨(gmesh_dim3 h).1, (gmesh_dim3 h).2, ?_, ?_⟩
  · rw [gmesh_faceCoords h fh, List.length_map]
    have := h.three fh
    cases s.j.faceflip[s.j.m.fmap.id fh - 1]?.getD false
    · show 3 ≤ (s.j.m.mfVertices (s.j.m.face fh) true).length
      rw [mfVertices_true]; simpa
    · show 3 ≤ (s.j.m.mfVertices (s.j.m.face fh) false).length
      rw [mfVertices_false]; simpa
  · rw [gmesh_faceCoords h fh]
    intro p hp
    obtain ⟨v, _, rfl⟩ := List.mem_map.mp hp
    rw [place_d s (.inl h.space), h.space]

theorem cellFaces_nodup (h : s.Solid r) {c : Nat} {rg : Fin s.j.m.nr} (hc : (s.j.m.rmap s.j.bg).at c = some rg) :
    ((s.gmesh.cellFaces c).map Prod.fst).Nodup := by
  rw [gmesh_cellFaces h hc, List.map_map]
  have := nodup_map_id s.j.m.fnum (h.regions.noface rg)
  rw [List.map_map] at this
  exact this

theorem listed (h : s.Solid r) (fh : Fin s.j.m.nf) : Listed s.gmesh (s.j.m.fmap.id fh - 1) := by
  intro c hc
  rw [gmesh_faceCells h (s.j.m.fnum.id_lt fh), hasFst_cellFaces3 h.ready] at hc
  obtain ⟨rg, fh', hrg, hf, hm⟩ := hc
  rw [s.j.m.fnum.at_id fh] at hf
  cases hf
  obtain ⟨q, hq, e⟩ := List.mem_map.mp hm
  have hmem : (s.j.m.fmap.id q.1 - 1, flipDir s.j.faceflip (s.j.m.fmap.id q.1 - 1) q.2) ∈ s.gmesh.cellFaces c := by
    rw [gmesh_cellFaces h hrg]
    exact List.mem_map_of_mem hq
  have := faceDir_of_mem s.gmesh (cellFaces_nodup h hrg) hmem
  rw [e] at this
  rw [this]
  rcases flipDir_unit s.j.faceflip (s.j.m.fmap.id fh - 1) q.2 with e | e
  · exact .inl (congrArg some e)
  · exact .inr (congrArg some e)

theorem good_cell (h : s.Solid r) {c : Nat} {rg : Fin s.j.m.nr} (hc : (s.j.m.rmap s.j.bg).at c = some rg) : GoodCell s.gmesh c where
  dim := (gmesh_dim3 h).1
  face := by
    intro fd hfd
    rw [gmesh_cellFaces h hc] at hfd
    obtain ⟨q, hq, rfl⟩ := List.mem_map.mp hfd
    refine ⟨good_face h q.1, listed h q.1, ?_, flipDir_unit _ _ _⟩
    rw [gmesh_faceCells h (s.j.m.fnum.id_lt q.1), hasFst_cellFaces3 h.ready]
    exact ⟨rg, q.1, hc, s.j.m.fnum.at_id q.1, List.mem_map_of_mem hq⟩
  nodup := cellFaces_nodup h hc

/-- the edges of the surface of a region, walked with the region on the left -/
theorem outward_edges (hp : s.j.m.Polygons) (q : Fin s.j.m.nf × Bool) : (polyEdges (s.outward q)).Perm
    (((s.j.m.face q.1).edges.map fun p => (p.1, p.2 == q.2)).map fun u => (s.place (s.j.m.start u), s.place (s.j.m.finish u))) := by
  have hw := walk_eq s.j.m hp q.1
  rw [mfVertices_true] at hw
  have hw' : polyEdges ((s.j.m.face q.1).edges.map s.j.m.start) = (s.j.m.face q.1).edges.map fun p => (s.j.m.start p, s.j.m.finish p) := hw
  unfold Source.outward Source.corners
  obtain ⟨f, d⟩ := q
  cases d
  · refine (edges_reverse _).trans ?_
    rw [edges_map, hw', List.map_map, List.map_map, List.map_map]
    refine List.Perm.of_eq (List.map_congr_left fun p _ => ?_)
    obtain ⟨e, b⟩ := p
    cases b <;> rfl
  · rw [if_pos rfl, edges_map, hw', List.map_map, List.map_map]
    refine List.Perm.of_eq (List.map_congr_left fun p _ => ?_)
    obtain ⟨e, b⟩ := p
    cases b <;> rfl

theorem surface_closed (hp : s.j.m.Polygons) (rg : Fin s.j.m.nr) (hw : s.j.m.Watertight (s.j.m.region rg)) : Closed (s.surface rg) := by
  have key : ((s.surface rg).flatMap polyEdges).Perm
      ((s.j.m.edgeUses (s.j.m.region rg)).map fun u => (s.place (s.j.m.start u), s.place (s.j.m.finish u))) := by
    unfold Source.surface MMesh.edgeUses
    rw [List.flatMap_map, List.map_flatMap]
    exact List.Perm.flatMap_left _ fun q _ => outward_edges hp q
  unfold Closed
  refine (key.map Prod.swap).trans (List.Perm.trans ?_ key.symm)
  refine List.Perm.trans (List.Perm.of_eq ?_) (hw.map _)
  rw [List.map_map, List.map_map]
  refine List.map_congr_left fun u _ => ?_
  obtain ⟨e, b⟩ := u
  cases b <;> rfl

theorem closed_rotated {fs gs : List (List Point)} (h : List.Forall₂ (fun f g => ∃ k, f = g.rotate k) fs gs) (hc : Closed gs) :
    Closed fs := by
  have : (fs.flatMap polyEdges).Perm (gs.flatMap polyEdges) := by
    clear hc
    induction h with
    | nil => exact List.Perm.refl _
    | cons hk _ ih =>
      obtain ⟨k, rfl⟩ := hk
      simp only [List.flatMap_cons]
      exact (edges_rotate _ k).append ih
  exact ((this.map Prod.swap).trans hc).trans this.symm

theorem oriented_surface (h : s.Solid r) {c : Nat} {rg : Fin s.j.m.nr} (hc : (s.j.m.rmap s.j.bg).at c = some rg) :
    List.Forall₂ (fun f g => ∃ k, f = g.rotate k) ((s.gmesh.cellFaces c).map (orientedFace s.gmesh)) (s.surface rg) := by
  rw [gmesh_cellFaces h hc, List.map_map]
  unfold Source.surface
  rw [List.forall₂_map_left_iff, List.forall₂_map_right_iff]
  exact List.forall₂_same.mpr fun q _ => oriented_rotated h q

end Solid
end Jali.Mstk

/-! ### faces started at another corner, and turned around -/
namespace Jali.Mstk
open Jali.Geom Jali.Geom.Point Jali.Geom.Spec Jali.MeshGeom

theorem vertexMean_perm {l l' : List Point} (h : l.Perm l') (d : Nat) : vertexMean d l = vertexMean d l' := by
  simp only [vertexMean, mean, List.length_map, (h.map Point.x).sum_eq, (h.map Point.y).sum_eq, (h.map Point.z).sum_eq, h.length_eq]

/-- a function of triangles that does not depend on the first corner -/
theorem facets_rotate {β : Type} (g : Point × Point × Point → β) (hg : ∀ a b c, g (a, b, c) = g (b, c, a)) (l : List Point) (k : Nat) :
    ((facets (l.rotate k)).map g).Perm ((facets l).map g) := by
  by_cases hl : l.length = 3
  · obtain ⟨a, b, c, rfl⟩ := List.length_eq_three.mp hl
    rw [← List.rotate_mod]
    have : k % [a, b, c].length < 3 := Nat.mod_lt _ (by simp)
    generalize k % [a, b, c].length = i at this
    match i, this with
    | 0, _ => exact List.Perm.refl _
    | 1, _ => exact List.Perm.of_eq (by show [g (b, c, a)] = [g (a, b, c)]; rw [hg a b c])
    | 2, _ => exact List.Perm.of_eq (by show [g (c, a, b)] = [g (a, b, c)]; rw [hg a b c, hg b c a])
  · rw [facets_other _ (by rw [List.length_rotate]; exact hl), facets_other _ hl, vertexMean_perm (List.rotate_perm l k)]
    rw [List.map_map, List.map_map]
    exact (edges_rotate l k).map _

/-- a function of triangles that changes its sign if two corners are exchanged -/
theorem facets_reverse (g : Point × Point × Point → ℝ) (hg : ∀ a b c, g (a, b, c) = g (b, c, a))
    (hs : ∀ a b c, g (b, a, c) = - g (a, b, c)) (l : List Point) :
    ((facets l.reverse).map g).sum = - ((facets l).map g).sum := by
  by_cases hl : l.length = 3
  · obtain ⟨a, b, c, rfl⟩ := List.length_eq_three.mp hl
    show ([g (c, b, a)]).sum = - [g (a, b, c)].sum
    rw [List.sum_singleton, List.sum_singleton, hg c b a, hs, ]
  · rw [facets_other _ (by rw [List.length_reverse]; exact hl), facets_other _ hl, vertexMean_perm (List.reverse_perm l)]
    rw [List.map_map, List.map_map, ((edges_reverse l).map _).sum_eq, List.map_map, ← sum_map_neg]
    refine sum_map_congr _ _ _ fun e _ => ?_
    exact hs e.1 e.2 _

theorem facets_reverse_pos (o : Point) : ∀ a b c, tetVol o a b c = tetVol o b c a := by
  intro a b c; simp only [tetVol, det3, vec]; ring

theorem rotated_flatMap {β : Type} (g : Point × Point × Point → β) (hg : ∀ a b c, g (a, b, c) = g (b, c, a)) {fs gs : List (List Point)}
    (h : List.Forall₂ (fun f g => ∃ k, f = g.rotate k) fs gs) : ((fs.flatMap facets).map g).Perm ((gs.flatMap facets).map g) := by
  induction h with
  | nil => exact List.Perm.refl _
  | cons hk _ ih =>
    obtain ⟨k, rfl⟩ := hk
    simp only [List.flatMap_cons, List.map_append]
    exact (facets_rotate g hg _ k).append ih

theorem volumeFrom_rotated {fs gs : List (List Point)} (h : List.Forall₂ (fun f g => ∃ k, f = g.rotate k) fs gs) (o : Point) :
    volumeFrom o fs = volumeFrom o gs :=
  (rotated_flatMap (fun t => tetVol o t.1 t.2.1 t.2.2) (fun a b c => facets_reverse_pos o a b c) h).sum_eq

theorem momentFrom_rotated {fs gs : List (List Point)} (h : List.Forall₂ (fun f g => ∃ k, f = g.rotate k) fs gs) (p : Point → ℝ)
    (o : Point) : momentFrom p o fs = momentFrom p o gs :=
  (rotated_flatMap (fun t => tetVol o t.1 t.2.1 t.2.2 * ((p o + p t.1 + p t.2.1 + p t.2.2) / 4))
    (fun a b c => by show tetVol o a b c * _ = tetVol o b c a * _; rw [facets_reverse_pos o a b c]; ring) h).sum_eq

theorem starShaped_rotated {fs gs : List (List Point)} (h : List.Forall₂ (fun f g => ∃ k, f = g.rotate k) fs gs) (cc : List Point) :
    StarShaped3 cc fs ↔ StarShaped3 cc gs := by
  have hp := rotated_flatMap (fun t => tetVol (vertexMean 3 cc) t.1 t.2.1 t.2.2) (fun a b c => facets_reverse_pos _ a b c) h
  have key : ∀ fs : List (List Point), StarShaped3 cc fs ↔
      ∀ x ∈ (fs.flatMap facets).map fun t => tetVol (vertexMean 3 cc) t.1 t.2.1 t.2.2, 0 < x := by
    intro fs
    unfold StarShaped3
    simp only [List.mem_map, List.mem_flatMap]
    constructor
    · rintro h x ⟨t, ⟨f, hf, ht⟩, rfl⟩; exact h f hf t ht
    · intro h f hf t ht; exact h _ ⟨t, ⟨f, hf, ht⟩, rfl⟩
  rw [key, key]
  exact ⟨fun hx x hm => hx x (hp.mem_iff.mpr hm), fun hx x hm => hx x (hp.mem_iff.mp hm)⟩

end Jali.Mstk

/-! ### entities used from one or two sides -/
namespace Jali.Mstk
open Jali.Geom

/-- of the entities used by cells, those with a cell on one side only, with the side -/
def oneSided {β : Type} [DecidableEq β] {n : Nat} (uses : Fin n → List (β × Bool)) : List (β × Bool) :=
  ((List.finRange n).flatMap uses).filter fun q => ¬ ∃ c, (q.1, !q.2) ∈ uses c

/-- what changes sign with the side cancels if it is summed over all cells -/
theorem oneSided_sum {β : Type} [DecidableEq β] {n : Nat} (uses : Fin n → List (β × Bool)) (hnd : ∀ c, (uses c).Nodup)
    (hs : ∀ q c c', q ∈ uses c → q ∈ uses c' → c = c') (φ : β × Bool → ℝ) (hφ : ∀ f d, φ (f, !d) = - φ (f, d)) :
    ((List.finRange n).map fun c => ((uses c).map φ).sum).sum = ((oneSided uses).map φ).sum := by
  rw [← sum_flatMap]
  unfold oneSided
  set U := (List.finRange n).flatMap uses with hU
  have hnd : U.Nodup := by
    rw [hU, List.nodup_flatMap]
    refine ⟨fun c _ => hnd c, (List.nodup_finRange _).pairwise_of_forall_ne ?_⟩
    intro a _ b _ hab q ha hb
    exact hab (hs _ _ _ ha hb)
  have hmem : ∀ q, q ∈ U ↔ ∃ c, q ∈ uses c := by
    intro q; rw [hU, List.mem_flatMap]; simp
  set I := U.filter fun q => ∃ c, (q.1, !q.2) ∈ uses c with hI
  have hsplit : (U.map φ).sum = (I.map φ).sum + ((U.filter fun q => ¬ ∃ c, (q.1, !q.2) ∈ uses c).map φ).sum := by
    have := (List.filter_append_perm (fun q : β × Bool => decide (∃ c, (q.1, !q.2) ∈ uses c)) U)
    rw [← (this.map φ).sum_eq, List.map_append, List.sum_append]
    refine congrArg₂ (· + ·) rfl ?_
    refine congrArg (fun l => (List.map φ l).sum) (List.filter_congr fun q _ => ?_)
    by_cases hq : ∃ c, (q.1, !q.2) ∈ uses c <;> simp [hq]
  have hflip : (I.map fun q => (q.1, !q.2)).Perm I := by
    have hIn : I.Nodup := hnd.filter _
    refine (List.perm_ext_iff_of_nodup ?_ hIn).mpr ?_
    · refine hIn.map ?_
      rintro ⟨f, d⟩ ⟨f', d'⟩ e
      simpa using e
    · rintro ⟨f, d⟩
      simp only [hI, List.mem_map, List.mem_filter, hmem, decide_eq_true_eq]
      constructor
      · rintro ⟨⟨f', d'⟩, ⟨h1, h2⟩, e⟩
        obtain ⟨rfl, rfl⟩ := Prod.mk.inj e
        exact ⟨h2, by simpa using h1⟩
      · rintro ⟨h1, h2⟩
        exact ⟨(f, !d), ⟨h2, by simpa using h1⟩, by simp⟩
  have hzero : (I.map φ).sum = 0 := by
    have h1 := (hflip.map φ).sum_eq
    rw [List.map_map, sum_map_congr I (φ ∘ fun q => (q.1, !q.2)) (fun q => - φ q) (fun q _ => hφ q.1 q.2), sum_map_neg] at h1
    linarith
  rw [hsplit, hzero, zero_add]

/-- all cells, by ids and by handles -/
theorem range_perm_ids {n : Nat} {im : IdMap n} {L : List (Fin n)} (N : Numbered im L) :
    (List.range n).Perm ((List.finRange n).map fun v => im.id v - 1) := by
  refine (List.perm_ext_iff_of_nodup List.nodup_range (nodup_map_id N (List.nodup_finRange _))).mpr fun c => ?_
  rw [mem_map_id N, List.mem_range]
  constructor
  · intro hc; obtain ⟨rg, hrg⟩ := N.at_some hc; exact ⟨rg, hrg, by simp⟩
  · rintro ⟨rg, hrg, _⟩; exact N.lt_of_at hrg

end Jali.Mstk
