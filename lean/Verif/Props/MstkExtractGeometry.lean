import Verif.Props.MstkExtractAgain
import Verif.Props.MstkCoords
import Verif.Props.MstkGeometry
import Verif.Props.MstkGeometry2
/-
C164: the geometry of an extracted mesh is that of the mesh it was extracted from.
-/
namespace Jali.Mstk
open Jali.Geom Jali.Geom.Point Jali.MeshGeom

section
variable {α : Type} [Zero α]

theorem nodeGet_nodeCoords (s : Source α) (h : s.spaceDim ≤ 3) (n : Nat) : s.nodeGet n = s.nodeCoords n := by
  unfold Source.nodeGet Source.nodeCoords
  cases s.j.m.vmap.at n with
  | none => rfl
  | some v =>
    show s.pointAt v = _
    unfold Source.pointAt
    rw [if_pos h]
    rfl

/-- coordinates of a list of nodes, translated -/
theorem mapM_nodes {s t : Source α} (hs : s.spaceDim ≤ 3) (ht : t.spaceDim ≤ 3) {pn : Nat → Option Nat}
    (hn : ∀ n, t.nodeCoords n = (pn n).bind s.nodeCoords) (o : Option (List Nat)) :
    (o.bind fun l => l.mapM t.nodeGet) = (translated pn o).bind fun l => l.mapM s.nodeGet := by
  cases o with
  | none => rfl
  | some l =>
    show l.mapM t.nodeGet = (l.mapM pn).bind _
    rw [← mapM_bind]
    congr 1
    funext n
    rw [nodeGet_nodeCoords t ht, hn]
    cases pn n with
    | none => rfl
    | some p => exact (nodeGet_nodeCoords s hs p).symm

theorem descends3_space {src t : Source α} {par : EntityKind → Nat → Option Nat} (hs : src.Ready3) (h : Descends src t par) :
    t.spaceDim = src.spaceDim := by
  induction h with
  | self => rfl
  | again ht edges ids x hx ih =>
    obtain ⟨_, _, l, hl⟩ := extract_cells_from (descends3 hs ht).1.dim hx
    exact hl.space.trans ih

theorem coords3 {src t : Source α} {par : EntityKind → Nat → Option Nat} (hs : src.Ready3) (hd : src.spaceDim ≤ 3) (h : Descends src t par) :
    (∀ c, t.cellGet c = (par .CELL c).bind src.cellGet) ∧ ∀ f, t.faceGet f = (par .FACE f).bind src.faceGet := by
  obtain ⟨hr, hf⟩ := descends3 hs h
  have hd' : t.spaceDim ≤ 3 := by rw [descends3_space hs h]; exact hd
  constructor
  · intro c
    rw [cell_coordinates_of_nodes, if_pos hr.dim, mapM_nodes hd hd' hf.coords, hf.nodes]
    cases par .CELL c with
    | none => rfl
    | some pc => rw [Option.bind_some, Option.bind_some, cell_coordinates_of_nodes, if_pos hs.dim]
  · intro f
    rw [face_coordinates_of_nodes, if_pos hr.dim, mapM_nodes hd hd' hf.coords, hf.faceNodes]
    cases par .FACE f with
    | none => rfl
    | some pc => rw [Option.bind_some, Option.bind_some, face_coordinates_of_nodes, if_pos hs.dim]

theorem coords2 {src t : Source α} {par : EntityKind → Nat → Option Nat} (hs : src.Ready2) (hd : src.spaceDim ≤ 3) (h : Descends src t par) :
    (∀ c, t.cellGet c = (par .CELL c).bind src.cellGet) ∧ ∀ f, t.faceGet f = (par .FACE f).bind src.faceGet := by
  have hr := descends2_ready hs h
  obtain ⟨h1, _, h3, h4, _⟩ := extracted_again_2d src t par hs hd h
  have hd' : t.spaceDim ≤ 3 := by rw [descends2_space hs h]; exact hd
  have hnt : ¬ t.dim3 = true := by rw [hr.dim]; decide
  have hns : ¬ src.dim3 = true := by rw [hs.dim]; decide
  constructor
  · intro c
    rw [cell_coordinates_of_nodes, if_neg hnt, mapM_nodes hd hd' h4, h1]
    cases par .CELL c with
    | none => rfl
    | some pc => rw [Option.bind_some, Option.bind_some, cell_coordinates_of_nodes, if_neg hns]
  · intro f
    rw [face_coordinates_of_nodes, if_neg hnt, mapM_nodes hd hd' h4, h3]
    cases par .FACE f with
    | none => rfl
    | some pc => rw [Option.bind_some, Option.bind_some, face_coordinates_of_nodes, if_neg hns]

theorem translatedDirs_forall2 {g : Nat → Option Nat} {o o' : Option (List (Nat × Int))} (h : translatedDirs g o = o') {l' : List (Nat × Int)}
    (hl : o' = some l') : ∃ l, o = some l ∧ List.Forall₂ (fun p q => g p.1 = some q.1 ∧ p.2 = q.2) l l' := by
  cases o with
  | none => subst h; cases hl
  | some l =>
    subst h
    refine ⟨l, rfl, (mapM_forall2 (show l.mapM (fun p => (g p.1).map fun q => (q, p.2)) = some l' from hl)).imp ?_⟩
    intro p q hpq
    obtain ⟨w, hw, e⟩ := Option.map_eq_some_iff.mp hpq
    subst e
    exact ⟨hw, rfl⟩

end

variable {src t : Source ℝ} {par : EntityKind → Nat → Option Nat}

/-- the faces of a cell and of its ancestor -/
theorem faces3 (hs : src.Ready3) (h : Descends src t par) {c pc : Nat} (hc : c < t.j.m.nr) (e : par .CELL c = some pc) :
    List.Forall₂ (fun p q => par .FACE p.1 = some q.1 ∧ p.2 = q.2) (t.gmesh.cellFaces c) (src.gmesh.cellFaces pc) := by
  obtain ⟨hr, hf⟩ := descends3 hs h
  obtain ⟨p, hp, e'⟩ := (extracted_again_cells hs h).1 c hc
  rw [e] at e'
  cases e'
  obtain ⟨l', hl'⟩ := (answers3 src.j hs.ready pc).1.mpr hp
  have := hf.faces c
  rw [e, Option.bind_some] at this
  obtain ⟨l, hl, h2⟩ := translatedDirs_forall2 this hl'
  have e1 : t.gmesh.cellFaces c = l := by
    show ((if t.dim3 then t.j.cellGetFaces3 c else t.j.cellGetFaces2 c)).getD [] = _
    rw [hr.dim, if_pos rfl, (public3 hr.ready).1 c hc, hl]; rfl
  have e2 : src.gmesh.cellFaces pc = l' := by
    show ((if src.dim3 then src.j.cellGetFaces3 pc else src.j.cellGetFaces2 pc)).getD [] = _
    rw [hs.dim, if_pos rfl, (public3 hs.ready).1 pc hp, hl']; rfl
  rw [e1, e2]
  exact h2

theorem faceCoords3 (hs : src.Ready3) (hd : src.spaceDim ≤ 3) (h : Descends src t par) {f pf : Nat} (e : par .FACE f = some pf) :
    t.gmesh.faceCoords f = src.gmesh.faceCoords pf := by
  show ((t.faceGet f).getD []).map asPoint = ((src.faceGet pf).getD []).map asPoint
  rw [(coords3 hs hd h).2, e, Option.bind_some]

theorem cellCoords3 (hs : src.Ready3) (hd : src.spaceDim ≤ 3) (h : Descends src t par) {c pc : Nat} (e : par .CELL c = some pc) :
    t.gmesh.cellCoords c = src.gmesh.cellCoords pc := by
  show ((t.cellGet c).getD []).map asPoint = ((src.cellGet pc).getD []).map asPoint
  rw [(coords3 hs hd h).1, e, Option.bind_some]

theorem oriented3 (hs : src.Ready3) (hd : src.spaceDim ≤ 3) (h : Descends src t par) {c pc : Nat} (hc : c < t.j.m.nr)
    (e : par .CELL c = some pc) :
    (t.gmesh.cellFaces c).map (orientedFace t.gmesh) = (src.gmesh.cellFaces pc).map (orientedFace src.gmesh) := by
  have h2 := faces3 hs h hc e
  rw [← List.forall₂_eq_eq_eq, List.forall₂_map_left_iff, List.forall₂_map_right_iff]
  refine h2.imp ?_
  rintro p q ⟨hp, hq⟩
  unfold orientedFace
  rw [hq, faceCoords3 hs hd h hp]

/-- **C164** Every cell of a mesh extracted, in any number of steps, from a 3D mesh has an ancestor with the same corners, volume and centroid;
the same points are in both. -/
theorem extracted_cell_geometry (hs : src.Ready3) (hd : src.spaceDim ≤ 3) (h : Descends src t par) {c : Nat} (hc : c < t.j.m.nr) :
    ∃ pc, par .CELL c = some pc ∧ pc < src.j.m.nr ∧
      t.gmesh.cellCoords c = src.gmesh.cellCoords pc ∧
      computeCellGeometry t.gmesh c = computeCellGeometry src.gmesh pc ∧
      ∀ p, pointInCell t.gmesh p c = pointInCell src.gmesh p pc := by
  obtain ⟨pc, hp, e⟩ := (extracted_again_cells hs h).1 c hc
  have hm : t.gmesh.manifoldDim = 3 := by
    show (if t.dim3 then 3 else 2) = 3
    rw [(descends3 hs h).1.dim]; rfl
  have hm' : src.gmesh.manifoldDim = 3 := by
    show (if src.dim3 then 3 else 2) = 3
    rw [hs.dim]; rfl
  have e1 := cellCoords3 hs hd h e
  have e2 := oriented3 hs hd h hc e
  refine ⟨pc, e, hp, e1, ?_, fun p => ?_⟩
  · simp only [computeCellGeometry, hm, hm', e1, e2, if_true]
  · simp only [pointInCell, hm, hm', e1, e2, if_true]

/-! ### faces -/

theorem same_face {m m' : GMesh} (hm : m.manifoldDim = m'.manifoldDim) (hsd : m.spaceDim = m'.spaceDim) {f f' c c' : Nat}
    (hg : GoodFace m f) (hl : Listed m f) (hg' : GoodFace m' f') (hl' : Listed m' f') (hc : c ∈ m.faceCells f) (hc' : c' ∈ m'.faceCells f')
    (hx : m.faceCoords f = m'.faceCoords f') (hd : faceDir m f c = faceDir m' f' c') :
    (∃ a cen n n', computeFaceGeometry m f = some (a, cen, n) ∧ computeFaceGeometry m' f' = some (a, cen, n')) ∧
    (∃ n, faceNormal m f (some c) = some n ∧ faceNormal m' f' (some c') = some n) ∧
    (((faceVector m f).x ≠ 0 ∨ (faceVector m f).y ≠ 0 ∨ (faceVector m f).z ≠ 0) → faceNormal m f none = faceNormal m' f' none) := by
  have hv : faceVector m f = faceVector m' f' := by unfold faceVector; rw [hm, hx]
  refine ⟨?_, ?_, ?_⟩
  · obtain ⟨a, cen, e⟩ := computeFace_normals m f hg hl
    obtain ⟨a', cen', e'⟩ := computeFace_normals m' f' hg' hl'
    have key : a = a' ∧ cen = cen' := by
      rcases hg with ⟨g1, g2, _⟩ | ⟨g1, g2, _⟩
      · have g1' := hm.symm.trans g1
        simp only [computeFaceGeometry, g1, if_true] at e
        simp only [computeFaceGeometry, g1', if_true] at e'
        obtain ⟨_, _, e⟩ := Option.map_eq_some_iff.mp e
        obtain ⟨_, _, e'⟩ := Option.map_eq_some_iff.mp e'
        rw [hx] at e
        obtain ⟨e1, e2⟩ := Prod.mk.inj e
        obtain ⟨e3, e4⟩ := Prod.mk.inj e'
        exact ⟨e1.symm.trans e3, (Prod.mk.inj e2).1.symm.trans (Prod.mk.inj e4).1⟩
      · have g1' := hm.symm.trans g1
        have g2' := hsd.symm.trans g2
        simp only [computeFaceGeometry, g1, g2, show ¬ ((2 : Nat) = 3) by decide, if_false, if_true] at e
        simp only [computeFaceGeometry, g1', g2', show ¬ ((2 : Nat) = 3) by decide, if_false, if_true] at e'
        obtain ⟨_, _, e⟩ := Option.map_eq_some_iff.mp e
        obtain ⟨_, _, e'⟩ := Option.map_eq_some_iff.mp e'
        rw [hx] at e
        obtain ⟨e1, e2⟩ := Prod.mk.inj e
        obtain ⟨e3, e4⟩ := Prod.mk.inj e'
        exact ⟨e1.symm.trans e3, (Prod.mk.inj e2).1.symm.trans (Prod.mk.inj e4).1⟩
    obtain ⟨rfl, rfl⟩ := key
    exact ⟨a, cen, _, _, e, e'⟩
  · have h1 := face_normal_cell m f c hg hl hc
    have h2 := face_normal_cell m' f' c' hg' hl' hc'
    rcases hl c hc with e | e
    · exact ⟨_, h1.1 e, by rw [h2.1 (hd ▸ e), hv]⟩
    · exact ⟨_, h1.2 e, by rw [h2.2 (hd ▸ e), hv]⟩
  · intro hn
    rw [face_normal_natural m f hg hl (List.ne_nil_of_mem hc) hn,
      face_normal_natural m' f' hg' hl' (List.ne_nil_of_mem hc') (by rw [← hv]; exact hn), hv]

/-- **C164** Every face of a cell of the extracted mesh has the corners, area and centroid of its ancestor, the same normal as seen from the cell
and, if its area vector is not zero, the same natural normal. -/
theorem extracted_face_geometry {r r' : MeshCache.Request} (hs : src.Ready3) (hS : src.Solid r) (hT : t.Solid r') (h : Descends src t par)
    {c f : Nat} (hcf : HasFst (t.j.cellFaces3 c) f) :
    ∃ pc pf, par .CELL c = some pc ∧ par .FACE f = some pf ∧ HasFst (src.j.cellFaces3 pc) pf ∧
      t.gmesh.faceCoords f = src.gmesh.faceCoords pf ∧
      (∃ a cen n n', computeFaceGeometry t.gmesh f = some (a, cen, n) ∧ computeFaceGeometry src.gmesh pf = some (a, cen, n')) ∧
      (∃ n, faceNormal t.gmesh f (some c) = some n ∧ faceNormal src.gmesh pf (some pc) = some n) ∧
      (((faceVector t.gmesh f).x ≠ 0 ∨ (faceVector t.gmesh f).y ≠ 0 ∨ (faceVector t.gmesh f).z ≠ 0) →
        faceNormal t.gmesh f none = faceNormal src.gmesh pf none) := by
  obtain ⟨rg, fh, hrg, hfh, hm⟩ := (hasFst_cellFaces3 hT.ready _ _).mp hcf
  have hc : c < t.j.m.nr := by
    obtain ⟨l, hl, _⟩ := hcf
    exact (answers3 t.j hT.ready c).1.mp ⟨l, hl⟩
  obtain ⟨pc, hpc, e⟩ := (extracted_again_cells hs h).1 c hc
  have hD : src.spaceDim ≤ 3 := by rw [hS.space]
  obtain ⟨prg, hprg⟩ := (src.j.m.rnum src.j.bg).at_some hpc
  obtain rfl : t.j.m.fmap.id fh - 1 = f := by rw [t.j.m.fnum.id_of_at hfh]; rfl
  obtain ⟨q, hq, eq⟩ := List.mem_map.mp hm
  have hmem : (t.j.m.fmap.id fh - 1, flipDir t.j.faceflip (t.j.m.fmap.id fh - 1) q.2) ∈ t.gmesh.cellFaces c := by
    rw [gmesh_cellFaces hT hrg]
    exact List.mem_map.mpr ⟨q, hq, by rw [eq]⟩
  generalize flipDir t.j.faceflip (t.j.m.fmap.id fh - 1) q.2 = d at hmem
  have h2 := faces3 hs h hc e
  obtain ⟨i, hi, ei⟩ := List.mem_iff_getElem.mp hmem
  have hi' : i < (src.gmesh.cellFaces pc).length := by rw [← h2.length_eq]; exact hi
  obtain ⟨e1, e2⟩ := h2.get hi hi'
  rw [show (t.gmesh.cellFaces c).get ⟨i, hi⟩ = (t.gmesh.cellFaces c)[i] from rfl, ei] at e1 e2
  have hmem' : (src.gmesh.cellFaces pc)[i] ∈ src.gmesh.cellFaces pc := List.getElem_mem hi'
  change par .FACE _ = some (src.gmesh.cellFaces pc)[i].1 at e1
  change d = (src.gmesh.cellFaces pc)[i].2 at e2
  generalize (src.gmesh.cellFaces pc)[i] = pq at *
  have hd : faceDir t.gmesh (t.j.m.fmap.id fh - 1) c = faceDir src.gmesh pq.1 pc := by
    rw [faceDir_of_mem t.gmesh (cellFaces_nodup hT hrg) hmem, faceDir_of_mem src.gmesh (cellFaces_nodup hS hprg) hmem', e2]
  have hcf' : HasFst (src.j.cellFaces3 pc) pq.1 := by
    have := hmem'
    rw [gmesh_cellFaces hS hprg] at this
    refine ⟨_, cellFaces3_eq hS.ready hprg, pq.2, ?_⟩
    exact this
  obtain ⟨_, pfh, _, hpfh, _⟩ := (hasFst_cellFaces3 hS.ready _ _).mp hcf'
  have epf : src.j.m.fmap.id pfh - 1 = pq.1 := by rw [src.j.m.fnum.id_of_at hpfh]; rfl
  refine ⟨pc, pq.1, e, e1, hcf', faceCoords3 hs hD h e1, ?_⟩
  refine same_face (by rw [(gmesh_dim3 hT).1, (gmesh_dim3 hS).1]) (by rw [(gmesh_dim3 hT).2, (gmesh_dim3 hS).2]) (good_face hT fh) (listed hT fh)
    (by rw [← epf]; exact good_face hS pfh) (by rw [← epf]; exact listed hS pfh) ((gmesh_faceCells hT (t.j.m.fnum.id_lt fh)).mpr hcf)
    ((gmesh_faceCells hS (by rw [← epf]; exact src.j.m.fnum.id_lt pfh)).mpr hcf') (faceCoords3 hs hD h e1) hd

/-- **C164** what is extracted from a mesh of polyhedra is one again, if no cell is listed twice -/
theorem extracted_solid {r r' : MeshCache.Request} (hS : src.Solid r) (hc : ∃ r0, r' = MeshCache.closure r0) (hf : r'.faces = true)
    {ids : List Nat} (hn : ids.Nodup) {x : Extracted src} (hx : extract src .CELL false false r'.faces r'.edges ids = .made x) :
    x.asSource.Solid r' := by
  obtain ⟨h1, h2, h3⟩ := cells_make_mesh src hS.dim hS.polygons hS.regions hS.three hc hn hx
  obtain ⟨_, _, l, hl⟩ := extract_cells_from hS.dim hx
  refine ⟨h3, hf, hl.dim, hl.space.trans hS.space, h1, h2, ?_⟩
  intro f
  obtain ⟨p, hf⟩ := hl.copy.fhas f
  have := congrArg List.length (hl.starts hf)
  simp only [List.length_map] at this
  exact this ▸ hS.three p

/-! ### 2D meshes -/

theorem extracted_nf2 {t : Source ℝ} (hd : t.dim3 = false) {rf re : Bool} {ids : List Nat} {x : Extracted t}
    (h : extract t .CELL false false rf re ids = .made x) : x.j.m.nf = ids.length := by
  obtain ⟨_, _, l, hl⟩ := cells2_from hd h
  rw [hl.ids, List.length_map, ← hl.copy.nf]

theorem ancestors2 (hs : src.Ready2) (h : Descends src t par) : ∀ c < t.j.m.nf, ∃ p < src.j.m.nf, par .CELL c = some p := by
  induction h with
  | self => exact fun c hc => ⟨c, hc, rfl⟩
  | @again t par ht edges ids x hx ih =>
    intro c hc
    have hd := (descends2_ready hs ht).dim
    have hc' : c < ids.length := by rw [← extracted_nf2 hd hx]; exact hc
    have hlt := (cells2_extracted_iff t hd false true edges ids).mp ⟨x, hx⟩ ids[c] (List.getElem_mem hc')
    obtain ⟨p, hp, e⟩ := ih ids[c] hlt
    refine ⟨p, hp, ?_⟩
    show (x.parent .CELL c).bind _ = _
    rw [(cells2_parents t hd hx).2, List.getElem?_eq_getElem hc', Option.bind_some, e]

theorem faces2 (hs : src.Ready2) (hd : src.spaceDim ≤ 3) (h : Descends src t par) {c pc : Nat} (hc : c < t.j.m.nf) (e : par .CELL c = some pc) :
    List.Forall₂ (fun p q => par .FACE p.1 = some q.1 ∧ p.2 = q.2) (t.gmesh.cellFaces c) (src.gmesh.cellFaces pc) := by
  have hr := descends2_ready hs h
  obtain ⟨p, hp, e'⟩ := ancestors2 hs h c hc
  rw [e] at e'
  cases e'
  obtain ⟨l', hl'⟩ := (answers2 src.j hs.ready pc).1.mpr hp
  have := (extracted_again_2d src t par hs hd h).2.1 c
  rw [e, Option.bind_some] at this
  obtain ⟨l, hl, h2⟩ := translatedDirs_forall2 this hl'
  have e1 : t.gmesh.cellFaces c = l := by
    show ((if t.dim3 then t.j.cellGetFaces3 c else t.j.cellGetFaces2 c)).getD [] = _
    rw [hr.dim, if_neg (by decide), (public2 hr.ready).1 c hc, hl]; rfl
  have e2 : src.gmesh.cellFaces pc = l' := by
    show ((if src.dim3 then src.j.cellGetFaces3 pc else src.j.cellGetFaces2 pc)).getD [] = _
    rw [hs.dim, if_neg (by decide), (public2 hs.ready).1 pc hp, hl']; rfl
  rw [e1, e2]
  exact h2

theorem faceCoords2 (hs : src.Ready2) (hd : src.spaceDim ≤ 3) (h : Descends src t par) {f pf : Nat} (e : par .FACE f = some pf) :
    t.gmesh.faceCoords f = src.gmesh.faceCoords pf := by
  show ((t.faceGet f).getD []).map asPoint = ((src.faceGet pf).getD []).map asPoint
  rw [(coords2 hs hd h).2, e, Option.bind_some]

/-- **C164** the same for 2D meshes and for surfaces in space -/
theorem extracted_cell_geometry_2d (hs : src.Ready2) (hd : src.spaceDim ≤ 3) (h : Descends src t par) {c : Nat} (hc : c < t.j.m.nf) :
    ∃ pc, par .CELL c = some pc ∧ pc < src.j.m.nf ∧
      t.gmesh.cellCoords c = src.gmesh.cellCoords pc ∧
      computeCellGeometry t.gmesh c = computeCellGeometry src.gmesh pc ∧
      ∀ p, pointInCell t.gmesh p c = pointInCell src.gmesh p pc := by
  obtain ⟨pc, hp, e⟩ := ancestors2 hs h c hc
  have hm : t.gmesh.manifoldDim = 2 := by
    show (if t.dim3 then 3 else 2) = 2
    rw [(descends2_ready hs h).dim]; rfl
  have hm' : src.gmesh.manifoldDim = 2 := by
    show (if src.dim3 then 3 else 2) = 2
    rw [hs.dim]; rfl
  have e1 : t.gmesh.cellCoords c = src.gmesh.cellCoords pc := by
    show ((t.cellGet c).getD []).map asPoint = ((src.cellGet pc).getD []).map asPoint
    rw [(coords2 hs hd h).1, e, Option.bind_some]
  refine ⟨pc, e, hp, e1, ?_, fun p => ?_⟩
  · simp only [computeCellGeometry, hm, hm', e1, show ¬ ((2 : Nat) = 3) by decide, if_false, if_true]
  · simp only [pointInCell, hm, hm', e1, show ¬ ((2 : Nat) = 3) by decide, if_false, if_true]

/-- **C164** faces of plane meshes: corners, length, midpoint and normals -/
theorem extracted_face_geometry_2d {r r' : MeshCache.Request} (hs : src.Ready2) (hS : src.Flat r) (hT : t.Flat r') (h : Descends src t par)
    {c f : Nat} (hcf : HasFst (t.j.cellFaces2 c) f) :
    ∃ pc pf, par .CELL c = some pc ∧ par .FACE f = some pf ∧ HasFst (src.j.cellFaces2 pc) pf ∧
      t.gmesh.faceCoords f = src.gmesh.faceCoords pf ∧
      (∃ a cen n n', computeFaceGeometry t.gmesh f = some (a, cen, n) ∧ computeFaceGeometry src.gmesh pf = some (a, cen, n')) ∧
      (∃ n, faceNormal t.gmesh f (some c) = some n ∧ faceNormal src.gmesh pf (some pc) = some n) ∧
      (((faceVector t.gmesh f).x ≠ 0 ∨ (faceVector t.gmesh f).y ≠ 0 ∨ (faceVector t.gmesh f).z ≠ 0) →
        faceNormal t.gmesh f none = faceNormal src.gmesh pf none) := by
  obtain ⟨rg, fh, hrg, hfh, hm⟩ := (hasFst_cellFaces2 hT.ready _ _).mp hcf
  have hc : c < t.j.m.nf := by
    obtain ⟨l, hl, _⟩ := hcf
    exact (answers2 t.j hT.ready c).1.mp ⟨l, hl⟩
  obtain ⟨pc, hpc, e⟩ := ancestors2 hs h c hc
  have hD : src.spaceDim ≤ 3 := by rw [hS.space]; decide
  obtain ⟨prg, hprg⟩ := (src.j.m.cnum src.j.bg).at_some hpc
  obtain rfl : t.j.m.emap.id fh - 1 = f := by rw [t.j.m.enum.id_of_at hfh]; rfl
  obtain ⟨d, hmem⟩ : ∃ d, (t.j.m.emap.id fh - 1, d) ∈ t.gmesh.cellFaces c := by
    obtain ⟨l, hl, d, hd⟩ := hcf
    refine ⟨d, ?_⟩
    show _ ∈ ((if t.dim3 then t.j.cellGetFaces3 c else t.j.cellGetFaces2 c)).getD []
    rw [hT.dim, if_neg (by decide), (public2 hT.ready).1 c hc, hl]
    exact hd
  have h2 := faces2 hs hD h hc e
  obtain ⟨i, hi, ei⟩ := List.mem_iff_getElem.mp hmem
  have hi' : i < (src.gmesh.cellFaces pc).length := by rw [← h2.length_eq]; exact hi
  obtain ⟨e1, e2⟩ := h2.get hi hi'
  rw [show (t.gmesh.cellFaces c).get ⟨i, hi⟩ = (t.gmesh.cellFaces c)[i] from rfl, ei] at e1 e2
  have hmem' : (src.gmesh.cellFaces pc)[i] ∈ src.gmesh.cellFaces pc := List.getElem_mem hi'
  change par .FACE _ = some (src.gmesh.cellFaces pc)[i].1 at e1
  change d = (src.gmesh.cellFaces pc)[i].2 at e2
  generalize (src.gmesh.cellFaces pc)[i] = pq at *
  have hd : faceDir t.gmesh (t.j.m.emap.id fh - 1) c = faceDir src.gmesh pq.1 pc := by
    rw [faceDir_of_mem t.gmesh (cellFaces_nodup2 hT hrg) hmem, faceDir_of_mem src.gmesh (cellFaces_nodup2 hS hprg) hmem', e2]
  have hcf' : HasFst (src.j.cellFaces2 pc) pq.1 := by
    obtain ⟨l', hl'⟩ := (answers2 src.j hS.ready pc).1.mpr hpc
    have e2 : src.gmesh.cellFaces pc = l' := by
      show ((if src.dim3 then src.j.cellGetFaces3 pc else src.j.cellGetFaces2 pc)).getD [] = _
      rw [hs.dim, if_neg (by decide), (public2 hs.ready).1 pc hpc, hl']; rfl
    refine ⟨l', hl', pq.2, ?_⟩
    rw [← e2]
    exact hmem'
  obtain ⟨_, pfh, _, hpfh, _⟩ := (hasFst_cellFaces2 hS.ready _ _).mp hcf'
  have epf : src.j.m.emap.id pfh - 1 = pq.1 := by rw [src.j.m.enum.id_of_at hpfh]; rfl
  refine ⟨pc, pq.1, e, e1, hcf', faceCoords2 hs hD h e1, ?_⟩
  refine same_face (by rw [(gmesh_dim2 hT).1, (gmesh_dim2 hS).1]) (by rw [(gmesh_dim2 hT).2, (gmesh_dim2 hS).2]) (good_face2 hT fh) (listed2 hT fh)
    (by rw [← epf]; exact good_face2 hS pfh) (by rw [← epf]; exact listed2 hS pfh) ((gmesh_faceCells2 hT (t.j.m.enum.id_lt fh)).mpr hcf)
    ((gmesh_faceCells2 hS (by rw [← epf]; exact src.j.m.enum.id_lt pfh)).mpr hcf') (faceCoords2 hs hD h e1) hd

/-- **C164** what is extracted from a mesh of polygons in the plane is one again, if no cell is listed twice -/
theorem extracted_flat {r r' : MeshCache.Request} (hS : src.Flat r) (hc : ∃ r0, r' = MeshCache.closure r0) (hf : r'.faces = true)
    {ids : List Nat} (hn : ids.Nodup) {x : Extracted src} (hx : extract src .CELL false false r'.faces r'.edges ids = .made x) :
    x.asSource.Flat r' := by
  obtain ⟨h1, h2, h3⟩ := cells2_make_mesh src hS.dim hS.polygons hS.cells hc hn hx
  obtain ⟨_, _, l, hl⟩ := cells2_from hS.dim hx
  exact ⟨h3, hf, hl.dim, hl.space.trans hS.space, h1, h2⟩

/-! ### surfaces -/

/-- **C164** A cell of a surface extracted from a 3D mesh has the corners, the area and the centroid of the listed face. -/
theorem surface_cell_geometry (hs : src.Ready3) (hd : src.spaceDim = 3) {faces edges : Bool} {ids : List Nat} {x : Extracted src}
    (hx : extract src .FACE false false faces edges ids = .made x) {c f : Nat} (hc : ids[c]? = some f) :
    x.asSource.gmesh.cellCoords c = src.gmesh.faceCoords f ∧
    ∀ a cen n, computeFaceGeometry src.gmesh f = some (a, cen, n) → computeCellGeometry x.asSource.gmesh c = some (a, cen) := by
  obtain ⟨_, _, l, hl⟩ := surface_from hs hx
  have hdim : ¬ x.asSource.dim3 = true := by
    show ¬ x.dim3 = true
    rw [hl.dim]; decide
  have hsp : x.asSource.spaceDim ≤ 3 := by
    show x.spaceDim ≤ 3
    rw [hl.space, hd]; decide
  have hnod : ∀ n, x.asSource.nodeCoords n = (x.parent .NODE n).bind src.nodeCoords := by
    intro n
    have := surface_coordinates src hs hd hx n
    simp only [Bool.false_eq_true, if_false, Option.map_id'] at this
    exact this
  have e1 : x.asSource.gmesh.cellCoords c = src.gmesh.faceCoords f := by
    show ((x.asSource.cellGet c).getD []).map asPoint = ((src.faceGet f).getD []).map asPoint
    have hn := surface_nodes src hs hx c
    rw [cell_coordinates_of_nodes, if_neg hdim, mapM_nodes (by rw [hd]) hsp hnod, face_coordinates_of_nodes, if_pos hs.dim]
    have hn : translated (x.parent .NODE) (x.asSource.j.cellNodes2 c) = _ := hn
    rw [hn, hc, Option.bind_some]
  refine ⟨e1, ?_⟩
  intro a cen n h
  have hm : x.asSource.gmesh.manifoldDim = 2 := by
    show (if x.asSource.dim3 then 3 else 2) = 2
    rw [if_neg hdim]
  have hm' : src.gmesh.manifoldDim = 3 := by
    show (if src.dim3 then 3 else 2) = 3
    rw [hs.dim]; rfl
  simp only [computeFaceGeometry, hm', if_true] at h
  obtain ⟨_, _, h⟩ := Option.map_eq_some_iff.mp h
  simp only [computeCellGeometry, hm, e1, show ¬ ((2 : Nat) = 3) by decide, if_false, if_true]
  obtain ⟨h1, h2⟩ := Prod.mk.inj h
  rw [h1, (Prod.mk.inj h2).1]

/-- **C164** A face of such a surface has the ends, the length and the midpoint of the edge it was made of. -/
theorem surface_face_geometry {r : MeshCache.Request} (hs : src.Ready3) (hE : src.ReadyE) (hm : src.j.Made3 r) (hr : r.edges = true)
    (hd : src.spaceDim = 3) {edges : Bool} {ids : List Nat} {x : Extracted src}
    (hx : extract src .FACE false false true edges ids = .made x) {f e a b : Nat} (hf : x.parent .FACE f = some e)
    (he : src.j.edgeNodes e = some (a, b)) :
    x.asSource.gmesh.faceCoords f = [src.gmesh.nodeCoord a, src.gmesh.nodeCoord b] ∧ src.gmesh.edgeNodes e = (a, b) ∧
    ∀ l cen n, computeFaceGeometry x.asSource.gmesh f = some (l, cen, n) →
      l = (computeEdgeGeometry src.gmesh e).1 ∧ cen = (computeEdgeGeometry src.gmesh e).2.2 := by
  obtain ⟨_, _, l, hl⟩ := surface_from hs hx
  have hdim : ¬ x.asSource.dim3 = true := by
    show ¬ x.dim3 = true
    rw [hl.dim]; decide
  have hsp3 : x.asSource.spaceDim = 3 := by
    show x.spaceDim = 3
    rw [hl.space, hd]; rfl
  have hnod : ∀ n, x.asSource.nodeCoords n = (x.parent .NODE n).bind src.nodeCoords := by
    intro n
    have := surface_coordinates src hs hd hx n
    simp only [Bool.false_eq_true, if_false, Option.map_id'] at this
    exact this
  have hab : ∃ va vb, src.nodeGet a = src.pointAt va ∧ src.nodeGet b = src.pointAt vb := by
    unfold JMesh.edgeNodes at he
    rw [if_pos hE.ready.edges] at he
    obtain ⟨eh, _, he⟩ := Option.bind_eq_some_iff.mp he
    obtain ⟨fl, _, he⟩ := Option.map_eq_some_iff.mp he
    cases fl
    · obtain ⟨h1, h2⟩ := Prod.mk.inj he
      exact ⟨_, _, h1 ▸ nodeGet_id src _, h2 ▸ nodeGet_id src _⟩
    · obtain ⟨h1, h2⟩ := Prod.mk.inj he
      exact ⟨_, _, h1 ▸ nodeGet_id src _, h2 ▸ nodeGet_id src _⟩
  have e1 : x.asSource.gmesh.faceCoords f = [src.gmesh.nodeCoord a, src.gmesh.nodeCoord b] := by
    show ((x.asSource.faceGet f).getD []).map asPoint = _
    have hn : translated (x.parent .NODE) (x.asSource.j.faceNodes2 f) = _ := surface_face_nodes src hs hE hx f
    rw [face_coordinates_of_nodes, if_neg hdim, mapM_nodes (by rw [hd]) (by rw [hsp3]) hnod, hn, hf, Option.bind_some, he]
    obtain ⟨va, vb, h1, h2⟩ := hab
    show (([a, b].mapM src.nodeGet).getD []).map asPoint =
      [((src.nodeGet a).map asPoint).getD (Point.zero src.spaceDim), ((src.nodeGet b).map asPoint).getD (Point.zero src.spaceDim)]
    have q : ∀ v, src.pointAt v = some ((src.xyz v).toList.take src.spaceDim) := fun v => by
      unfold Source.pointAt
      rw [if_pos (by rw [hd])]
    simp only [List.mapM_cons, List.mapM_nil, h1, h2, q, Option.bind_eq_bind, Option.bind_some, Option.pure_def, Option.getD_some,
      List.map_cons, List.map_nil, Option.map_some]
  have e2 : src.gmesh.edgeNodes e = (a, b) := by
    show (src.j.edgeGetNodes e).getD (0, 0) = _
    rw [((cached_connectivity3 src.j r hm).2.2 hr).2, he]; rfl
  refine ⟨e1, e2, ?_⟩
  intro len cen n h
  have hm2 : x.asSource.gmesh.manifoldDim = 2 := by
    show (if x.asSource.dim3 then 3 else 2) = 2
    rw [if_neg hdim]
  have hm3 : x.asSource.gmesh.spaceDim = 3 := hsp3
  simp only [computeFaceGeometry, hm2, hm3, show ¬ ((2 : Nat) = 3) by decide, show ¬ ((3 : Nat) = 2) by decide, if_false, if_true, e1] at h
  obtain ⟨_, _, h⟩ := Option.map_eq_some_iff.mp h
  obtain ⟨h1, h2⟩ := Prod.mk.inj h
  obtain ⟨h2, _⟩ := Prod.mk.inj h2
  rw [← h1, ← h2]
  simp only [computeEdgeGeometry, e2]
  exact ⟨rfl, rfl⟩

/-! ### Examples -/

/-- two pyramids as one processor has them, without flipped faces -/
noncomputable abbrev octaPlain : Source ℝ := { octa with j := { octaJ with faceflip := List.replicate 9 false } }

theorem octaPlain_solid : octaPlain.Solid (MeshCache.closure ⟨true, true, true, true, true⟩) where
  made := ⟨⟨_, rfl⟩, rfl, rfl, fun _ => rfl, fun _ => rfl⟩
  faces := rfl
  dim := rfl
  space := rfl
  polygons := octa_solid.polygons
  regions := octa_solid.regions
  three := octa_solid.three

theorem octaPlain_ready : octaPlain.Ready3 := ⟨rfl, octaPlain_solid.ready, fun _ hb => List.eq_of_mem_replicate hb⟩

/-- the lower pyramid alone: its volume, its centroid and the points in it are those of the second cell of the mesh, and it is a mesh of
polyhedra, so `extracted_face_geometry` applies to it -/
example : ∃ x, extract octaPlain .CELL false false true true [1] = .made x ∧
    x.asSource.Solid (MeshCache.closure ⟨true, true, true, true, true⟩) ∧
    x.asSource.gmesh.cellCoords 0 = [mk3 1 (-1) 0, mk3 1 1 0, mk3 (-1) (-1) 0, mk3 (-1) 1 0, mk3 0 0 (-1)] ∧
    computeCellGeometry x.asSource.gmesh 0 = computeCellGeometry octaPlain.gmesh 1 := by
  obtain ⟨x, hx⟩ := (cells_extracted_iff octaPlain rfl true true [1]).mpr (by
    intro i hi
    have : i = 1 := by simpa using hi
    show i < 2
    omega)
  have hd : Descends octaPlain x.asSource _ := .again .self true [1] x hx
  have hn : x.j.m.nr = 1 := extracted_nr rfl hx
  obtain ⟨pc, h1, _, h3, h4, _⟩ := extracted_cell_geometry octaPlain_ready (by decide) hd (c := 0) (by show 0 < x.j.m.nr; omega)
  have h1 : (x.parent .CELL 0).bind _ = _ := h1
  rw [(cells_parents octaPlain rfl hx).2] at h1
  injection h1 with h1
  subst h1
  exact ⟨x, hx, extracted_solid octaPlain_solid (r' := MeshCache.closure ⟨true, true, true, true, true⟩) ⟨_, rfl⟩ rfl (by decide) hx,
    h3.trans octa_coords.2, h4⟩

/-- a plane mesh without flipped faces, and its triangle alone -/
noncomputable abbrev kitePlain (a : ℝ) : Source ℝ := { kite a with j := { kiteJ with faceflip := List.replicate 6 false } }

theorem kitePlain_flat (a : ℝ) : (kitePlain a).Flat (MeshCache.closure ⟨true, true, true, true, true⟩) where
  made := ⟨⟨_, rfl⟩, rfl, rfl, fun _ => rfl, fun _ => rfl⟩
  faces := rfl
  dim := rfl
  space := rfl
  polygons := (kite_flat a).polygons
  cells := (kite_flat a).cells

example (a : ℝ) : (kitePlain a).Ready2 ∧ ∃ x, extract (kitePlain a) .CELL false false true true [1] = .made x ∧
    x.asSource.Flat (MeshCache.closure ⟨true, true, true, true, true⟩) := by
  obtain ⟨x, hx⟩ := (cells2_extracted_iff (kitePlain a) rfl false true true [1]).mpr (by
    intro i hi
    have : i = 1 := by simpa using hi
    show i < 2
    omega)
  exact ⟨⟨rfl, (kitePlain_flat a).ready, fun _ hb => List.eq_of_mem_replicate hb⟩, x, hx,
    extracted_flat (kitePlain_flat a) (r' := MeshCache.closure ⟨true, true, true, true, true⟩) ⟨_, rfl⟩ rfl (by decide) hx⟩

/-- the square between the pyramids as a surface -/
example : ∃ x, extract octaPlain .FACE false false true true [0] = .made x ∧
    x.asSource.gmesh.cellCoords 0 = octaPlain.gmesh.faceCoords 0 := by
  obtain ⟨x, hx⟩ := (surface_extracted_iff octaPlain octaPlain_ready false true true [0]).mpr (by
    intro i hi
    have : i = 0 := by simpa using hi
    show i < 9
    omega)
  exact ⟨x, hx, (surface_cell_geometry octaPlain_ready rfl hx (c := 0) (f := 0) rfl).1⟩

end Jali.Mstk
