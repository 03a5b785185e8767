import Verif.Proof.MstkParent3
import Mathlib.Data.Fin.VecNotation
/-
C119: a 3D mesh extracted from cells of another mesh is a faithful copy of these cells.
-/
namespace Jali.Mstk

variable {α : Type} [Zero α]

/-- **C119** cells that exist are extracted; a list with any other id is an error -/
theorem cells_extracted_iff (src : Source α) (hd : src.dim3 = true) (faces edges : Bool) (ids : List Nat) :
    (∃ x, extract src .CELL false false faces edges ids = .made x) ↔ ∀ i ∈ ids, i < src.j.m.nr :=
  extract_cells_iff hd faces edges ids

/-- **C119** the cells of the new mesh are the listed cells, in the order of the list -/
theorem cells_parents (src : Source α) (hd : src.dim3 = true) {faces edges : Bool} {ids : List Nat} {x : Extracted src}
    (h : extract src .CELL false false faces edges ids = .made x) :
    (x.j.m.cellIds3 x.j.bg).all.length = ids.length ∧ ∀ c, x.parent .CELL c = ids[c]? := by
  obtain ⟨_, _, l, hl⟩ := extract_cells_from hd h
  refine ⟨?_, hl.cell⟩
  have := (numbered_three x.j.bg (fun i => (x.j.m.region i).ptype) fun i => (x.j.m.region i).bndryGhost).length
  have e : (x.j.m.cellIds3 x.j.bg).all.length = x.j.m.nr := by
    rw [← this]
    unfold MMesh.cellIds3 idLists3
    have hb : x.j.bg = false := rfl
    simp only [hb, List.length_append, List.length_map, bndryCells_false, Bool.false_eq_true, if_false]
    rfl
  rw [e, hl.ids, List.length_map, ← hl.copy.nr]

/-- **C119** the faces of a cell, with directions, are those of the listed cell -/
theorem cells_faces (src : Source α) (hs : src.Ready3) {edges : Bool} {ids : List Nat} {x : Extracted src}
    (h : extract src .CELL false false true edges ids = .made x) (c : Nat) :
    translatedDirs (x.parent .FACE) (x.j.cellFaces3 c) = (x.parent .CELL c).bind src.j.cellFaces3 := by
  obtain ⟨hf, _, l, hl⟩ := extract_cells_from hs.dim h
  rw [hl.cell]
  cases hr : (x.j.m.rmap x.j.bg).at c with
  | none =>
    rw [hl.ratn hr]
    have : x.j.cellFaces3 c = none := by
      unfold JMesh.cellFaces3
      rw [hr]; simp
    rw [this]; rfl
  | some r =>
    obtain ⟨p, h1, _, h3⟩ := hl.ratl hr
    rw [h3, Option.bind_some, cellFaces3_eq hs.ready ((src.j.m.rnum src.j.bg).at_id p), cellFaces3_eq (hl.ready hf) hr]
    unfold translatedDirs
    rw [Option.bind_some]
    simp only [flipDir_noflip (hl.flip hf), flipDir_noflip hs.noflip]
    exact mapM_parents_dirs (idc := fun v => x.j.m.fmap.id v - 1) (ids := fun v => src.j.m.fmap.id v - 1)
      (fun v q hq => hl.face hf hs.dim hs.ready.faces hq) dirInt _ _ (hl.copy.faces r p h1)

/-- **C119** the nodes of a face, in order, are those of its parent -/
theorem cells_face_nodes (src : Source α) (hs : src.Ready3) {edges : Bool} {ids : List Nat} {x : Extracted src}
    (h : extract src .CELL false false true edges ids = .made x) (f : Nat) :
    translated (x.parent .NODE) (x.j.faceNodes3 f) = (x.parent .FACE f).bind src.j.faceNodes3 := by
  obtain ⟨hf, _, l, hl⟩ := extract_cells_from hs.dim h
  cases hv : x.j.m.fmap.at f with
  | none =>
    have : x.j.faceNodes3 f = none := by unfold JMesh.faceNodes3; rw [hv]; simp
    rw [this, parent_face3 hl.dim hf, hv]; rfl
  | some v =>
    obtain ⟨p, hp⟩ := hl.copy.fhas v
    have hpar := hl.face hf hs.dim hs.ready.faces hp
    rw [hl.fplain.at_iff.mp hv] at hpar
    rw [hpar, Option.bind_some]
    have hsf : src.j.m.fmap.at (src.j.m.fmap.id p - 1) = some p := src.j.m.fnum.at_id p
    have key : ∀ (j : JMesh) (hj : j.Ready3) (hn : ∀ b ∈ j.faceflip, b = false) (f : Nat) (v : Fin j.m.nf), j.m.fmap.at f = some v →
        j.faceNodes3 f = some ((j.m.mfVertices (j.m.face v) true).map fun v => j.m.vmap.id v - 1) := by
      intro j hj hn f v hv
      have hlt : f < j.faceflip.length := by rw [hj.flips]; exact j.m.fnum.lt_of_at hv
      unfold JMesh.faceNodes3
      rw [if_pos hj.faces, hv, Option.bind_some, List.getElem?_eq_getElem hlt, hn _ (List.getElem_mem hlt)]
      rfl
    rw [key x.j (hl.ready hf) (hl.flip hf) f v hv, key src.j hs.ready hs.noflip _ p hsf]
    unfold translated
    rw [Option.bind_some]
    exact mapM_parents (idc := fun v => x.j.m.vmap.id v - 1) (ids := fun v => src.j.m.vmap.id v - 1) (fun v q hq => hl.node hq) _ _
      (hl.copy.verts v p hp)

/-- **C119** the nodes of a cell are those of the listed cell -/
theorem cells_nodes (src : Source α) (hd : src.dim3 = true) {faces edges : Bool} {ids : List Nat} {x : Extracted src}
    (h : extract src .CELL false false faces edges ids = .made x) (c : Nat) :
    translated (x.parent .NODE) (x.j.cellNodes3 c) = (x.parent .CELL c).bind src.j.cellNodes3 := by
  obtain ⟨_, _, l, hl⟩ := extract_cells_from hd h
  rw [hl.cell]
  unfold JMesh.cellNodes3
  cases hr : (x.j.m.rmap x.j.bg).at c with
  | none => rw [hl.ratn hr]; rfl
  | some r =>
    obtain ⟨p, h1, _, h3⟩ := hl.ratl hr
    rw [h3, Option.bind_some, (src.j.m.rnum src.j.bg).at_id p, Option.map_some, Option.map_some]
    unfold translated
    rw [Option.bind_some]
    exact mapM_parents (idc := fun v => x.j.m.vmap.id v - 1) (ids := fun v => src.j.m.vmap.id v - 1) (fun v q hq => hl.node hq) _ _
      (hl.mrVertices h1)

/-- **C119** a node is where its parent is -/
theorem cells_coordinates (src : Source α) (hd : src.dim3 = true) {faces edges : Bool} {ids : List Nat} {x : Extracted src}
    (h : extract src .CELL false false faces edges ids = .made x) (n : Nat) :
    x.nodeCoords n = (x.parent .NODE n).bind src.nodeCoords := by
  obtain ⟨_, _, l, hl⟩ := extract_cells_from hd h
  unfold Extracted.nodeCoords
  rw [parent_node]
  cases hv : x.j.m.vmap.at n with
  | none => rfl
  | some v =>
    obtain ⟨p, hp, hx⟩ := hl.copy.vhas v
    rw [Option.map_some, Option.map_some, hp, Option.bind_some, hx, hl.space]
    unfold Source.nodeCoords
    show _ = (src.j.m.vmap.at (src.j.m.vmap.id p - 1)).map _
    rw [src.j.m.vnum.at_id p]; rfl

/-- **C119** every node and every face of the new mesh has its own parent -/
theorem cells_parents_differ (src : Source α) (hs : src.Ready3) {edges : Bool} {ids : List Nat} {x : Extracted src}
    (h : extract src .CELL false false true edges ids = .made x) :
    (∀ n n' p, x.parent .NODE n = some p → x.parent .NODE n' = some p → n = n') ∧
    (∀ f f' p, x.parent .FACE f = some p → x.parent .FACE f' = some p → f = f') := by
  obtain ⟨hf, _, l, hl⟩ := extract_cells_from hs.dim h
  constructor
  · intro n n' p h1 h2
    obtain ⟨v, q, a1, a2, a3⟩ := hl.node_iff.mp h1
    obtain ⟨v', q', b1, b2, b3⟩ := hl.node_iff.mp h2
    have : q' = q := Option.some.inj (b3.symm.trans a3)
    subst this
    have := hl.copy.vinj v v' q' a2 b2
    subst this
    rw [← hl.vplain.at_iff.mp a1, ← hl.vplain.at_iff.mp b1]
  · intro n n' p h1 h2
    obtain ⟨v, q, a1, a2, a3⟩ := (hl.face_iff hf hs.dim hs.ready.faces).mp h1
    obtain ⟨v', q', b1, b2, b3⟩ := (hl.face_iff hf hs.dim hs.ready.faces).mp h2
    have : q' = q := Option.some.inj (b3.symm.trans a3)
    subst this
    have := hl.copy.finj v v' q' a2 b2
    subst this
    rw [← hl.fplain.at_iff.mp a1, ← hl.fplain.at_iff.mp b1]

/-- **C119** the new mesh has the nodes and the faces of the listed cells, and no others -/
theorem cells_nothing_else (src : Source α) (hs : src.Ready3) {edges : Bool} {ids : List Nat} {x : Extracted src}
    (h : extract src .CELL false false true edges ids = .made x) (p : Nat) :
    ((∃ n, x.parent .NODE n = some p) ↔ ∃ c ∈ ids, Has (src.j.cellNodes3 c) p) ∧
    ((∃ f, x.parent .FACE f = some p) ↔ ∃ c ∈ ids, HasFst (src.j.cellFaces3 c) p) := by
  obtain ⟨hf, _, l, hl⟩ := extract_cells_from hs.dim h
  constructor
  · constructor
    · rintro ⟨n, hn⟩
      obtain ⟨v, q, a1, a2, a3⟩ := hl.node_iff.mp hn
      obtain ⟨r, hr, hq⟩ := hl.vcopy.mp ⟨v, a2⟩
      refine ⟨(src.j.m.rmap src.j.bg).id r - 1, by rw [hl.ids]; exact List.mem_map.mpr ⟨r, hr, rfl⟩, ?_⟩
      exact (has_cellNodes3 _ _).mpr ⟨r, q, (src.j.m.rnum src.j.bg).at_id r, a3, hq⟩
    · rintro ⟨c, hc, hn⟩
      rw [hl.ids, List.mem_map] at hc
      obtain ⟨r, hr, rfl⟩ := hc
      obtain ⟨r', q, b1, b2, b3⟩ := (has_cellNodes3 _ _).mp hn
      rw [(src.j.m.rnum src.j.bg).at_id r] at b1
      have := Option.some.inj b1
      subst this
      obtain ⟨v, hv⟩ := hl.vcopy.mpr ⟨r, hr, b3⟩
      exact ⟨x.j.m.vmap.id v - 1, hl.node_iff.mpr ⟨v, q, hl.vplain.at_id v, hv, b2⟩⟩
  · constructor
    · rintro ⟨n, hn⟩
      obtain ⟨v, q, a1, a2, a3⟩ := (hl.face_iff hf hs.dim hs.ready.faces).mp hn
      obtain ⟨r, hr, hq⟩ := hl.fcopy.mp ⟨v, a2⟩
      refine ⟨(src.j.m.rmap src.j.bg).id r - 1, by rw [hl.ids]; exact List.mem_map.mpr ⟨r, hr, rfl⟩, ?_⟩
      exact (hasFst_cellFaces3 hs.ready _ _).mpr ⟨r, q, (src.j.m.rnum src.j.bg).at_id r, a3, hq⟩
    · rintro ⟨c, hc, hn⟩
      rw [hl.ids, List.mem_map] at hc
      obtain ⟨r, hr, rfl⟩ := hc
      obtain ⟨r', q, b1, b2, b3⟩ := (hasFst_cellFaces3 hs.ready _ _).mp hn
      rw [(src.j.m.rnum src.j.bg).at_id r] at b1
      have := Option.some.inj b1
      subst this
      obtain ⟨v, hv⟩ := hl.fcopy.mpr ⟨r, hr, b3⟩
      exact ⟨x.j.m.fmap.id v - 1, (hl.face_iff hf hs.dim hs.ready.faces).mpr ⟨v, q, hl.fplain.at_id v, hv, b2⟩⟩

/-! ### An example: two tetrahedra, the second one is extracted -/

/-- two tetrahedra with a face in common -/
abbrev twoTets : MMesh where
  nv := 5
  ne := 9
  nf := 7
  nr := 2
  vtx := fun _ => ⟨.interior, 0⟩
  edge := ![⟨.interior, 0, 0, 1, false⟩, ⟨.interior, 0, 0, 2, false⟩, ⟨.interior, 0, 0, 3, false⟩, ⟨.interior, 0, 1, 2, false⟩,
    ⟨.interior, 0, 1, 3, false⟩, ⟨.interior, 0, 2, 3, false⟩, ⟨.interior, 0, 1, 4, false⟩, ⟨.interior, 0, 2, 4, false⟩,
    ⟨.interior, 0, 3, 4, false⟩]
  face := ![⟨.interior, 0, [(1, true), (3, false), (0, false)], false, false⟩,
    ⟨.interior, 0, [(0, true), (4, true), (2, false)], false, false⟩,
    ⟨.interior, 0, [(2, true), (5, false), (1, false)], false, false⟩,
    ⟨.interior, 0, [(3, true), (5, true), (4, false)], false, false⟩,
    ⟨.interior, 0, [(3, true), (7, true), (6, false)], false, false⟩,
    ⟨.interior, 0, [(5, true), (8, true), (7, false)], false, false⟩,
    ⟨.interior, 0, [(4, false), (6, true), (8, false)], false, false⟩]
  region := ![⟨.interior, 0, [(0, true), (1, true), (2, true), (3, true)], false⟩,
    ⟨.interior, 0, [(3, false), (4, true), (5, true), (6, true)], false⟩]

/-- the mesh object, with whole numbers for coordinates -/
abbrev twoTetsSrc : Source Int where
  j := ⟨twoTets, true, true, false, true, List.replicate 7 false, List.replicate 9 false⟩
  dim3 := true
  spaceDim := 3
  xyz := ![⟨0, 0, 0⟩, ⟨1, 0, 0⟩, ⟨0, 1, 0⟩, ⟨0, 0, 1⟩, ⟨1, 1, 1⟩]

theorem twoTets_ready : twoTetsSrc.Ready3 := ⟨rfl, ⟨rfl, rfl⟩, by decide⟩

def Outcome.get? {β : Type} : Outcome β → Option β
  | .made b => some b
  | _ => none

set_option synthInstance.maxHeartbeats 400000 in
set_option maxRecDepth 4000 in
example : (extract twoTetsSrc .CELL false false true true [1]).get?.map (fun x =>
    ((List.range 5).map (x.parent .NODE), (List.range 5).map (x.parent .FACE), x.parent .CELL 0, x.nodeCoords 3)) =
    some ([some 1, some 2, some 3, some 4, none], [some 3, some 4, some 5, some 6, none], some 1, some [1, 1, 1]) := by
  decide +kernel

example : ∃ x, extract twoTetsSrc .CELL false false true true [1] = .made x :=
  (cells_extracted_iff twoTetsSrc rfl true true [1]).mpr (by decide)

end Jali.Mstk
