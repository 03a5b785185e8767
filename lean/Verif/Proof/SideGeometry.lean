import Verif.Model.SideGeometry
import Verif.Spec.SideGeometry
import Verif.Proof.SidesMore
import Verif.Props.MeshGeometry
/-! Lemmas about the geometry of sides. -/
namespace Jali.SideGeom
open Jali.Sides Jali.Sides.Spec Jali.Geom Jali.Geom.Spec Jali.Geom.Point Spec

/-! ### sides of a cell as iterations of the loop -/

theorem positions_map {α β : Type} (p : α → Bool) (G : α → β) (l : List α) (F : Nat → β)
    (h : ∀ s v, l[s]? = some v → F s = G v) : (positions p l).map F = (l.filter p).map G := by
  induction l using List.reverseRecOn with
  | nil => rfl
  | append_singleton l v ih =>
    have ih' := ih fun s w hw => h s w (getElem?_snoc_left hw)
    have hl := h l.length v (getElem?_snoc_last l v)
    rw [positions_snoc, List.filter_append, List.map_append, List.map_append, ih']
    cases hp : p v <;> simp [hp, hl]

/-- the iterations for the cell `c` -/
def cellVisits (m : Src) (c : Nat) : List Visit :=
  (m.cellFaces c).flatMap fun f => (m.faceEdges f.1).map fun e => ⟨c, f.1, f.2, e.1, e.2⟩

theorem filter_cell_other (m : Src) (c : Nat) (cs : List Nat) (h : c ∉ cs) :
    (cs.flatMap (cellVisits m)).filter (fun v => v.cell == c) = [] := by
  rw [List.filter_eq_nil_iff]
  intro v hv
  obtain ⟨c', hc', hv⟩ := List.mem_flatMap.1 hv
  obtain ⟨f, _, hv⟩ := List.mem_flatMap.1 hv
  obtain ⟨e, _, rfl⟩ := List.mem_map.1 hv
  simp only [beq_iff_eq]
  rintro rfl
  exact h hc'

theorem filter_cell_self (m : Src) (c : Nat) : (cellVisits m c).filter (fun v => v.cell == c) = cellVisits m c := by
  rw [List.filter_eq_self]
  intro v hv
  obtain ⟨f, _, hv⟩ := List.mem_flatMap.1 hv
  obtain ⟨e, _, rfl⟩ := List.mem_map.1 hv
  simp

theorem visits_filter (m : Src) (c : Nat) (hn : m.cells.Nodup) (hc : c ∈ m.cells) :
    (visits m).filter (fun v => v.cell == c) = cellVisits m c := by
  have hv : visits m = m.cells.flatMap (cellVisits m) := rfl
  rw [hv]
  generalize m.cells = cs at hn hc
  induction cs with
  | nil => cases hc
  | cons a cs ih =>
    rw [List.flatMap_cons, List.filter_append]
    rw [List.nodup_cons] at hn
    rcases List.mem_cons.1 hc with rfl | hc'
    · rw [filter_cell_self, filter_cell_other m c cs hn.1, List.append_nil]
    · rw [ih hn.2 hc']
      have : a ≠ c := fun e => hn.1 (e ▸ hc')
      have h0 := filter_cell_other m c [a] (by simpa using fun e => this e.symm)
      rw [List.flatMap_cons, List.flatMap_nil, List.append_nil] at h0
      rw [h0, List.nil_append]

/-- `cell_get_sides` and any quantity of the sides -/
theorem cell_sides_map {β : Type} {m : Src} (h : Valid m) {i : Info} (hi : InfoOk m i) {c : Nat} (hc : c ∈ m.cells)
    (F : Nat → β) (G : Visit → β) (hF : ∀ s v, (visits m)[s]? = some v → F s = G v) :
    ∃ l, i.cellGetSides c = some l ∧ l.map F = (cellVisits m c).map G := by
  refine ⟨positions (fun v => v.cell == c) (visits m), ?_, ?_⟩
  · rw [Info.cellGetSides, hi.cellSides, List.getElem?_map, List.getElem?_range (h.cells_lt c hc)]; rfl
  · rw [positions_map _ G _ F hF, visits_filter m c h.cells_nodup hc]

/-! ### the nodes of a side -/

/-- the edge in the direction of the face if this points out of the cell, else against it -/
def outEdge (m : Src) (v : Visit) : Nat × Nat :=
  if v.fdir = 1 then usedEdge m (v.edge, v.edir) else (usedEdge m (v.edge, v.edir)).swap

/-- the two nodes of a side in three dimensions: inward order -/
theorem nodes3 {m : Src} {i : Info} (hi : InfoOk m i) (h3 : m.manifoldDim = 3) {s : Nat} {v : Visit}
    (hv : (visits m)[s]? = some v) (hf : v.fdir = 1 ∨ v.fdir = -1) (he : v.edir = 1 ∨ v.edir = -1) :
    sideGetNode m i s 0 = some (outEdge m v).2 ∧ sideGetNode m i s 1 = some (outEdge m v).1 := by
  have hs : i.side s = some (mkRec m v) := hi.side_iff.2 ⟨v, hv, rfl⟩
  unfold sideGetNode
  rw [hs, Option.map_some]
  dsimp only
  rw [mkRec_edge]
  rcases hf with hf | hf <;> rcases he with he | he <;>
    simp [mkRec, h3, hf, he, outEdge, usedEdge]

/-- the two nodes of a side in two dimensions -/
theorem nodes2 {m : Src} {i : Info} (hi : InfoOk m i) (h2 : m.manifoldDim = 2) {s : Nat} {v : Visit}
    (hv : (visits m)[s]? = some v) :
    let e := if v.fdir = 1 then m.edgeNodes v.edge else (m.edgeNodes v.edge).swap
    sideGetNode m i s 0 = some e.1 ∧ sideGetNode m i s 1 = some e.2 := by
  have hs : i.side s = some (mkRec m v) := hi.side_iff.2 ⟨v, hv, rfl⟩
  unfold sideGetNode
  rw [hs, Option.map_some]
  dsimp only
  rw [mkRec_edge]
  by_cases hf : v.fdir = 1 <;> simp [mkRec, h2, hf]

/-! ### the geometry of one side -/

theorem stored3 {m : Src} {i : Info} (k : CornerInfo) (g : Coords) (hi : InfoOk m i) (h3 : m.manifoldDim = 3) {s : Nat}
    {v : Visit} (hv : (visits m)[s]? = some v) (hf : v.fdir = 1 ∨ v.fdir = -1) (he : v.edir = 1 ∨ v.edir = -1) :
    sideStored (ofCaches m i k g) s = some (side3 (g.nodeCoord (outEdge m v).2) (g.nodeCoord (outEdge m v).1)
      (g.faceCentroid v.face) (g.cellCentroid v.cell)
      (sdiv (g.nodeCoord (m.edgeNodes v.edge).1 + g.nodeCoord (m.edgeNodes v.edge).2) 2)) := by
  have hs : i.side s = some (mkRec m v) := hi.side_iff.2 ⟨v, hv, rfl⟩
  obtain ⟨h0, h1⟩ := nodes3 hi h3 hv hf he
  simp [sideStored, computeSideGeometry, sideGetCoordinates, ofCaches, hs, h0, h1, h3, mkRec_edge, mkRec_face, mkRec_cell,
    pt, edgeCentroid]

theorem stored2 {m : Src} {i : Info} (k : CornerInfo) (g : Coords) (hi : InfoOk m i) (h2 : m.manifoldDim = 2) {s : Nat}
    {v : Visit} (hv : (visits m)[s]? = some v) :
    let e := if v.fdir = 1 then m.edgeNodes v.edge else (m.edgeNodes v.edge).swap
    sideStored (ofCaches m i k g) s =
      some (side2 (g.nodeCoord e.1) (g.nodeCoord e.2) (g.cellCentroid v.cell)) := by
  intro e
  have hs : i.side s = some (mkRec m v) := hi.side_iff.2 ⟨v, hv, rfl⟩
  obtain ⟨h0, h1⟩ := nodes2 hi h2 hv
  simp [sideStored, computeSideGeometry, sideGetCoordinates, ofCaches, hs, h0, h1, h2, mkRec_edge, mkRec_face, mkRec_cell,
    pt, e]

/-- area vector of a triangle -/
noncomputable def triVec (a b c : Point) : Point := areaVector [a, b, c]

theorem triVec_eq (a b c : Point) : triVec a b c =
    ⟨3, ((b.y - a.y) * (c.z - a.z) - (b.z - a.z) * (c.y - a.y)) / 2,
      ((b.z - a.z) * (c.x - a.x) - (b.x - a.x) * (c.z - a.z)) / 2,
      ((b.x - a.x) * (c.y - a.y) - (b.y - a.y) * (c.x - a.x)) / 2⟩ := by
  simp only [triVec, areaVector, polyEdges, List.rotate_cons_succ, List.rotate_zero, List.zip_cons_cons, List.cons_append,
    List.nil_append, List.zip_nil_right, List.map_cons, List.map_nil, List.sum_cons, List.sum_nil]
  ext <;> simp only <;> ring

theorem side3_eq {a b f c e : Point} (ha : a.d = 3) (hf : f.d = 3) (hc : c.d = 3) (e3 : e.d = 3) :
    (side3 b a f c e).vol = tetVol c a b f ∧ (side3 b a f c e).outward = triVec a b f ∧
    (side3 b a f c e).mid = triVec e f c := by
  refine ⟨?_, ?_, ?_⟩
  · simp only [side3]
    rw [sub3 _ ha, sub3 _ hf, sub3 _ hc, cross3, dot3]
    simp only [tetVol, det3, vec]; ring
  · simp only [side3]
    rw [sub3 _ ha, sub3 _ hf, cross3, smul3, triVec_eq]
    ext <;> simp only <;> norm_num <;> ring
  · simp only [side3]
    rw [sub3 _ hf, sub3 _ hc, cross3, smul3, triVec_eq]
    ext <;> simp only <;> norm_num <;> ring

theorem side2_eq {a b c : Point} (hb : b.d = 2) (hc : c.d = 2) :
    (side2 a b c).vol = |orient2 a b c| / 2 ∧ (side2 a b c).outward = MeshGeom.edgeNormal a b ∧
    (side2 a b c).mid = mk2 (c.y - a.y) (-(c.x - a.x)) := by
  refine ⟨?_, ?_, ?_⟩
  · simp only [side2]
    rw [sub2 _ hb, sub2 _ hc, cross2, norm2, orient2]
  · simp only [side2]
    rw [sub2 _ hb, MeshGeom.edgeNormal]
    simp
  · simp only [side2]
    rw [sub2 _ hc]

end Jali.SideGeom
