import Verif.Proof.SideGeometry
/-! Sums over the sides of a cell or of a face. -/
namespace Jali.SideGeom
open Jali.Sides Jali.Sides.Spec Jali.Geom Jali.Geom.Spec Jali.Geom.Point Spec

/-- a fan of tetrahedra over the edges of a polygon -/
theorem fan_volume (l : List Point) (o q : Point) :
    ((polyEdges l).map fun e => tetVol o e.1 e.2 q).sum = inner3 (areaVector l) (vec o q) / 3 := by
  obtain ⟨tr, _, _⟩ := areaVector_invariance l (-o.x) (-o.y) (-o.z) 0
  rw [← tr]
  simp only [inner3, areaVector, edges_map, List.map_map, Function.comp_def, vec]
  have h6 : ∀ a b c x y z : ℝ, (a / 2 * x + b / 2 * y + c / 2 * z) / 3 = x / 6 * a + (y / 6 * b + z / 6 * c) := by
    intros; ring
  rw [h6, ← sum_map_mulc, ← sum_map_mulc, ← sum_map_mulc, ← sum_map_add, ← sum_map_add]
  apply sum_map_congr
  intro e _
  simp only [tetVol, det3, vec]; ring

theorem half_sum {α : Type} (l : List α) (f : α → ℝ) : (l.map f).sum / 2 = (l.map fun a => f a / 2).sum := by
  rw [show (fun a => f a / 2) = fun a => 1 / 2 * f a by funext a; ring, sum_map_mulc]; ring

/-- a fan of triangles over the edges of a polygon -/
theorem fan_normal (l : List Point) (q : Point) :
    sum3 ((polyEdges l).map fun e => triVec e.1 e.2 q) = areaVector l := by
  simp only [sum3, List.map_map, Function.comp_def, areaVector, triVec_eq]
  ext
  · rfl
  · dsimp only
    rw [half_sum, ← sum_shift l (fun e => (e.1.y * e.2.z - e.1.z * e.2.y) / 2) (fun p => (p.y * q.z - p.z * q.y) / 2)]
    apply sum_map_congr
    intro e _; ring
  · dsimp only
    rw [half_sum, ← sum_shift l (fun e => (e.1.z * e.2.x - e.1.x * e.2.z) / 2) (fun p => (p.z * q.x - p.x * q.z) / 2)]
    apply sum_map_congr
    intro e _; ring
  · dsimp only
    rw [half_sum, ← sum_shift l (fun e => (e.1.x * e.2.y - e.1.y * e.2.x) / 2) (fun p => (p.x * q.y - p.y * q.x) / 2)]
    apply sum_map_congr
    intro e _; ring

/-- a fan of triangles in the plane -/
theorem fan_area (l : List Point) (o : Point) :
    ((polyEdges l).map fun e => orient2 o e.1 e.2 / 2).sum = shoelace l := by
  rw [shoelace, half_sum, ← sum_shift l (fun e => (e.1.x * e.2.y - e.2.x * e.1.y) / 2) (fun p => (o.y * p.x - o.x * p.y) / 2)]
  apply sum_map_congr
  intro e _; simp only [orient2]; ring

/-- the edges of a face of a cell, turned so that the face points out of the cell, run around it -/
theorem out_edges {m : Src} {faceNodes : Nat → List Nat} (hr : RunsAround m faceNodes) {c f : Nat} {fd : Int}
    (hf : HasFace m c f fd) :
    ((m.faceEdges f).map fun e => outEdge m ⟨c, f, fd, e.1, e.2⟩).Perm (polyEdges (outwardFace faceNodes (f, fd))) := by
  have h0 := hr c f fd hf
  unfold outEdge outwardFace
  by_cases h1 : fd = 1
  · simpa [h1] using h0
  · simp only [h1, if_false]
    have h2 := (h0.map Prod.swap).trans (edges_reverse (faceNodes f)).symm
    rw [List.map_map] at h2
    exact h2

/-- the iterations for one face of a cell -/
def faceVisits (m : Src) (c f : Nat) (fd : Int) : List Visit := (m.faceEdges f).map fun e => ⟨c, f, fd, e.1, e.2⟩

theorem cellVisits_eq (m : Src) (c : Nat) : cellVisits m c = (m.cellFaces c).flatMap fun f => faceVisits m c f.1 f.2 := rfl

theorem filter_face {m : Src} {c f : Nat} {fd : Int} (hn : ((m.cellFaces c).map Prod.fst).Nodup) (hf : (f, fd) ∈ m.cellFaces c) :
    (cellVisits m c).filter (fun v => decide (v.face = f)) = faceVisits m c f fd := by
  rw [cellVisits_eq]
  generalize m.cellFaces c = fs at hn hf
  induction fs with
  | nil => cases hf
  | cons a fs ih =>
    rw [List.map_cons, List.nodup_cons] at hn
    rw [List.flatMap_cons, List.filter_append]
    rcases List.mem_cons.1 hf with rfl | hf'
    · have h1 : (faceVisits m c f fd).filter (fun v => decide (v.face = f)) = faceVisits m c f fd := by
        rw [List.filter_eq_self]
        intro v hv
        obtain ⟨e, _, rfl⟩ := List.mem_map.1 hv
        simp
      have h2 : (fs.flatMap fun f => faceVisits m c f.1 f.2).filter (fun v => decide (v.face = f)) = [] := by
        rw [List.filter_eq_nil_iff]
        intro v hv
        obtain ⟨f', hf', hv⟩ := List.mem_flatMap.1 hv
        obtain ⟨e, _, rfl⟩ := List.mem_map.1 hv
        simp only [decide_eq_true_eq]
        rintro rfl
        exact hn.1 (List.mem_map.2 ⟨f', hf', rfl⟩)
      rw [h1, h2, List.append_nil]
    · rw [ih hn.2 hf']
      have h1 : (faceVisits m c a.1 a.2).filter (fun v => decide (v.face = f)) = [] := by
        rw [List.filter_eq_nil_iff]
        intro v hv
        obtain ⟨e, _, rfl⟩ := List.mem_map.1 hv
        simp only [decide_eq_true_eq]
        rintro rfl
        exact hn.1 (List.mem_map.2 ⟨_, hf', rfl⟩)
      rw [h1, List.nil_append]

theorem filter_map_pair {α β γ : Type} [DecidableEq γ] (l : List α) (F : α → β) (K : α → γ) (x : γ) :
    (l.filter fun a => decide (K a = x)).map F = ((l.map fun a => (K a, F a)).filter fun p => decide (p.1 = x)).map Prod.snd := by
  induction l with
  | nil => rfl
  | cons a l ih =>
    by_cases h : K a = x
    · simp [h, ih]
    · simp [h, ih]

/-- the sides of a cell on one of its faces and any quantity of them -/
theorem face_sides_map {β : Type} {m : Src} (h : Valid m) {i : Info} (hi : InfoOk m i) {c f : Nat} {fd : Int}
    (hf : HasFace m c f fd) (F : Nat → β) (G : Visit → β) (hF : ∀ s v, (visits m)[s]? = some v → F s = G v) :
    ∃ l, i.cellGetSides c = some l ∧ (l.filter fun s => decide ((i.side s).map (·.face) = some f)).map F =
      (faceVisits m c f fd).map G := by
  obtain ⟨l, h1, h2⟩ := cell_sides_map h hi hf.1 (fun s => ((i.side s).map (·.face), F s)) (fun v => (some v.face, G v))
    (fun s v hv => by
      have hs : i.side s = some (mkRec m v) := hi.side_iff.2 ⟨v, hv, rfl⟩
      simp only [hF s v hv, hs, Option.map_some, mkRec_face])
  refine ⟨l, h1, ?_⟩
  have h3 : (faceVisits m c f fd).map G = ((cellVisits m c).filter fun v => decide (some v.face = some f)).map G := by
    have e : (fun v : Visit => decide (some v.face = some f)) = fun v => decide (v.face = f) := by
      funext v; simp
    rw [e, filter_face (h.faces_nodup c hf.1) hf.2]
  rw [h3, filter_map_pair l F, filter_map_pair (cellVisits m c) G (fun v => some v.face), h2]

end Jali.SideGeom
