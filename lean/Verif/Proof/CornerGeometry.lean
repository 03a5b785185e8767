import Verif.Props.SideGeometry
/-! Lemmas about the geometry of corners. -/
namespace Jali.SideGeom
open Jali.Sides Jali.Sides.Spec Jali.Geom Jali.Geom.Spec Jali.Geom.Point Spec

/-! ### the wedges of a corner -/

/-- the wedges of a corner, listed by sides -/
theorem corner_wedges_perm {m : Src} (h : Valid m) (hn : NodesOk m) : ∃ i k, cacheSideInfo m = some i ∧ cacheCornerInfo m i = some k ∧
    ∀ cn c n, cornerGetCell i k cn = some c → cornerGetNode m i k cn = some n → ∃ ws ls, k.cornerWedges[cn]? = some ws ∧
      c ∈ m.cells ∧ n ∈ m.cellNodes c ∧
      i.cellGetSides c = some ls ∧ ws ≠ [] ∧
      ws.Perm ((ls.flatMap fun s => [2 * s, 2 * s + 1]).filter fun w => decide (wedgeGetNode m i w = some n)) := by
  obtain ⟨i, k, e, ek, h1, h2, h3, _⟩ := corners m h hn
  obtain ⟨i', e', _, _, _, _, h5, _⟩ := sides_are_incidences m h
  rw [e] at e'; cases e'
  refine ⟨i, k, e, ek, fun cn c n hc hcn => ?_⟩
  have hws : ∃ ws, k.cornerWedges[cn]? = some ws ∧ ws ≠ [] := by
    unfold cornerGetCell at hc
    rcases hk : k.cornerWedges[cn]? with _ | ws
    · rw [hk] at hc; simp at hc
    · rw [hk] at hc
      refine ⟨ws, rfl, ?_⟩
      rintro rfl
      simp at hc
  obtain ⟨ws, hws, hne⟩ := hws
  have hlt : cn < k.cornerWedges.length := lt_of_getElem? hws
  obtain ⟨c', hc', n', hn', h6, h7⟩ := h1 cn hlt
  rw [hc] at h6; cases h6
  rw [hcn] at h7; cases h7
  obtain ⟨ls, hls, hsort, hmem⟩ := h5 c (h.cells_lt c hc')
  obtain ⟨hnd, hw⟩ := h3 cn ws c n hws hc hcn
  refine ⟨ws, ls, hws, hc', hn', hls, hne, ?_⟩
  have hlnd : ls.Nodup := hsort.imp fun h => Nat.ne_of_lt h
  have hfl : (ls.flatMap fun s => [2 * s, 2 * s + 1]).Nodup := by
    rw [List.nodup_flatMap]
    refine ⟨fun s _ => by simp, ?_⟩
    refine hlnd.imp ?_
    intro a b hab w ha hb
    simp at ha hb
    omega
  refine (List.perm_ext_iff_of_nodup hnd (hfl.filter _)).2 fun w => ?_
  rw [hw w, List.mem_filter, List.mem_flatMap, decide_eq_true_eq]
  refine and_congr_left fun _ => ?_
  constructor
  · rintro ⟨r, hr, hrc⟩
    exact ⟨w / 2, (hmem _).2 ⟨r, hr, hrc⟩, by simp; omega⟩
  · rintro ⟨s, hs, hw2⟩
    obtain ⟨r, hr, hrc⟩ := (hmem s).1 hs
    refine ⟨r, ?_, hrc⟩
    have : w / 2 = s := by simp at hw2; omega
    rw [Info.wedge, wedgeGetSide, this]; exact hr

/-- the even wedges at a node are those of the sides with first node `n`, the odd those of the sides with second node `n` -/
theorem filter_even (ls : List Nat) (N : Nat → Nat → Option Nat) (n : Nat) :
    (((ls.flatMap fun s => [2 * s, 2 * s + 1]).filter fun w => decide (N (w / 2) (w % 2) = some n)).filter fun w => decide (w % 2 = 0)) =
      (ls.filter fun s => decide (N s 0 = some n)).map (2 * ·) ∧
    (((ls.flatMap fun s => [2 * s, 2 * s + 1]).filter fun w => decide (N (w / 2) (w % 2) = some n)).filter fun w => !decide (w % 2 = 0)) =
      (ls.filter fun s => decide (N s 1 = some n)).map (2 * · + 1) := by
  induction ls with
  | nil => exact ⟨rfl, rfl⟩
  | cons s ls ih =>
    have e1 : 2 * s / 2 = s := by omega
    have e2 : 2 * s % 2 = 0 := by omega
    have e3 : (2 * s + 1) / 2 = s := by omega
    have e4 : (2 * s + 1) % 2 = 1 := by omega
    constructor
    · rw [List.flatMap_cons, List.filter_append, List.filter_append, ih.1]
      by_cases h0 : N s 0 = some n <;> by_cases h1 : N s 1 = some n <;>
        simp [List.filter_cons, e1, e2, e3, e4, h0, h1]
    · rw [List.flatMap_cons, List.filter_append, List.filter_append, ih.2]
      by_cases h0 : N s 0 = some n <;> by_cases h1 : N s 1 = some n <;>
        simp [List.filter_cons, e1, e2, e3, e4, h0, h1]

/-! ### sums of wedges -/

theorem sumWedges_eq (M : SMesh) (V : Nat → ℝ) : ∀ (ws : List Nat) (v : ℝ), (∀ w ∈ ws, wedgeVolume M w = some (V w)) →
    sumWedges M ws v = some (v + (ws.map V).sum) := by
  intro ws
  induction ws with
  | nil => intro v _; simp [sumWedges]
  | cons w ws ih =>
    intro v h
    rw [sumWedges, h w (by simp), Option.bind_some, ih _ fun x hx => h x (by simp [hx])]
    simp [add_assoc]

/-! ### numbering the points -/

/-- the position of an entity in the final list -/
def at_ (L : List Labelled) (id : Nat) (kind : EntityKind) : Nat := L.findIdx fun q => decide (q.id = id) && decide (q.kind = kind)

theorem locate_none {l : List Labelled} {id : Nat} {kind : EntityKind} (p : Point)
    (h : (l.findIdx? fun q => decide (q.id = id) && decide (q.kind = kind)) = none) :
    locate l id kind p = (l.length, l ++ [⟨id, kind, p⟩]) := by unfold locate; rw [h]

theorem locate_some {l : List Labelled} {id : Nat} {kind : EntityKind} (p : Point) {j : Nat}
    (h : (l.findIdx? fun q => decide (q.id = id) && decide (q.kind = kind)) = some j) :
    locate l id kind p = (j, l) := by unfold locate; rw [h]

theorem locate_spec (l : List Labelled) (id : Nat) (kind : EntityKind) (p : Point) :
    (∃ x, (locate l id kind p).2 = l ++ x) ∧ (locate l id kind p).1 < (locate l id kind p).2.length ∧
    (∀ x, at_ ((locate l id kind p).2 ++ x) id kind = (locate l id kind p).1) ∧
    (∀ q ∈ (locate l id kind p).2, q ∈ l ∨ q = ⟨id, kind, p⟩) := by
  rcases hf : l.findIdx? fun q => decide (q.id = id) && decide (q.kind = kind) with _ | j
  · rw [locate_none p hf]
    refine ⟨⟨_, rfl⟩, by simp, ?_, ?_⟩
    · intro x
      rw [List.findIdx?_eq_none_iff] at hf
      dsimp only
      unfold at_
      rw [List.append_assoc, List.findIdx_append, if_neg, List.singleton_append, List.findIdx_cons]
      · simp
      · rw [List.findIdx_eq_length.2 hf]; omega
    · intro q hq
      rcases List.mem_append.1 hq with h | h
      · exact .inl h
      · exact .inr (by simpa using h)
  · rw [locate_some p hf]
    have h1 := List.findIdx?_eq_some_iff_findIdx_eq.1 hf
    refine ⟨⟨[], by simp⟩, h1.1, ?_, fun q hq => .inl hq⟩
    intro x
    unfold at_
    rw [List.findIdx_append, if_pos (by rw [h1.2]; exact h1.1), h1.2]

/-- looking up behind an entry of another kind -/
theorem locate_cons (a : Labelled) (l : List Labelled) (id : Nat) (kind : EntityKind) (p : Point) (h : a.kind ≠ kind) :
    (locate (a :: l) id kind p).2 = a :: (locate l id kind p).2 := by
  have hc : (a :: l).findIdx? (fun q => decide (q.id = id) && decide (q.kind = kind)) =
      (l.findIdx? fun q => decide (q.id = id) && decide (q.kind = kind)).map (· + 1) := by
    rw [List.findIdx?_cons]; simp [h]
  rcases hf : l.findIdx? fun q => decide (q.id = id) && decide (q.kind = kind) with _ | j
  · rw [hf] at hc
    rw [locate_none p hf, locate_none p hc]; rfl
  · rw [hf] at hc
    rw [locate_some p hf, locate_some p hc]

/-- the points of face and edge entries are the centres -/
def Lab (M : SMesh) (L : List Labelled) : Prop :=
  ∀ q ∈ L, (q.kind = .FACE → q.point = M.faceCentroid q.id) ∧ (q.kind = .EDGE → q.point = edgeCentroid M q.id)

theorem at_point {M : SMesh} {L : List Labelled} (h : Lab M L) {id : Nat} {kind : EntityKind} (hlt : at_ L id kind < L.length) :
    (kind = .FACE → labPoint L (at_ L id kind) = M.faceCentroid id) ∧
    (kind = .EDGE → labPoint L (at_ L id kind) = edgeCentroid M id) := by
  have hp := List.findIdx_getElem (w := hlt)
  simp only [Bool.and_eq_true, decide_eq_true_eq] at hp
  have hm := List.getElem_mem hlt
  have hl : labPoint L (at_ L id kind) = (L[at_ L id kind]).point := by
    rw [labPoint, List.getElem?_eq_getElem hlt]
  have hq := h _ hm
  change (L[at_ L id kind]).id = id ∧ (L[at_ L id kind]).kind = kind at hp
  rw [hl]
  generalize L[at_ L id kind] = q at *
  obtain ⟨rfl, rfl⟩ := hp
  exact hq

theorem labPoint_append {l x : List Labelled} {j : Nat} (h : j < l.length) : labPoint (l ++ x) j = labPoint l j := by
  rw [labPoint, labPoint, List.getElem?_append_left h]

/-- the two triangles of a wedge -/
def wedgeTri (b : Bool) (jf je : Nat) : List (Nat × Nat × Nat) :=
  if b then [(0, jf, je), (1, je, jf)] else [(0, je, jf), (1, jf, je)]

/-- the sign tested for a wedge with face `f`, edge `e` -/
noncomputable def posWedge (M : SMesh) (N v0 : Point) (f e : Nat) : Bool :=
  decide (0 < dot (cross (edgeCentroid M e - N) (M.faceCentroid f - N)) v0)

theorem facetLoop_spec (M : SMesh) (v0 N : Point) (F E : Nat → Nat) : ∀ (ws : List Nat) (l : List Labelled) (fs : List (Nat × Nat × Nat)),
    (∀ w ∈ ws, M.sideFace (w / 2) = some (F w) ∧ M.sideEdge (w / 2) = some (E w)) → Lab M l → 0 < l.length → labPoint l 0 = N →
    ∃ x, Lab M (l ++ x) ∧
      facetLoop M v0 ws l fs = some (l ++ x, fs ++ ws.flatMap fun w =>
        wedgeTri (posWedge M N v0 (F w) (E w)) (at_ (l ++ x) (F w) .FACE) (at_ (l ++ x) (E w) .EDGE)) ∧
      ∀ w ∈ ws, at_ (l ++ x) (F w) .FACE < (l ++ x).length ∧ at_ (l ++ x) (E w) .EDGE < (l ++ x).length := by
  intro ws
  induction ws with
  | nil => intro l fs _ hl _ _; exact ⟨[], by simpa using hl, by simp [facetLoop], by simp⟩
  | cons w ws ih =>
    intro l fs hw hl h0 hN
    obtain ⟨hf, he⟩ := hw w (by simp)
    obtain ⟨⟨x1, hx1⟩, lt1, at1, mem1⟩ := locate_spec l (F w) .FACE (M.faceCentroid (F w))
    obtain ⟨⟨x2, hx2⟩, lt2, at2, mem2⟩ := locate_spec (locate l (F w) .FACE (M.faceCentroid (F w))).2 (E w) .EDGE (edgeCentroid M (E w))
    rw [facetLoop, hf, he, Option.bind_some, Option.bind_some]
    dsimp only
    generalize hj1 : (locate l (F w) .FACE (M.faceCentroid (F w))).1 = jf at *
    generalize hl1 : (locate l (F w) .FACE (M.faceCentroid (F w))).2 = l1 at *
    generalize hj2 : (locate l1 (E w) .EDGE (edgeCentroid M (E w))).1 = je at *
    generalize hl2 : (locate l1 (E w) .EDGE (edgeCentroid M (E w))).2 = l2 at *
    have hlab1 : Lab M l1 := by
      intro q hq
      rcases mem1 q hq with h | rfl
      · exact hl q h
      · exact ⟨fun _ => rfl, fun h => by cases h⟩
    have hlab2 : Lab M l2 := by
      intro q hq
      rcases mem2 q hq with h | rfl
      · exact hlab1 q h
      · exact ⟨fun h => by (cases h), fun _ => rfl⟩
    have hl20 : labPoint l2 0 = N := by
      rw [hx2, hx1, List.append_assoc, labPoint_append h0, hN]
    have ljf : jf < l2.length := by rw [hx2, List.length_append]; omega
    have ajf : at_ l2 (F w) .FACE = jf := by rw [hx2]; exact at1 x2
    have aje : at_ l2 (E w) .EDGE = je := by have := at2 []; rwa [List.append_nil] at this
    have pjf : labPoint l2 jf = M.faceCentroid (F w) := by
      have := (at_point hlab2 (id := F w) (kind := .FACE) (by rw [ajf]; exact ljf)).1 rfl
      rwa [ajf] at this
    have pje : labPoint l2 je = edgeCentroid M (E w) := by
      have := (at_point hlab2 (id := E w) (kind := .EDGE) (by rw [aje]; exact lt2)).2 rfl
      rwa [aje] at this
    have hwf : wedgeFacets l2 v0 jf je = wedgeTri (posWedge M N v0 (F w) (E w)) jf je := by
      rw [wedgeFacets, pjf, pje, hl20, wedgeTri, posWedge]
      by_cases hp : 0 < dot (cross (edgeCentroid M (E w) - N) (M.faceCentroid (F w) - N)) v0
      · rw [if_pos hp, if_pos (decide_eq_true hp)]
      · rw [if_neg hp, if_neg (by simpa using hp)]
    obtain ⟨x, hx, hrun, hlt⟩ := ih l2 (fs ++ wedgeFacets l2 v0 jf je) (fun w' hw' => hw w' (by simp [hw'])) hlab2
      (by omega) hl20
    have hL : l ++ (x1 ++ x2 ++ x) = l2 ++ x := by rw [hx2, hx1]; simp [List.append_assoc]
    refine ⟨x1 ++ x2 ++ x, by rw [hL]; exact hx, ?_, ?_⟩
    · have ajf' : at_ (l2 ++ x) (F w) .FACE = jf := by rw [hx2, List.append_assoc]; exact at1 _
      have aje' : at_ (l2 ++ x) (E w) .EDGE = je := at2 x
      rw [hL, hrun, hwf, List.flatMap_cons, ajf', aje', List.append_assoc]
    · intro w' hw'
      rw [hL]
      rcases List.mem_cons.1 hw' with rfl | hw'
      · have ajf' : at_ (l2 ++ x) (F w') .FACE = jf := by rw [hx2, List.append_assoc]; exact at1 _
        have aje' : at_ (l2 ++ x) (E w') .EDGE = je := at2 x
        rw [ajf', aje', List.length_append]; omega
      · exact hlt w' hw'

/-- the points of `corner_get_coordinates` are those of the facetization, with the cell's centroid last -/
theorem coordLoop_facetLoop (M : SMesh) (v0 : Point) (a b : Labelled) (ha : a.kind = .NODE) (hb : b.kind = .CELL) :
    ∀ (ws : List Nat) (x : List Labelled) (fs : List (Nat × Nat × Nat)) (r : List Labelled × List (Nat × Nat × Nat)),
    facetLoop M v0 ws (a :: b :: x) fs = some r → ∃ y, r.1 = a :: b :: y ∧ coordLoop M ws (a :: x) = some (a :: y) := by
  intro ws
  induction ws with
  | nil =>
    intro x fs r h
    rw [facetLoop] at h
    cases h
    exact ⟨x, rfl, rfl⟩
  | cons w ws ih =>
    intro x fs r h
    rw [facetLoop] at h
    rcases hf : M.sideFace (w / 2) with _ | f
    · rw [hf] at h; cases h
    rcases he : M.sideEdge (w / 2) with _ | e
    · rw [hf, he] at h; cases h
    rw [hf, he, Option.bind_some, Option.bind_some] at h
    dsimp only at h
    have k1 : a.kind ≠ .FACE := by rw [ha]; decide
    have k2 : a.kind ≠ .EDGE := by rw [ha]; decide
    have k3 : b.kind ≠ .FACE := by rw [hb]; decide
    have k4 : b.kind ≠ .EDGE := by rw [hb]; decide
    rw [locate_cons a _ _ _ _ k1, locate_cons b _ _ _ _ k3, locate_cons a _ _ _ _ k2, locate_cons b _ _ _ _ k4] at h
    obtain ⟨y, h1, h2⟩ := ih _ _ r h
    refine ⟨y, h1, ?_⟩
    rw [coordLoop, hf, he, Option.bind_some, Option.bind_some, locate_cons a _ _ _ _ k1, locate_cons a _ _ _ _ k2]
    exact h2

/-! ### watertight -/

/-- the directed edges of a triangle -/
def triEdges (t : Nat × Nat × Nat) : List (Nat × Nat) := polyEdges (triangle t)

theorem triEdges_eq (t : Nat × Nat × Nat) : triEdges t = [(t.1, t.2.1), (t.2.1, t.2.2), (t.2.2, t.1)] := rfl

def aEdges (b : Bool) (jf : Nat) : List (Nat × Nat) := if b then [(0, jf), (jf, 1)] else [(jf, 0), (1, jf)]
def bEdges (b : Bool) (je : Nat) : List (Nat × Nat) := if b then [(je, 0), (1, je)] else [(0, je), (je, 1)]
def sEdges (jf je : Nat) : List (Nat × Nat) := [(jf, je), (je, jf)]

theorem triEdges_wedge (b : Bool) (jf je : Nat) :
    ((wedgeTri b jf je).flatMap triEdges : Multiset (Nat × Nat)) = (aEdges b jf : Multiset (Nat × Nat)) + bEdges b je + sEdges jf je := by
  cases b <;> simp [wedgeTri, triEdges_eq, aEdges, bEdges, sEdges]
  · rw [List.perm_iff_count]
    intro x
    simp [List.count_cons]; omega
  · rw [List.perm_iff_count]
    intro x
    simp [List.count_cons]; omega

theorem coe_flatMap_add {α β : Type} (l : List α) (f g : α → List β) (h : α → Multiset β)
    (e : ∀ a ∈ l, (f a : Multiset β) = (g a : Multiset β) + h a) :
    ((l.flatMap f : List β) : Multiset β) = (l.flatMap g : List β) + (l.map h).sum := by
  induction l with
  | nil => simp
  | cons a l ih =>
    rw [List.flatMap_cons, List.flatMap_cons, ← Multiset.coe_add, e a (by simp), ih fun x hx => e x (by simp [hx]),
      ← Multiset.coe_add, List.map_cons, List.sum_cons]
    abel

theorem flatMap_wedge {α : Type} (b : Bool) (l : List α) (J K : α → Nat) :
    ((l.flatMap fun v => (wedgeTri b (J v) (K v)).flatMap triEdges : List (Nat × Nat)) : Multiset (Nat × Nat)) =
      ((l.map J).flatMap (aEdges b) : List (Nat × Nat)) + ((l.map K).flatMap (bEdges b) : List (Nat × Nat)) +
        (l.flatMap fun v => sEdges (J v) (K v) : List (Nat × Nat)) := by
  induction l with
  | nil => rfl
  | cons a l ih =>
    simp only [List.flatMap_cons, List.map_cons, ← Multiset.coe_add]
    rw [ih, triEdges_wedge]
    abel

theorem swap_aEdges (b : Bool) (l : List Nat) : ((l.flatMap (aEdges b)).map Prod.swap) = l.flatMap (aEdges !b) := by
  rw [List.map_flatMap]; congr 1; funext j; cases b <;> rfl

theorem swap_bEdges (b : Bool) (l : List Nat) : ((l.flatMap (bEdges b)).map Prod.swap) = l.flatMap (bEdges !b) := by
  rw [List.map_flatMap]; congr 1; funext j; cases b <;> rfl

theorem swap_sEdges {α : Type} (l : List α) (J K : α → Nat) :
    (((l.flatMap fun v => sEdges (J v) (K v)).map Prod.swap : List (Nat × Nat)) : Multiset (Nat × Nat)) =
      (l.flatMap fun v => sEdges (J v) (K v) : List (Nat × Nat)) := by
  rw [List.map_flatMap, Multiset.coe_eq_coe]
  exact List.Perm.flatMap_left _ fun a _ => List.Perm.swap _ _ _

/-- positive triangles at as many wedges of each face and edge as negative ones make a closed surface -/
theorem watertight {α : Type} (P Q : List α) (J K : α → Nat) (hJ : (P.map J).Perm (Q.map J)) (hK : (P.map K).Perm (Q.map K)) :
    (((P.flatMap fun v => (wedgeTri true (J v) (K v)).flatMap triEdges) ++
      (Q.flatMap fun v => (wedgeTri false (J v) (K v)).flatMap triEdges)).map Prod.swap).Perm
    ((P.flatMap fun v => (wedgeTri true (J v) (K v)).flatMap triEdges) ++
      (Q.flatMap fun v => (wedgeTri false (J v) (K v)).flatMap triEdges)) := by
  rw [← Multiset.coe_eq_coe, ← Multiset.map_coe, ← Multiset.coe_add, flatMap_wedge, flatMap_wedge]
  simp only [Multiset.map_add, Multiset.map_coe, swap_aEdges, swap_bEdges, swap_sEdges, Bool.not_true, Bool.not_false]
  have h1 : ∀ b, (((P.map J).flatMap (aEdges b) : List (Nat × Nat)) : Multiset (Nat × Nat)) = ((Q.map J).flatMap (aEdges b) : List (Nat × Nat)) :=
    fun b => Multiset.coe_eq_coe.2 (hJ.flatMap_right _)
  have h2 : ∀ b, (((P.map K).flatMap (bEdges b) : List (Nat × Nat)) : Multiset (Nat × Nat)) = ((Q.map K).flatMap (bEdges b) : List (Nat × Nat)) :=
    fun b => Multiset.coe_eq_coe.2 (hK.flatMap_right _)
  rw [h1, h1, h2, h2]
  abel

/-! ### the faces and edges at a node of a cell -/

theorem face_pairs {m : Src} {faceNodes : Nat → List Nat} (hr : RunsAround m faceNodes) {c : Nat} (hc : c ∈ m.cells) (n : Nat) :
    (((cellVisits m c).filter fun v => decide ((outEdge m v).2 = n)).map Visit.face).Perm
      (((cellVisits m c).filter fun v => decide ((outEdge m v).1 = n)).map Visit.face) := by
  rw [cellVisits_eq, List.filter_flatMap, List.filter_flatMap, List.map_flatMap, List.map_flatMap]
  refine List.Perm.flatMap_left _ fun fd hfd => ?_
  have hp := out_edges hr (c := c) (f := fd.1) (fd := fd.2) ⟨hc, hfd⟩
  have h0 : ∀ (G : Nat × Nat → Nat), ((faceVisits m c fd.1 fd.2).filter fun v => decide (G (outEdge m v) = n)).map Visit.face =
      List.replicate (((m.faceEdges fd.1).map fun e => outEdge m ⟨c, fd.1, fd.2, e.1, e.2⟩).map G |>.count n) fd.1 := by
    intro G
    rw [faceVisits]
    generalize m.faceEdges fd.1 = es
    induction es with
    | nil => rfl
    | cons e es ih =>
      rw [List.map_cons, List.filter_cons]
      by_cases h : G (outEdge m ⟨c, fd.1, fd.2, e.1, e.2⟩) = n
      · rw [if_pos (decide_eq_true h), List.map_cons, ih, List.map_cons, List.map_cons, List.count_cons, if_pos (by simpa using h),
          List.replicate_succ]
      · rw [if_neg (by simpa using h), ih, List.map_cons, List.map_cons, List.count_cons, if_neg (by simpa using h), Nat.add_zero]
  rw [h0 Prod.snd, h0 Prod.fst, (hp.map Prod.snd).count_eq, (hp.map Prod.fst).count_eq]
  have : ((polyEdges (outwardFace faceNodes (fd.1, fd.2))).map Prod.snd).Perm
      ((polyEdges (outwardFace faceNodes (fd.1, fd.2))).map Prod.fst) := by
    rw [edges_fst, edges_snd]; exact List.rotate_perm _ _
  rw [this.count_eq]

theorem edge_pairs {m : Src} (ho : Oriented m) {c : Nat} (hc : c ∈ m.cells) (hp : EdgesPaired m c) (n : Nat) :
    (((cellVisits m c).filter fun v => decide ((outEdge m v).2 = n)).map Visit.edge).Perm
      (((cellVisits m c).filter fun v => decide ((outEdge m v).1 = n)).map Visit.edge) := by
  have hd : ∀ v ∈ cellVisits m c, (v.fdir = 1 ∨ v.fdir = -1) ∧ (v.edir = 1 ∨ v.edir = -1) := by
    intro v hv
    obtain ⟨f, hf, hv⟩ := List.mem_flatMap.1 hv
    obtain ⟨e, he, rfl⟩ := List.mem_map.1 hv
    exact ⟨ho.fdir _ _ _ ⟨hc, hf⟩, ho.edir _ _ _ _ _ ⟨hc, hf⟩ he⟩
  have hu : edgeUses m c = (cellVisits m c).map fun v => (v.edge, v.fdir * v.edir) := by
    rw [edgeUses, cellVisits, List.map_flatMap]
    congr 1; funext f; rw [List.map_map]; rfl
  have hout : ∀ v ∈ cellVisits m c, outEdge m v = usedEdge m (v.edge, v.fdir * v.edir) ∧
      (outEdge m v).swap = usedEdge m (v.edge, -(v.fdir * v.edir)) := by
    intro v hv
    obtain ⟨hf, he⟩ := hd v hv
    simp only [outEdge, usedEdge]
    rcases hf with hf | hf <;> rcases he with he | he <;> simp [hf, he]
  have key : ∀ (G : Nat × Int → Nat), ((edgeUses m c).filter fun e => decide (G e = n)).map Prod.fst =
      ((cellVisits m c).filter fun v => decide (G (v.edge, v.fdir * v.edir) = n)).map Visit.edge := by
    intro G
    rw [hu, List.filter_map, List.map_map]; rfl
  have e1 : ((cellVisits m c).filter fun v => decide ((outEdge m v).2 = n)) =
      (cellVisits m c).filter fun v => decide ((fun e : Nat × Int => (usedEdge m e).2) (v.edge, v.fdir * v.edir) = n) :=
    List.filter_congr fun v hv => by rw [(hout v hv).1]
  have e2 : ((cellVisits m c).filter fun v => decide ((outEdge m v).1 = n)) =
      (cellVisits m c).filter fun v => decide ((fun e : Nat × Int => (usedEdge m (e.1, -e.2)).2) (v.edge, v.fdir * v.edir) = n) :=
    List.filter_congr fun v hv => by simp only [← (hout v hv).2, Prod.snd_swap]
  rw [e1, e2, ← key fun e => (usedEdge m e).2, ← key fun e => (usedEdge m (e.1, -e.2)).2]
  have h3 := (hp.filter fun e => decide ((usedEdge m e).2 = n)).map Prod.fst
  rw [List.filter_map, List.map_map] at h3
  exact h3.symm

/-! ### the surface of a corner -/

/-- what `corner_get_facetization` does, and the volume, in terms of the visits -/
theorem corner_facets_parts (m : Src) (faceNodes : Nat → List Nat) (g : Coords) (h : Solid m faceNodes g) (hn : NodesOk m) :
    ∃ i k, cacheSideInfo m = some i ∧ cacheCornerInfo m i = some k ∧
      ∀ cn c n, cornerGetCell i k cn = some c → cornerGetNode m i k cn = some n →
        (∀ l, i.cellGetSides c = some l → ∀ s ∈ l, ∃ v, sideVolume (ofCaches m i k g) s = some v ∧ 0 < v) →
        ∃ (L : List Labelled) (ws : List Nat) (tris : List (Nat × Nat × Nat)) (J K : Visit → Nat) (v : ℝ),
          c ∈ m.cells ∧ k.cornerWedges[cn]? = some ws ∧
          cornerFacets3 (ofCaches m i k g) cn = some (L.map (·.point), tris) ∧
          (∀ t ∈ tris, t.1 < L.length ∧ t.2.1 < L.length ∧ t.2.2 < L.length) ∧
          labPoint L 0 = g.nodeCoord n ∧ labPoint L 1 = g.cellCentroid c ∧ 2 ≤ L.length ∧
          (tris.flatMap triEdges).Perm
            ((((cellVisits m c).filter fun v => decide ((outEdge m v).2 = n)).flatMap fun v => (wedgeTri true (J v) (K v)).flatMap triEdges) ++
             (((cellVisits m c).filter fun v => decide ((outEdge m v).1 = n)).flatMap fun v => (wedgeTri false (J v) (K v)).flatMap triEdges)) ∧
          (∀ u v, u.face = v.face → J u = J v) ∧ (∀ u v, u.edge = v.edge → K u = K v) ∧
          cornerVolume (ofCaches m i k g) cn = some v ∧
          (tris.map fun t => tetVol (labPoint L 0) (labPoint L t.1) (labPoint L t.2.1) (labPoint L t.2.2)).sum = v := by
  obtain ⟨i, k, e, ek, H⟩ := corner_wedges_perm h.valid hn
  obtain ⟨i', e', hi⟩ := cache_ok h.valid
  rw [e] at e'; cases e'
  obtain ⟨i', e', _, _, _, _, hs, _⟩ := sides_are_incidences m h.valid
  rw [e] at e'; cases e'
  refine ⟨i, k, e, ek, fun cn c n hc hcn hpos => ?_⟩
  obtain ⟨ws, ls, hws, hcm, hnm, hls, hne, hperm⟩ := H cn c n hc hcn
  obtain ⟨ls', hls', _, hmem⟩ := hs c (h.valid.cells_lt c hcm)
  rw [hls] at hls'; cases hls'
  set M := ofCaches m i k g with hM
  -- the visit of a side
  have hside : ∀ s ∈ ls, ∃ v, (visits m)[s]? = some v ∧ v.cell = c ∧ i.side s = some (mkRec m v) := by
    intro s hs
    obtain ⟨r, hr, hrc⟩ := (hmem s).1 hs
    obtain ⟨v, hv, rfl⟩ := hi.side_iff.1 hr
    exact ⟨v, hv, by rwa [mkRec_cell] at hrc, hr⟩
  have hwedge : ∀ w ∈ ws, w / 2 ∈ ls ∧ sideGetNode m i (w / 2) (w % 2) = some n := by
    intro w hw
    obtain ⟨h1, h2⟩ := List.mem_filter.1 (hperm.mem_iff.1 hw)
    obtain ⟨s, hs, hw2⟩ := List.mem_flatMap.1 h1
    have : w / 2 = s := by simp at hw2; omega
    exact ⟨this ▸ hs, of_decide_eq_true h2⟩
  let F : Nat → Nat := fun w => (M.sideFace (w / 2)).getD 0
  let E : Nat → Nat := fun w => (M.sideEdge (w / 2)).getD 0
  have hFE : ∀ (w : Nat) (v : Visit), (visits m)[w / 2]? = some v →
      M.sideFace (w / 2) = some v.face ∧ M.sideEdge (w / 2) = some v.edge ∧ F w = v.face ∧ E w = v.edge := by
    intro w v hv
    have hs : i.side (w / 2) = some (mkRec m v) := hi.side_iff.2 ⟨v, hv, rfl⟩
    have h1 : M.sideFace (w / 2) = some v.face := by rw [hM, ofCaches]; simp only [hs, Option.map_some, mkRec_face]
    have h2 : M.sideEdge (w / 2) = some v.edge := by rw [hM, ofCaches]; simp only [hs, Option.map_some, mkRec_edge]
    exact ⟨h1, h2, by simp only [F, h1, Option.getD_some], by simp only [E, h2, Option.getD_some]⟩
  obtain ⟨w0, wt, rfl⟩ : ∃ a t, ws = a :: t := by
    cases ws with
    | nil => exact absurd rfl hne
    | cons a t => exact ⟨a, t, rfl⟩
  set N := g.nodeCoord n with hN
  set C := g.cellCentroid c with hC
  obtain ⟨x, hlab, hrun, hlt⟩ := facetLoop_spec M (C - N) N F E (w0 :: wt) [⟨n, .NODE, N⟩, ⟨c, .CELL, C⟩] []
    (by
      intro w hw
      obtain ⟨h1, _⟩ := hwedge w hw
      obtain ⟨v, hv, _, _⟩ := hside _ h1
      obtain ⟨h2, h3, h4, h5⟩ := hFE w v hv
      rw [h4, h5]
      exact ⟨h2, h3⟩)
    (by
      intro q hq
      simp only [List.mem_cons, List.not_mem_nil, or_false] at hq
      rcases hq with rfl | rfl <;> exact ⟨(fun h => by cases h), (fun h => by cases h)⟩)
    (by simp) rfl
  set ws := w0 :: wt with hwsdef
  set L : List Labelled := [⟨n, .NODE, N⟩, ⟨c, .CELL, C⟩] ++ x with hL
  rw [List.nil_append] at hrun
  set tris := ws.flatMap fun w => wedgeTri (posWedge M N (C - N) (F w) (E w)) (at_ L (F w) .FACE) (at_ L (E w) .EDGE) with htris
  let V : Nat → ℝ := fun s => (sideVolume M s).getD 0
  have hl0 : labPoint L 0 = N := rfl
  have hl1 : labPoint L 1 = C := rfl
  -- one wedge
  have hone : ∀ w ∈ ws, posWedge M N (C - N) (F w) (E w) = decide (w % 2 = 0) ∧ wedgeVolume M w = some (V (w / 2) / 2) ∧
      ((wedgeTri (decide (w % 2 = 0)) (at_ L (F w) .FACE) (at_ L (E w) .EDGE)).map fun t =>
        tetVol (labPoint L 0) (labPoint L t.1) (labPoint L t.2.1) (labPoint L t.2.2)).sum = V (w / 2) / 2 := by
    intro w hw
    obtain ⟨h1, hnode⟩ := hwedge w hw
    obtain ⟨v, hv, hvc, _⟩ := hside _ h1
    obtain ⟨_, _, h4, h5⟩ := hFE w v hv
    obtain ⟨hf, he⟩ := visit_dirs h.oriented hv
    obtain ⟨n0, n1⟩ := nodes3 hi h.dim hv hf he
    have hst := solid_stored h hi k hv
    dsimp only at hst
    have hsv : sideVolume M (w / 2) = some (tetVol C (g.nodeCoord (outEdge m v).1) (g.nodeCoord (outEdge m v).2) (g.faceCentroid v.face)) := by
      rw [sideVolume, hM, hst, hvc]; rfl
    obtain ⟨y, hy, hy0⟩ := hpos ls hls _ h1
    rw [hsv] at hy; cases hy
    have hVw : V (w / 2) = tetVol C (g.nodeCoord (outEdge m v).1) (g.nodeCoord (outEdge m v).2) (g.faceCentroid v.face) := by
      simp only [V, hsv, Option.getD_some]
    have hE' : edgeCentroid M (E w) = midpoint 3 (g.nodeCoord (outEdge m v).1) (g.nodeCoord (outEdge m v).2) := by
      rw [h5]
      have : edgeCentroid M v.edge = midpoint 3 (g.nodeCoord (m.edgeNodes v.edge).1) (g.nodeCoord (m.edgeNodes v.edge).2) := by
        rw [← edge_mid3 (h.nodes _)]; rfl
      rw [this]
      simp only [outEdge, usedEdge]
      rcases hf with hf | hf <;> rcases he with he | he <;> simp [hf, he]
      all_goals exact midpoint_comm _ _ _
    have hF' : M.faceCentroid (F w) = g.faceCentroid v.face := by rw [h4]; rfl
    obtain ⟨hl2, hl3⟩ := hlt w hw
    have p1 : labPoint L (at_ L (F w) .FACE) = g.faceCentroid v.face := by rw [(at_point hlab hl2).1 rfl, hF']
    have p2 : labPoint L (at_ L (E w) .EDGE) = midpoint 3 (g.nodeCoord (outEdge m v).1) (g.nodeCoord (outEdge m v).2) := by
      rw [(at_point hlab hl3).2 rfl, hE']
    have hdot : dot (cross (edgeCentroid M (E w) - N) (M.faceCentroid (F w) - N)) (C - N) =
        6 * tetVol N (edgeCentroid M (E w)) (M.faceCentroid (F w)) C := by
      have d1 : (edgeCentroid M (E w)).d = 3 := by rw [hE']; rfl
      have d2 : (M.faceCentroid (F w)).d = 3 := by rw [hF']; exact h.faces _
      rw [sub3 _ d1, sub3 _ d2, sub3 _ (h.cells c), cross3, dot3]
      simp only [tetVol, det3, vec]; ring
    refine ⟨?_, by rw [wedgeVolume, hsv, hVw]; rfl, ?_⟩
    · rw [posWedge, hdot, hE', hF']
      rcases Nat.mod_two_eq_zero_or_one w with hw2 | hw2
      · rw [hw2] at hnode ⊢
        rw [n0] at hnode
        cases hnode
        rw [decide_eq_true rfl, decide_eq_true_eq, hN]
        have : 6 * tetVol (g.nodeCoord (outEdge m v).2) (midpoint 3 (g.nodeCoord (outEdge m v).1) (g.nodeCoord (outEdge m v).2))
            (g.faceCentroid v.face) C = 3 * tetVol C (g.nodeCoord (outEdge m v).1) (g.nodeCoord (outEdge m v).2) (g.faceCentroid v.face) := by
          simp only [tetVol, det3, vec, midpoint]; ring
        rw [this]; linarith
      · rw [hw2] at hnode ⊢
        rw [n1] at hnode
        cases hnode
        rw [decide_eq_false (by decide : ¬ (1 = 0)), decide_eq_false_iff_not, hN]
        have : 6 * tetVol (g.nodeCoord (outEdge m v).1) (midpoint 3 (g.nodeCoord (outEdge m v).1) (g.nodeCoord (outEdge m v).2))
            (g.faceCentroid v.face) C = -(3 * tetVol C (g.nodeCoord (outEdge m v).1) (g.nodeCoord (outEdge m v).2) (g.faceCentroid v.face)) := by
          simp only [tetVol, det3, vec, midpoint]; ring
        rw [this]; linarith
    · rw [hVw]
      rcases Nat.mod_two_eq_zero_or_one w with hw2 | hw2
      · rw [hw2] at hnode ⊢
        rw [n0] at hnode
        cases hnode
        simp only [wedgeTri, decide_true, if_true, List.map_cons, List.map_nil, List.sum_cons, List.sum_nil, p1, p2, hl0, hl1, hN]
        simp only [tetVol, det3, vec, midpoint]; ring
      · rw [hw2] at hnode ⊢
        rw [n1] at hnode
        cases hnode
        simp only [wedgeTri, one_ne_zero, decide_false, Bool.false_eq_true, if_false, List.map_cons, List.map_nil, List.sum_cons, List.sum_nil, p1, p2, hl0, hl1, hN]
        simp only [tetVol, det3, vec, midpoint]; ring
  have htris' : tris = ws.flatMap fun w => wedgeTri (decide (w % 2 = 0)) (at_ L (F w) .FACE) (at_ L (E w) .EDGE) := by
    rw [htris]
    exact List.flatMap_congr fun w hw => by rw [(hone w hw).1]
  let T : Nat → List (Nat × Nat) := fun w => (wedgeTri (decide (w % 2 = 0)) (at_ L (F w) .FACE) (at_ L (E w) .EDGE)).flatMap triEdges
  refine ⟨L, ws, tris, fun v => at_ L v.face .FACE, fun v => at_ L v.edge .EDGE, (ws.map fun w => V (w / 2) / 2).sum, hcm, hws, ?_, ?_,
    hl0, hl1, by simp [hL], ?_, ?_, ?_, ?_, ?_⟩
  · have hcw : M.cornerWedges cn = some ws := hws
    have hnode0 : wedgeNode M w0 = some n := (hwedge w0 (by simp [hwsdef])).2
    have hcell0 : M.sideCell (w0 / 2) = some c := by
      obtain ⟨v, _, hvc, hsv⟩ := hside _ (hwedge w0 (by simp [hwsdef])).1
      rw [hM, ofCaches]; simp only [hsv, Option.map_some, mkRec_cell, hvc]
    have hhead : ws.head? = some w0 := rfl
    rw [cornerFacets3, hcw, Option.bind_some, hhead, Option.bind_some, hnode0, Option.bind_some, hcell0, Option.bind_some]
    change Option.map _ (facetLoop M (C - N) ws [⟨n, .NODE, N⟩, ⟨c, .CELL, C⟩] []) = _
    rw [hrun]; rfl
  · intro t ht
    obtain ⟨w, hw, ht⟩ := List.mem_flatMap.1 ht
    obtain ⟨h2, h3⟩ := hlt w hw
    have h0 : 0 < L.length := by simp [hL]
    have h1 : 1 < L.length := by simp [hL]
    simp only [wedgeTri] at ht
    split at ht <;> simp only [List.mem_cons, List.not_mem_nil, or_false] at ht <;> rcases ht with rfl | rfl <;> exact ⟨by assumption, by assumption, by assumption⟩
  · have h1 : tris.flatMap triEdges = ws.flatMap T := by
      rw [htris', List.flatMap_assoc]
    rw [h1]
    refine (hperm.flatMap_right T).trans ?_
    obtain ⟨q1, q2⟩ := filter_even ls (fun s j => sideGetNode m i s j) n
    refine ((List.filter_append_perm (fun w => decide (w % 2 = 0)) _).symm.flatMap_right T).trans ?_
    rw [List.flatMap_append]
    have hW : (fun w => decide (wedgeGetNode m i w = some n)) = fun w => decide (sideGetNode m i (w / 2) (w % 2) = some n) := rfl
    rw [hW, q1, q2]
    have key : ∀ (j : Nat) (O : Nat × Nat → Nat) (b : Bool), (b = true ↔ j = 0) → j < 2 →
        (∀ s v, (visits m)[s]? = some v → sideGetNode m i s j = some (O (outEdge m v))) →
        ((ls.filter fun s => decide (sideGetNode m i s j = some n)).map fun s => 2 * s + j).flatMap T =
        ((cellVisits m c).filter fun v => decide (O (outEdge m v) = n)).flatMap fun v =>
          (wedgeTri b (at_ L v.face .FACE) (at_ L v.edge .EDGE)).flatMap triEdges := by
      intro j O b hb hj hO
      obtain ⟨l, hl, hl'⟩ := cell_sides_map h.valid hi hcm (fun s => (sideGetNode m i s j, T (2 * s + j)))
        (fun v => (some (O (outEdge m v)), (wedgeTri b (at_ L v.face .FACE) (at_ L v.edge .EDGE)).flatMap triEdges))
        (fun s v hv => by
          have hd : (2 * s + j) / 2 = s := by omega
          have hm2 : (2 * s + j) % 2 = j := by omega
          obtain ⟨_, _, h4, h5⟩ := hFE (2 * s + j) v (by rw [hd]; exact hv)
          have hbj : decide ((2 * s + j) % 2 = 0) = b := by
            rw [hm2, Bool.eq_iff_iff, decide_eq_true_eq]; exact hb.symm
          simp only [hO s v hv, T, h4, h5, hbj])
      rw [hls] at hl; cases hl
      rw [List.flatMap_map, List.flatMap_def, List.flatMap_def]
      congr 1
      rw [filter_map_pair ls (fun s => T (2 * s + j)) (fun s => sideGetNode m i s j) (some n), hl', List.filter_map, List.map_map]
      have : ((fun p : Option Nat × List (Nat × Nat) => decide (p.1 = some n)) ∘ fun v : Visit =>
        (some (O (outEdge m v)), (wedgeTri b (at_ L v.face .FACE) (at_ L v.edge .EDGE)).flatMap triEdges)) = fun v => decide (O (outEdge m v) = n) := by
        funext v; simp [Function.comp]
      rw [this]; rfl
    have k0 := key 0 Prod.snd true (by simp) (by omega) (fun s v hv => by
      obtain ⟨hf, he⟩ := visit_dirs h.oriented hv
      exact (nodes3 hi h.dim hv hf he).1)
    have k1 := key 1 Prod.fst false (by simp) (by omega) (fun s v hv => by
      obtain ⟨hf, he⟩ := visit_dirs h.oriented hv
      exact (nodes3 hi h.dim hv hf he).2)
    simp only [Nat.add_zero] at k0
    rw [k0, k1]
  · intro u v huv; simp only [huv]
  · intro u v huv; simp only [huv]
  · have hcw : M.cornerWedges cn = some ws := hws
    rw [cornerVolume, hcw, Option.bind_some, sumWedges_eq M (fun w => V (w / 2) / 2) ws 0 fun w hw => (hone w hw).2.1, zero_add]
  · rw [htris', sum_flatMap]
    exact sum_map_congr _ _ _ fun w hw => (hone w hw).2.2


/-! ### the corners of a plane cell -/

/-- the edge of a visit in a plane mesh, turned so that the cell is on its left -/
def leftEdge (m : Src) (v : Visit) : Nat × Nat := if v.fdir = 1 then m.edgeNodes v.edge else (m.edgeNodes v.edge).swap

theorem filter_length {α : Type} (l : List α) (K : α → Option Nat) (n : Nat) :
    (l.filter fun a => decide (K a = some n)).length = (l.map K).count (some n) := by
  induction l with
  | nil => rfl
  | cons a l ih =>
    rw [List.map_cons, List.count_cons, List.filter_cons]
    by_cases h : K a = some n
    · rw [if_pos (decide_eq_true h), if_pos (by simpa using h), List.length_cons, ih]
    · rw [if_neg (by simpa using h), if_neg (by simpa using h), ih]; rfl

theorem count_some (l : List Nat) (n : Nat) : (l.map some).count (some n) = l.count n := by
  induction l with
  | nil => rfl
  | cons a l ih => rw [List.map_cons, List.count_cons, List.count_cons, ih]; simp

/-- the two wedges of a corner of a plane cell -/
theorem corner_pair_2d {m : Src} {g : Coords} (h : Plane m g) (hn : NodesOk m) : ∃ i k, cacheSideInfo m = some i ∧ cacheCornerInfo m i = some k ∧
    InfoOk m i ∧
    ∀ cn c n, cornerGetCell i k cn = some c → cornerGetNode m i k cn = some n → ∃ ls ws s0 s1 v0 v1,
      i.cellGetSides c = some ls ∧ s0 ∈ ls ∧ s1 ∈ ls ∧
      k.cornerWedges[cn]? = some ws ∧ (ws = [2 * s0, 2 * s1 + 1] ∨ ws = [2 * s1 + 1, 2 * s0]) ∧
      (visits m)[s0]? = some v0 ∧ (visits m)[s1]? = some v1 ∧ v0.cell = c ∧ v1.cell = c ∧
      (leftEdge m v0).1 = n ∧ (leftEdge m v1).2 = n ∧
      leftEdge m v0 ∈ polyEdges (m.cellNodes c) ∧ leftEdge m v1 ∈ polyEdges (m.cellNodes c) := by
  obtain ⟨i, k, e, ek, H⟩ := corner_wedges_perm h.valid hn
  obtain ⟨i', e', hi⟩ := cache_ok h.valid
  rw [e] at e'; cases e'
  obtain ⟨i', e', _, _, _, _, hs, _⟩ := sides_are_incidences m h.valid
  rw [e] at e'; cases e'
  refine ⟨i, k, e, ek, hi, fun cn c n hc hcn => ?_⟩
  obtain ⟨ws, ls, hws, hcm, hnm, hls, hne, hperm⟩ := H cn c n hc hcn
  obtain ⟨ls', hls', _, hmem⟩ := hs c (h.valid.cells_lt c hcm)
  rw [hls] at hls'; cases hls'
  have hside : ∀ s ∈ ls, ∃ v, (visits m)[s]? = some v ∧ v.cell = c ∧ i.side s = some (mkRec m v) := by
    intro s hs
    obtain ⟨r, hr, hrc⟩ := (hmem s).1 hs
    obtain ⟨v, hv, rfl⟩ := hi.side_iff.1 hr
    exact ⟨v, hv, by rwa [mkRec_cell] at hrc, hr⟩
  have hnodes : ∀ (s : Nat) (v : Visit), (visits m)[s]? = some v → sideGetNode m i s 0 = some (leftEdge m v).1 ∧ sideGetNode m i s 1 = some (leftEdge m v).2 :=
    fun s v hv => nodes2 hi h.dim hv
  have hP : ((cellVisits m c).map (leftEdge m)).Perm (polyEdges (m.cellNodes c)) := by
    have := h.around c hcm
    unfold PlaneCell at this
    rw [cellVisits, List.map_flatMap]
    simp only [List.map_map]
    exact this
  have hc1 : (m.cellNodes c).count n = 1 := List.count_eq_one_of_mem (hn.nodup c hcm) hnm
  have hlen : ∀ (j : Nat) (O : Nat × Nat → Nat), (∀ s v, (visits m)[s]? = some v → sideGetNode m i s j = some (O (leftEdge m v))) →
      ((polyEdges (m.cellNodes c)).map O).Perm (m.cellNodes c) →
      (ls.filter fun s => decide (sideGetNode m i s j = some n)).length = 1 := by
    intro j O hO hp
    rw [filter_length ls (fun s => sideGetNode m i s j)]
    obtain ⟨l, hl, hl'⟩ := cell_sides_map h.valid hi hcm (fun s => sideGetNode m i s j) (fun v => some (O (leftEdge m v))) hO
    rw [hls] at hl; cases hl
    rw [hl', show (fun v => some (O (leftEdge m v))) = some ∘ (O ∘ leftEdge m) from rfl, ← List.map_map, count_some,
      ← List.map_map, (hP.map O).count_eq, hp.count_eq, hc1]
  have l0 := hlen 0 Prod.fst (fun s v hv => (hnodes s v hv).1) (by rw [edges_fst])
  have l1 := hlen 1 Prod.snd (fun s v hv => (hnodes s v hv).2) (by rw [edges_snd]; exact List.rotate_perm _ _)
  obtain ⟨s0, h0⟩ := List.length_eq_one_iff.1 l0
  obtain ⟨s1, h1⟩ := List.length_eq_one_iff.1 l1
  have m0 : s0 ∈ ls.filter fun s => decide (sideGetNode m i s 0 = some n) := by rw [h0]; simp
  have m1 : s1 ∈ ls.filter fun s => decide (sideGetNode m i s 1 = some n) := by rw [h1]; simp
  obtain ⟨m0, q0⟩ := List.mem_filter.1 m0
  obtain ⟨m1, q1⟩ := List.mem_filter.1 m1
  obtain ⟨v0, hv0, hc0, _⟩ := hside s0 m0
  obtain ⟨v1, hv1, hc1', _⟩ := hside s1 m1
  have q0 := of_decide_eq_true q0
  have q1 := of_decide_eq_true q1
  rw [(hnodes s0 v0 hv0).1] at q0
  rw [(hnodes s1 v1 hv1).2] at q1
  have hcv : ∀ (s : Nat) (v : Visit), (visits m)[s]? = some v → v.cell = c → leftEdge m v ∈ polyEdges (m.cellNodes c) := by
    intro s v hv hvc
    refine hP.mem_iff.1 (List.mem_map_of_mem ?_)
    have : v ∈ (visits m).filter fun v => v.cell == c := List.mem_filter.2 ⟨List.mem_of_getElem? hv, by simpa using hvc⟩
    rwa [visits_filter m c h.valid.cells_nodup hcm] at this
  refine ⟨ls, ws, s0, s1, v0, v1, hls, m0, m1, hws, ?_, hv0, hv1, hc0, hc1', by simpa using q0, by simpa using q1, hcv _ _ hv0 hc0, hcv _ _ hv1 hc1'⟩
  have hp2 : ws.Perm [2 * s0, 2 * s1 + 1] := by
    obtain ⟨f1, f2⟩ := filter_even ls (fun s j => sideGetNode m i s j) n
    refine hperm.trans ((List.filter_append_perm (fun w => decide (w % 2 = 0)) _).symm.trans ?_)
    have hW : (fun w => decide (wedgeGetNode m i w = some n)) = fun w => decide (sideGetNode m i (w / 2) (w % 2) = some n) := rfl
    rw [hW, f1, f2, h0, h1]; rfl
  have hl2 := hp2.length_eq
  match ws, hl2, hp2 with
  | [a, b], _, hp2 =>
    have ha : a = 2 * s0 ∨ a = 2 * s1 + 1 := by have := hp2.mem_iff.1 (List.mem_cons_self (a := a)); simpa using this
    rcases ha with rfl | rfl
    · have := (List.perm_cons _).1 hp2
      rw [List.perm_singleton] at this
      exact .inl (by rw [this])
    · have := (List.perm_cons _).1 (hp2.trans (List.Perm.swap _ _ _))
      rw [List.perm_singleton] at this
      exact .inr (by rw [this])

end Jali.SideGeom
