import Verif.Props.LineRegionSets
import Verif.Props.RegularRegionSets2
/-!
C180: the set of nodes of a point region.
-/
namespace Jali.Reg
variable {P K : Type} [Field K] [LinearOrder K]

theorem head_filter (p : Nat → Bool) : ∀ (n e : Nat), e ∈ ((List.range n).filter p).take 1 ↔ e < n ∧ p e = true ∧ ∀ k < e, p k = false := by
  intro n
  induction n with
  | zero => simp
  | succ n ih =>
    intro e
    rw [List.range_succ, List.filter_append]
    by_cases h0 : (List.range n).filter p = []
    · have no : ∀ k < n, p k = false := fun k hk => by
        have := List.filter_eq_nil_iff.1 h0 k (List.mem_range.2 hk)
        simpa using this
      rw [h0, List.nil_append]
      by_cases hp : p n = true
      · simp only [List.filter_cons, hp, if_true, List.filter_nil, List.take_succ_cons, List.take_zero, List.mem_singleton]
        constructor
        · rintro rfl; exact ⟨by omega, hp, no⟩
        · rintro ⟨h1, h2, h3⟩
          rcases Nat.lt_succ_iff_lt_or_eq.1 h1 with h | h
          · rw [no e h] at h2; cases h2
          · exact h
      · simp only [List.filter_cons, hp, List.filter_nil, Bool.false_eq_true, if_false, List.take_nil, List.not_mem_nil, false_iff]
        rintro ⟨h1, h2, h3⟩
        rcases Nat.lt_succ_iff_lt_or_eq.1 h1 with h | rfl
        · rw [no e h] at h2; cases h2
        · exact hp h2
    · obtain ⟨a, l, hl⟩ := List.exists_cons_of_ne_nil h0
      have e1 : ((List.range n).filter p ++ [n].filter p).take 1 = ((List.range n).filter p).take 1 := by rw [hl]; simp
      rw [e1, ih]
      constructor
      · rintro ⟨h1, h2⟩; exact ⟨by omega, h2⟩
      · rintro ⟨h1, h2, h3⟩
        refine ⟨?_, h2, h3⟩
        have ha : a ∈ (List.range n).filter p := by rw [hl]; simp
        rw [List.mem_filter, List.mem_range] at ha
        by_contra hge
        have := h3 a (by omega)
        rw [ha.2] at this; cases this

/-- **C180, in part.** The set of nodes of a point region is made, and holds the **first** node at the point, if there is one: the node with
the lowest number of those for which `inside` is true. It is in OWNED if owned and in GHOST if a ghost. -/
theorem point_region_nodes_partial {g : Geo P K} {gm : List (Region P)} {w : World} {r : Region P} (hf : Fits g gm w .NODE) (n : String)
    (hr : findRegion gm n = some r) (ht : r.type = .POINT) (d : Nat) (b : Bool) :
    ∃ w' s, build g gm d w n .NODE b = .ok (some w.heap.length, w') ∧
      w'.heap = w.heap ++ [s] ∧ w'.reg = w.reg ++ [w.heap.length] ∧ s.name = n ∧ s.kind = .NODE ∧ (MSet.entities s .ALL).Nodup ∧
      (∀ e, e ∈ MSet.entities s .ALL ↔ e < (w.view .NODE).nAll ∧ r.inside (g.nodeCoord e) = true ∧ ∀ k < e, r.inside (g.nodeCoord k) = false) ∧
      (∀ e ∈ MSet.entities s .PARALLEL_OWNED, (w.view .NODE).typeOf e = .PARALLEL_OWNED) ∧
      (∀ e ∈ MSet.entities s .PARALLEL_GHOST, (w.view .NODE).typeOf e = .PARALLEL_GHOST) := by
  have hl : regionLists g w .NODE r =
      .ok (some (splitByType (w.view .NODE) (((List.range (w.view .NODE).nAll).filter fun k => r.inside (g.nodeCoord k)).take 1))) := by
    simp only [regionLists, nodeLists, ht]
  obtain ⟨g1, g2, g3, g4⟩ := regionLists_good (o := (splitByType (w.view .NODE) _).1) (h := (splitByType (w.view .NODE) _).2) hf
    (findRegion_mem hr).1 hl
  obtain ⟨s, hmk, m1, m2, m3, m4, m5, m6, m7⟩ := makeMeshset_ok (n := n) (b := b) g1 g2 g3 g4
  refine ⟨withSet w s false, s, ?_, withSet_heap _ _ _, rfl, m1, m2, m6.nodup, fun e => ?_, m6.owned_type, m6.ghost_type⟩
  · cases d <;> rw [build] <;> simp only [hr, hl, hmk]
  · show e ∈ s.all ↔ _
    rw [Proper.mem_all m6, m4, m5, mem_split.1, mem_split.2, head_filter]
    constructor
    · rintro (h | h) <;> exact h.1
    · intro h
      by_cases hlt : e < (w.view .NODE).nOwned
      · exact Or.inl ⟨h, (hf.ownedFirst.1 e).2 hlt⟩
      · exact Or.inr ⟨h, (hf.ownedFirst.2 e).2 ⟨by omega, h.1⟩⟩

end Jali.Reg

namespace Jali.MstkGen
open Spec Jali.Mstk Jali.Geom Jali.Geom.Point Jali.MeshGeom Jali.Reg

/-- the set of a point region is the node at the point, if no two nodes are there -/
theorem setIs_of_node {α : Type} {ge : Geo Point} {gm : List (Reg.Region Point)} {w : World} {n : String} {there : α → Prop}
    {number : α → Nat} {good : α → Prop} {rg : Reg.Region Point} (hf : Fits ge gm w .NODE) (hr : findRegion gm n = some rg)
    (ht : rg.type = .POINT) (h : ∀ e, (e < (w.view .NODE).nAll ∧ rg.inside (ge.nodeCoord e) = true) ↔ ∃ p, there p ∧ number p = e ∧ good p)
    (one : ∀ p q, there p → there q → good p → good q → p = q) :
    SetIs ge gm w n .NODE there number good := by
  intro d b
  obtain ⟨w', x, h1, h2, h3, h4, -, h6, h5, -⟩ := point_region_nodes_partial hf n hr ht d b
  refine ⟨_, w', x, h1, by rw [h2]; simp, h4, by rw [h3]; simp, h6, fun e => (h5 e).trans ⟨fun ⟨a1, a2, _⟩ => (h e).1 ⟨a1, a2⟩, fun k => ?_⟩⟩
  obtain ⟨a1, a2⟩ := (h e).2 k
  refine ⟨a1, a2, fun j hj => ?_⟩
  by_contra hin
  obtain ⟨p, p1, p2, p3⟩ := k
  obtain ⟨q, q1, q2, q3⟩ := (h j).1 ⟨by omega, by simpa using hin⟩
  have := one p q p1 q1 p3 q3
  subst this
  omega

/-- each coordinate less than 1e-12 away from that of `q` -/
def At3 (q : Point) (x y z : ℝ) : Prop := |x - q.x| < 1 / 10 ^ 12 ∧ |y - q.y| < 1 / 10 ^ 12 ∧ |z - q.z| < 1 / 10 ^ 12
/-- the same in the plane -/
def At2 (q : Point) (x y : ℝ) : Prop := |x - q.x| < 1 / 10 ^ 12 ∧ |y - q.y| < 1 / 10 ^ 12
/-- the same on the line -/
def At1 (q : Point) (x : ℝ) : Prop := |x - q.x| < 1 / 10 ^ 12

theorem regionOf_point {nm : String} {id : Nat} {q : Point} {lc : LifeCycle} {rg : AnyRegion} (h : mkPointRegion nm id q lc = .value rg)
    (lab : List Nat × List Nat) : (regionOf lab rg).type = .POINT ∧
      ∀ p : Point, p.d = q.d → ((regionOf lab rg).inside p = true ↔ ∀ i, i < p.d → |p.coord i - q.coord i| < 1 / 10 ^ 12) := by
  constructor
  · simp only [mkPointRegion, Res.value.injEq] at h; subst h; rfl
  · intro p hp
    obtain ⟨r, h1, -, -, h2⟩ := point_region_inside nm id q lc p
    rw [h] at h1
    cases h1
    obtain ⟨b, hb, e⟩ := h2 hp
    simp only [regionOf, hb, e]

theorem one_line {lo h q : ℝ} (wide : 2 / 10 ^ 12 ≤ h) {i j : Nat} (hi : |lo + i * h - q| < 1 / 10 ^ 12) (hj : |lo + j * h - q| < 1 / 10 ^ 12) :
    i = j := by
  rw [abs_lt] at hi hj
  have hp : (0 : ℝ) < 1 / 10 ^ 12 := by positivity
  have e2 : (2 / 10 ^ 12 : ℝ) = 2 * (1 / 10 ^ 12) := by ring
  rw [e2] at wide
  generalize (1 / 10 ^ 12 : ℝ) = δ at *
  rcases Nat.lt_trichotomy i j with l | l | l
  · exfalso
    have : (i : ℝ) + 1 ≤ j := by exact_mod_cast l
    nlinarith
  · exact l
  · exfalso
    have : (j : ℝ) + 1 ≤ i := by exact_mod_cast l
    nlinarith

variable {dd : Simple.Dims} {bx : Simple.Box} {s : Source ℝ} {g : RegMesh ℝ} {r : MeshCache.Request}

/-- cells at least 2e-12 wide -/
def Wide (dd : Simple.Dims) (bx : Simple.Box) : Prop :=
  (2 / 10 ^ 12 : ℝ) ≤ (bx.x1 - bx.x0) / dd.nx ∧ (2 / 10 ^ 12 : ℝ) ≤ (bx.y1 - bx.y0) / dd.ny ∧ (2 / 10 ^ 12 : ℝ) ≤ (bx.z1 - bx.z0) / dd.nz

theorem one_node (wide : Wide dd bx) {q : Point} (p p' : Simple.Spec.Pos)
    (h : At3 q (line bx.x0 bx.x1 dd.nx p.i) (line bx.y0 bx.y1 dd.ny p.j) (line bx.z0 bx.z1 dd.nz p.k))
    (h' : At3 q (line bx.x0 bx.x1 dd.nx p'.i) (line bx.y0 bx.y1 dd.ny p'.j) (line bx.z0 bx.z1 dd.nz p'.k)) : p = p' := by
  obtain ⟨i, j, k⟩ := p
  obtain ⟨i', j', k'⟩ := p'
  have e1 : i = i' := one_line wide.1 h.1 h'.1
  have e2 : j = j' := one_line wide.2.1 h.2.1 h'.2.1
  have e3 : k = k' := one_line wide.2.2 h.2.2 h'.2.2
  subst e1 e2 e3
  rfl

theorem at3_iff {q : Point} (h3 : q.d = 3) (lab : List Nat × List Nat) {nm : String} {id : Nat} {lc : LifeCycle} {rg : AnyRegion}
    (h : mkPointRegion nm id q lc = .value rg) (x y z : ℝ) : (regionOf lab rg).inside (mk3 x y z) = true ↔ At3 q x y z := by
  rw [(regionOf_point h lab).2 (mk3 x y z) h3.symm]
  constructor
  · intro k; exact ⟨k 0 (by simp [mk3]), k 1 (by simp [mk3]), k 2 (by simp [mk3])⟩
  · rintro ⟨k0, k1, k2⟩ i hi
    obtain rfl | rfl | rfl : i = 0 ∨ i = 1 ∨ i = 2 := by simp only [mk3] at hi; omega
    exacts [k0, k1, k2]

/-- **C180, structured meshes.** The set of nodes of a point region holds exactly the node at the point. -/
theorem structured_point_nodes (wide : Wide dd bx) {nm : String} {id : Nat} {q : Point} {lc : LifeCycle} {rg : AnyRegion}
    (h : mkPointRegion nm id q lc = .value rg) (h3 : q.d = 3) {lab : List Nat × List Nat} {gm : List (Reg.Region Point)} {n : String}
    (hr : findRegion gm n = some (regionOf lab rg)) (hl : ∀ r ∈ gm, r.type ≠ .LABELEDSET) {w : World}
    (hw : Fresh w .NODE (Simple.numNodes dd)) {fr : Bool} {nc : Nat → List Nat} {pic : Point → Nat → Bool} {ds : Point → Point → Rat} :
    SetIs (geoOf (SimpleGeom.simpleMesh dd bx) fr nc pic ds) gm w n .NODE (Simple.NodeIn dd) (Simple.nodeIdx dd)
      (fun p => At3 q (line bx.x0 bx.x1 dd.nx p.i) (line bx.y0 bx.y1 dd.ny p.j) (line bx.z0 bx.z1 dd.nz p.k)) := by
  refine setIs_of_node (hw.fits (fun k => (by cases k)) hl) hr (regionOf_point h lab).1 (fun e => ?_) fun p p' _ _ => one_node wide p p'
  simp only [MSet.MeshView.nAll, hw.counts.1, hw.counts.2, Nat.add_zero, geoOf]
  constructor
  · rintro ⟨h1, h2⟩
    obtain ⟨p, hq, rfl⟩ := Simple.nodeIdx_surj dd h1
    rw [simple_node_at hq] at h2
    exact ⟨p, hq, rfl, (at3_iff h3 lab h _ _ _).1 h2⟩
  · rintro ⟨p, hq, rfl, h2⟩
    rw [simple_node_at hq]
    exact ⟨Simple.nodeIdx_lt dd hq, (at3_iff h3 lab h _ _ _).2 h2⟩

/-- **C180, the regular mesh of MSTK on one rank**, with its numbers of nodes: the node at the same position. -/
theorem regular_point_nodes (hp : SimpleGeom.Proper dd bx) (hm : RegularMesh s (domOf dd bx) (wholeBlk dd) g r) (wide : Wide dd bx)
    {nm : String} {id : Nat} {q : Point} {lc : LifeCycle} {rg : AnyRegion}
    (h : mkPointRegion nm id q lc = .value rg) (h3 : q.d = 3) {lab : List Nat × List Nat} {gm : List (Reg.Region Point)} {n : String}
    (hr : findRegion gm n = some (regionOf lab rg)) (hl : ∀ r ∈ gm, r.type ≠ .LABELEDSET) {w : World}
    (hw : Fresh w .NODE (Simple.numNodes dd)) {fr : Bool} {nc : Nat → List Nat} {pic : Point → Nat → Bool} {ds : Point → Point → Rat} :
    SetIs (geoOf s.gmesh fr nc pic ds) gm w n .NODE (Simple.NodeIn dd) (mstkNode dd)
      (fun p => At3 q (line bx.x0 bx.x1 dd.nx p.i) (line bx.y0 bx.y1 dd.ny p.j) (line bx.z0 bx.z1 dd.nz p.k)) := by
  obtain ⟨cell, face, node, n1, n2, n3, ha, hc, hn⟩ := frameworks_alike hp hm
  obtain ⟨-, -, an⟩ := ha fr fr nc nc pic pic ds ds
  have nnum : ∀ p, Simple.NodeIn dd p → mstkNode dd p < Simple.numNodes dd ∧ node (mstkNode dd p) = Simple.nodeIdx dd p := by
    rintro ⟨i, j, k⟩ ⟨h1, h2, h3⟩
    refine ⟨?_, ?_⟩
    · show (i * (dd.ny + 1) + j) * (dd.nz + 1) + k < (dd.nx + 1) * (dd.ny + 1) * (dd.nz + 1)
      have a1 : i * (dd.ny + 1) + j + 1 ≤ (dd.nx + 1) * (dd.ny + 1) := by
        have : (i + 1) * (dd.ny + 1) ≤ (dd.nx + 1) * (dd.ny + 1) := Nat.mul_le_mul_right _ h1
        have h2' : j < dd.ny + 1 := h2
        nlinarith
      have a2 : (i * (dd.ny + 1) + j + 1) * (dd.nz + 1) ≤ (dd.nx + 1) * (dd.ny + 1) * (dd.nz + 1) := Nat.mul_le_mul_right _ a1
      have h3' : k < dd.nz + 1 := h3
      nlinarith
    · have := hn i j k h1 h2 h3
      rw [show mstkNode dd ⟨i, j, k⟩ = (i * (dd.ny + 1) + j) * (dd.nz + 1) + k from rfl, this]
      simp only [Simple.nodeIdx, Simple.nodeIndex]; ring
  have at_ : ∀ p, Simple.NodeIn dd p → (geoOf s.gmesh fr nc pic ds).nodeCoord (mstkNode dd p) =
      mk3 (line bx.x0 bx.x1 dd.nx p.i) (line bx.y0 bx.y1 dd.ny p.j) (line bx.z0 bx.z1 dd.nz p.k) := fun p hq => by
    obtain ⟨m1, m2⟩ := nnum p hq
    rw [← an.nodeCoord rfl _ m1, m2]
    exact simple_node_at hq
  refine setIs_of_node (hw.fits (fun k => (by cases k)) hl) hr (regionOf_point h lab).1 (fun e => ?_) fun p p' _ _ => one_node wide p p'
  simp only [MSet.MeshView.nAll, hw.counts.1, hw.counts.2, Nat.add_zero]
  constructor
  · rintro ⟨h1, h2⟩
    obtain ⟨p, hq, e1⟩ := Simple.nodeIdx_surj dd (an.renumbers.into e h1)
    obtain ⟨m1, m2⟩ := nnum p hq
    have e2 : mstkNode dd p = e := an.renumbers.inj _ m1 _ h1 (m2.trans e1)
    subst e2
    rw [at_ p hq] at h2
    exact ⟨p, hq, rfl, (at3_iff h3 lab h _ _ _).1 h2⟩
  · rintro ⟨p, hq, rfl, h2⟩
    rw [at_ p hq]
    exact ⟨(nnum p hq).1, (at3_iff h3 lab h _ _ _).2 h2⟩

theorem one_gridPt {a e q : ℝ} {n : Nat} (wide : 2 / 10 ^ 12 ≤ (e - a) / n) {i j : Nat} (hi : |gridPt a e n i - q| < 1 / 10 ^ 12)
    (hj : |gridPt a e n j - q| < 1 / 10 ^ 12) : i = j := by
  have conv : ∀ i : Nat, gridPt a e n i = a + i * ((e - a) / n) := fun i => by unfold gridPt; ring
  rw [conv] at hi hj
  exact one_line wide hi hj

/-- **C180, blocks of regular meshes in the plane**: the node at the point. -/
theorem regular_point_nodes2 {d : Dom2 ℝ} {b : Blk2} {g : RegMesh2 ℝ} (hd : GoodDom2 d) (hb : GoodBlk2 d b) (hm : RegularMesh2 s d b g r)
    (wide : 2 / 10 ^ 12 ≤ (d.X1 - d.X0) / d.NX ∧ 2 / 10 ^ 12 ≤ (d.Y1 - d.Y0) / d.NY)
    {nm : String} {id : Nat} {q : Point} {lc : LifeCycle} {rg : AnyRegion}
    (h : mkPointRegion nm id q lc = .value rg) (h2 : q.d = 2) {lab : List Nat × List Nat} {gm : List (Reg.Region Point)} {n : String}
    (hr : findRegion gm n = some (regionOf lab rg)) (hl : ∀ r ∈ gm, r.type ≠ .LABELEDSET) {w : World}
    (hw : Fresh w .NODE ((b.nx + 1) * (b.ny + 1))) {fr : Bool} {nc : Nat → List Nat} {pic : Point → Nat → Bool} {ds : Point → Point → Rat} :
    SetIs (geoOf s.gmesh fr nc pic ds) gm w n .NODE (fun p : Nat × Nat => p.1 < b.nx + 1 ∧ p.2 < b.ny + 1) (node2 b)
      (fun p => At2 q (gridPt d.X0 d.X1 d.NX (b.i0 + p.1)) (gridPt d.Y0 d.Y1 d.NY (b.j0 + p.2))) := by
  have hin : ∀ x y, (regionOf lab rg).inside (mk2 x y) = true ↔ At2 q x y := fun x y => by
    rw [(regionOf_point h lab).2 (mk2 x y) h2.symm]
    constructor
    · intro k; exact ⟨k 0 (by simp [mk2]), k 1 (by simp [mk2])⟩
    · rintro ⟨k0, k1⟩ i hi
      obtain rfl | rfl : i = 0 ∨ i = 1 := by simp only [mk2] at hi; omega
      exacts [k0, k1]
  refine setIs_of_node (hw.fits (fun k => (by cases k)) hl) hr (regionOf_point h lab).1 (fun e => ?_) ?_
  · simp only [MSet.MeshView.nAll, hw.counts.1, hw.counts.2, Nat.add_zero, geoOf]
    constructor
    · rintro ⟨k1, k2⟩
      obtain ⟨p, hq, rfl⟩ := node_surj2 k1
      rw [node_at2 hd hb hm hq.1 hq.2, hin] at k2
      exact ⟨p, hq, rfl, k2⟩
    · rintro ⟨p, hq, rfl, k2⟩
      rw [node_at2 hd hb hm hq.1 hq.2, hin]
      exact ⟨pair_lt hq.1 hq.2, k2⟩
  · rintro ⟨i, j⟩ ⟨i', j'⟩ - - ⟨a1, a2⟩ ⟨b1, b2⟩
    have e1 := one_gridPt wide.1 a1 b1
    have e2 := one_gridPt wide.2 a2 b2
    simp only at e1 e2
    rw [Prod.mk.injEq]
    exact ⟨by omega, by omega⟩

/-- the second and third column of the mesh of 3 x 2 cells of (0,0) - (3,2): node 4 = (1, 1) is at (2, 1) -/
example : ∃ (s : Source ℝ) (g : RegMesh2 ℝ) (r : MeshCache.Request), RegularMesh2 s ⟨0, 0, 3, 2, 3, 2⟩ ⟨1, 0, 2, 2⟩ g r ∧ ∃ a w' x,
    Reg.build (geoOf s.gmesh true (fun _ => []) (fun _ _ => false) (fun _ _ => (0 : Rat)))
      [regionOf ([], []) (.point ⟨"O", 1, 0, .PERMANENT⟩ (mk2 2 1))] 0 (freshWorld 9) "O" .NODE true = .ok (some a, w') ∧
    w'.heap[a]? = some x ∧ 4 ∈ MSet.entities x .ALL ∧ 3 ∉ MSet.entities x .ALL := by
  have hb : GoodBlk2 (⟨0, 0, 3, 2, 3, 2⟩ : Dom2 ℝ) ⟨1, 0, 2, 2⟩ := ⟨by norm_num, by norm_num, by norm_num, by norm_num⟩
  have hd : GoodDom2 (⟨0, 0, 3, 2, 3, 2⟩ : Dom2 ℝ) := by constructor <;> norm_num
  obtain ⟨s, g, r, h, -⟩ := regular2_exists hb
  refine ⟨s, g, r, h, ?_⟩
  obtain ⟨a, w', x, e1, e2, -, -, -, e3⟩ := regular_point_nodes2 hd hb h (by norm_num) (nm := "O") (id := 1) (lc := .PERMANENT) (q := mk2 2 1) rfl rfl
    (gm := [regionOf ([], []) (.point ⟨"O", 1, 0, .PERMANENT⟩ (mk2 2 1))]) (n := "O") (lab := ([], []))
    (by simp [findRegion, regionOf, AnyRegion.name, AnyRegion.base]) (by simp [regionOf, AnyRegion.type])
    (fresh_freshWorld 9 .NODE) (fr := true) (nc := fun _ => []) (pic := fun _ _ => false) (ds := fun _ _ => 0) 0 true
  refine ⟨a, w', x, e1, e2, (e3 4).2 ⟨(1, 1), by simp, rfl, ?_⟩, fun k => ?_⟩
  · norm_num [At2, mk2, gridPt]
  · obtain ⟨⟨i, j⟩, ⟨q1, q2⟩, e, k1⟩ := (e3 3).1 k
    simp only [node2] at e
    simp only at q1 q2
    have : j = 0 := by omega
    subst this
    norm_num [At2, mk2, gridPt] at k1

/-- the mesh of 2 x 3 x 4 cells of the box (-1,0,2) - (1,9,4) made with MSTK: the point (0, 3, 5/2) is a node -/
example : ∃ (s : Source ℝ) (a : Nat) (w' : World) (x : MSet.Obj),
    Reg.build (geoOf s.gmesh true (fun _ => []) (fun _ _ => false) (fun _ _ => (0 : Rat)))
      [regionOf ([], []) (.point ⟨"O", 1, 0, .PERMANENT⟩ (mk3 0 3 (5 / 2)))] 0 (freshWorld 60) "O" .NODE true = .ok (some a, w') ∧
    w'.heap[a]? = some x ∧ mstkNode ⟨2, 3, 4⟩ ⟨1, 1, 1⟩ ∈ MSet.entities x .ALL := by
  have hp : SimpleGeom.Proper ⟨2, 3, 4⟩ ⟨-1, 0, 2, 1, 9, 4⟩ := by constructor <;> norm_num
  have hd : GoodDom (domOf ⟨2, 3, 4⟩ ⟨-1, 0, 2, 1, 9, 4⟩) := by constructor <;> norm_num [domOf]
  have hb : GoodBlk (domOf ⟨2, 3, 4⟩ ⟨-1, 0, 2, 1, 9, 4⟩) (wholeBlk ⟨2, 3, 4⟩) := by constructor <;> simp [domOf, wholeBlk]
  obtain ⟨s, g, r, h, -⟩ := regular_exists hd hb
  obtain ⟨a, w', x, e1, e2, -, -, -, e3⟩ := regular_point_nodes hp h (by norm_num [Wide])
    (nm := "O") (id := 1) (lc := .PERMANENT) (q := mk3 0 3 (5 / 2)) rfl rfl
    (gm := [regionOf ([], []) (.point ⟨"O", 1, 0, .PERMANENT⟩ (mk3 0 3 (5 / 2)))]) (n := "O") (lab := ([], []))
    (by simp [findRegion, regionOf, AnyRegion.name, AnyRegion.base]) (by simp [regionOf, AnyRegion.type])
    (fresh_freshWorld 60 .NODE) (fr := true) (nc := fun _ => []) (pic := fun _ _ => false) (ds := fun _ _ => 0) 0 true
  exact ⟨s, a, w', x, e1, e2, (e3 _).2 ⟨⟨1, 1, 1⟩, ⟨by decide, by decide, by decide⟩, rfl, by norm_num [At3, line, mk3]⟩⟩

end Jali.MstkGen

namespace Jali.SimpleGeom
open Jali.Geom Jali.Geom.Point Jali.MeshGeom Jali.Reg Jali.MstkGen

variable {nx : Nat} {x : Nat → ℝ} {lab : List Nat × List Nat} {gm : List (Reg.Region Point)} {n : String} {rg : AnyRegion}

theorem at1_iff {q : Point} (h1 : q.d = 1) (lab : List Nat × List Nat) {nm : String} {id : Nat} {lc : LifeCycle} {rg : AnyRegion}
    (h : mkPointRegion nm id q lc = .value rg) (t : ℝ) : (regionOf lab rg).inside (mk1 t) = true ↔ At1 q t := by
  rw [(regionOf_point h lab).2 (mk1 t) h1.symm]
  constructor
  · intro k; exact k 0 (by simp [mk1])
  · rintro k i hi
    obtain rfl : i = 0 := by simp only [mk1] at hi; omega
    exact k

/-- **C180, one-dimensional structured meshes**, in any geometry: the node at the point. -/
theorem line_point_nodes (g : GeomType) (wide : ∀ i < nx, x i + 2 / 10 ^ 12 ≤ x (i + 1))
    {nm : String} {id : Nat} {q : Point} {lc : LifeCycle} (h : mkPointRegion nm id q lc = .value rg) (h1 : q.d = 1)
    (hr : findRegion gm n = some (regionOf lab rg)) (hl : ∀ r ∈ gm, r.type ≠ .LABELEDSET) {w : World}
    (hw : Fresh w .NODE (nx + 1)) (fr : Bool) (pic : Point → Nat → Bool) (ds : Point → Point → Rat) :
    SetIs (lineGeo nx x g fr pic ds) gm w n .NODE (· < nx + 1) (fun v => v) (fun v => At1 q (x v)) := by
  refine setIs_of_node (hw.fits (fun k => (by cases k)) hl) hr (regionOf_point h lab).1 (fun e => ?_) ?_
  · simp only [MSet.MeshView.nAll, hw.counts.1, hw.counts.2, Nat.add_zero]
    exact ⟨fun ⟨a, b⟩ => ⟨e, a, rfl, (at1_iff h1 lab h _).1 b⟩, fun ⟨p, a, e', b⟩ => e' ▸ ⟨a, (at1_iff h1 lab h _).2 b⟩⟩
  · have hp : (0 : ℝ) < 1 / 10 ^ 12 := by positivity
    have e2 : (2 / 10 ^ 12 : ℝ) = 2 * (1 / 10 ^ 12) := by ring
    have hinc : ∀ i < nx, x i < x (i + 1) := fun i hi => by have := wide i hi; linarith
    have far : ∀ i j, i < j → j ≤ nx → x i + 2 / 10 ^ 12 ≤ x j := fun i j hij hj => by
      have := wide i (by omega)
      rcases Nat.lt_or_eq_of_le (show i + 1 ≤ j from hij) with h | h
      · exact this.trans (inc_mono hinc j (i + 1) h hj).le
      · rw [← h]; exact this
    intro p p' hp1 hp2 a1 a2
    simp only [At1, abs_lt] at a1 a2
    rcases Nat.lt_trichotomy p p' with l | l | l
    · exfalso
      have := far p p' l (by omega)
      rw [e2] at this
      linarith
    · exact l
    · exfalso
      have := far p' p l (by omega)
      rw [e2] at this
      linarith

/-- the region of the point 0 -/
noncomputable def originRegion : AnyRegion := .point ⟨"O", 1, 0, .PERMANENT⟩ (mk1 0)

/-- **C180 is false if two nodes are at the point**: the mesh of one cell between 0 and 5e-13: both nodes are at the point 0 in the sense of
`inside`, only node 0 is in the set. -/
theorem point_nodes_false (g : GeomType) (pic : Point → Nat → Bool) (ds : Point → Point → Rat) :
    (∀ v < 2, (regionOf ([], []) originRegion).inside ((lineGeo 1 (fun i => i / (2 * 10 ^ 12)) g true pic ds).nodeCoord v) = true) ∧
    ∃ (a : Nat) (w' : World) (s : MSet.Obj),
      Reg.build (lineGeo 1 (fun i => i / (2 * 10 ^ 12)) g true pic ds) [regionOf ([], []) originRegion] 0 (freshWorld 2) "O" .NODE true =
        .ok (some a, w') ∧ w'.heap[a]? = some s ∧ ∀ e, e ∈ MSet.entities s .ALL ↔ e = 0 := by
  have inn : ∀ v < 2, (regionOf ([], []) originRegion).inside ((lineGeo 1 (fun i => i / (2 * 10 ^ 12)) g true pic ds).nodeCoord v) = true := by
    intro v hv
    refine (at1_iff (nm := "O") (id := 1) (lc := .PERMANENT) (q := mk1 0) rfl ([], []) rfl _).2 ?_
    obtain rfl | rfl : v = 0 ∨ v = 1 := by omega
    · norm_num [At1, mk1]
    · norm_num [At1, mk1, abs_lt]
  refine ⟨inn, ?_⟩
  have hl : ∀ r ∈ [regionOf ([], []) originRegion], r.type ≠ .LABELEDSET := by simp [regionOf, originRegion, AnyRegion.type]
  have hw := fresh_freshWorld 2 .NODE
  obtain ⟨w', s, h1, h2, -, -, -, -, h3, -⟩ := point_region_nodes_partial (g := lineGeo 1 (fun i => i / (2 * 10 ^ 12)) g true pic ds)
    (hw.fits (fun k => (by cases k)) hl) "O" (r := regionOf ([], []) originRegion)
    (by simp [findRegion, regionOf, originRegion, AnyRegion.name, AnyRegion.base]) (by simp [regionOf, originRegion, AnyRegion.type]) 0 true
  refine ⟨_, w', s, h1, by rw [h2]; simp, fun e => (h3 e).trans ⟨?_, ?_⟩⟩
  · rintro ⟨-, -, k⟩
    by_contra he
    have := k 0 (by omega)
    rw [inn 0 (by decide)] at this
    cases this
  · rintro rfl
    exact ⟨by decide, inn 0 (by decide), fun k hk => absurd hk (by omega)⟩

/-- nodes 1, 2, 3, 4: the point 3 is node 2 -/
example : ∃ (a : Nat) (w' : World) (s : MSet.Obj),
    Reg.build (lineGeo 3 (fun i => (i : ℝ) + 1) .SPHERICAL true (fun _ _ => false) (fun _ _ => 0))
      [regionOf ([], []) (.point ⟨"O", 1, 0, .PERMANENT⟩ (mk1 3))] 0 (freshWorld 4) "O" .NODE true = .ok (some a, w') ∧
    w'.heap[a]? = some s ∧ 2 ∈ MSet.entities s .ALL ∧ 1 ∉ MSet.entities s .ALL := by
  obtain ⟨a, w', s, e1, e2, -, -, -, e3⟩ := line_point_nodes (nx := 3) (x := fun i => (i : ℝ) + 1) .SPHERICAL
    (fun i _ => by push_cast; norm_num [add_assoc]) (nm := "O") (id := 1) (lc := .PERMANENT) (q := mk1 3) rfl rfl
    (gm := [regionOf ([], []) (.point ⟨"O", 1, 0, .PERMANENT⟩ (mk1 3))]) (n := "O") (lab := ([], []))
    (by simp [findRegion, regionOf, AnyRegion.name, AnyRegion.base]) (by simp [regionOf, AnyRegion.type])
    (fresh_freshWorld 4 .NODE) true (fun _ _ => false) (fun _ _ => 0) 0 true
  refine ⟨a, w', s, e1, e2, (e3 2).2 ⟨2, by decide, rfl, by norm_num [At1, mk1]⟩, fun h => ?_⟩
  obtain ⟨p, -, rfl, k⟩ := (e3 _).1 h
  norm_num [At1, mk1] at k

/-- the structured mesh of 2 x 3 x 4 cells of the box (-1,0,2) - (1,9,4): the point (0, 3, 5/2) is a node -/
example : ∃ (a : Nat) (w' : World) (s : MSet.Obj),
    Reg.build (geoOf (SimpleGeom.simpleMesh ⟨2, 3, 4⟩ ⟨-1, 0, 2, 1, 9, 4⟩) true (fun _ => []) (fun _ _ => false) (fun _ _ => (0 : Rat)))
      [regionOf ([], []) (.point ⟨"O", 1, 0, .PERMANENT⟩ (mk3 0 3 (5 / 2)))] 0 (freshWorld 60) "O" .NODE true = .ok (some a, w') ∧
    w'.heap[a]? = some s ∧ Simple.nodeIdx ⟨2, 3, 4⟩ ⟨1, 1, 1⟩ ∈ MSet.entities s .ALL := by
  obtain ⟨a, w', s, e1, e2, -, -, -, e3⟩ := structured_point_nodes (dd := ⟨2, 3, 4⟩) (bx := ⟨-1, 0, 2, 1, 9, 4⟩) (by norm_num [Wide])
    (nm := "O") (id := 1) (lc := .PERMANENT) (q := mk3 0 3 (5 / 2)) rfl rfl
    (gm := [regionOf ([], []) (.point ⟨"O", 1, 0, .PERMANENT⟩ (mk3 0 3 (5 / 2)))]) (n := "O") (lab := ([], []))
    (by simp [findRegion, regionOf, AnyRegion.name, AnyRegion.base]) (by simp [regionOf, AnyRegion.type])
    (fresh_freshWorld 60 .NODE) (fr := true) (nc := fun _ => []) (pic := fun _ _ => false) (ds := fun _ _ => 0) 0 true
  exact ⟨a, w', s, e1, e2, (e3 _).2 ⟨⟨1, 1, 1⟩, ⟨by decide, by decide, by decide⟩, rfl, by norm_num [At3, line, mk3]⟩⟩

end Jali.SimpleGeom
