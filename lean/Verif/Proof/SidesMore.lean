import Verif.Proof.Corners
import Mathlib.Data.List.Pairwise
/-! From the mesh assumptions to the side cache. -/
namespace Jali.Sides
open Spec

/-- (cell, face, edge) of a visit -/
def key (v : Visit) : Nat × Nat × Nat := (v.cell, v.face, v.edge)

theorem mem_visits {m : Src} {v : Visit} :
    v ∈ visits m ↔ HasFace m v.cell v.face v.fdir ∧ (v.edge, v.edir) ∈ m.faceEdges v.face := by
  unfold visits HasFace
  simp only [List.mem_flatMap, List.mem_map, Prod.exists]
  constructor
  · rintro ⟨c, hc, f, fd, hf, e, ed, he, rfl⟩
    exact ⟨⟨hc, hf⟩, he⟩
  · rintro ⟨⟨hc, hf⟩, he⟩
    exact ⟨v.cell, hc, v.face, v.fdir, hf, v.edge, v.edir, he, rfl⟩

theorem visit_incident {m : Src} {v : Visit} (h : v ∈ visits m) : Incident m v.cell v.face v.edge :=
  ⟨⟨_, (mem_visits.1 h).1⟩, _, (mem_visits.1 h).2⟩

theorem incident_visit {m : Src} {c f e : Nat} (h : Incident m c f e) : ∃ v ∈ visits m, key v = (c, f, e) := by
  obtain ⟨⟨fd, hf⟩, ed, he⟩ := h
  exact ⟨⟨c, f, fd, e, ed⟩, mem_visits.2 ⟨hf, he⟩, rfl⟩

theorem nodup_of_map_fst {l : List (Nat × Int)} (h : (l.map Prod.fst).Nodup) {a b : Nat × Int} (ha : a ∈ l)
    (hb : b ∈ l) (he : a.1 = b.1) : a = b := List.inj_on_of_nodup_map h ha hb he

theorem keys_nodup {m : Src} (h : Valid m) : ((visits m).map key).Nodup := by
  unfold visits
  rw [List.map_flatMap, List.nodup_flatMap]
  refine ⟨?_, ?_⟩
  · intro c hc
    rw [List.map_flatMap, List.nodup_flatMap]
    refine ⟨?_, ?_⟩
    · intro f hf
      have := h.edges_nodup c f.1 f.2 ⟨hc, hf⟩
      rw [List.map_map]
      have h2 : (key ∘ fun e : Nat × Int => (⟨c, f.1, f.2, e.1, e.2⟩ : Visit)) =
          (fun x : Nat => (c, f.1, x)) ∘ Prod.fst := by funext e; rfl
      rw [h2, ← List.map_map]
      exact this.map fun a b hab => by simpa using hab
    · have := h.faces_nodup c hc
      rw [List.Nodup, List.pairwise_map] at this
      refine this.imp ?_
      intro a b hab
      simp only [Function.onFun, List.disjoint_left, List.mem_map]
      rintro x ⟨v, ⟨e, _, rfl⟩, rfl⟩ ⟨v', ⟨e', _, rfl⟩, hk⟩
      simp only [key, Prod.mk.injEq] at hk
      exact hab hk.2.1.symm
  · refine h.cells_nodup.imp ?_
    intro a b hab
    simp only [Function.onFun, List.disjoint_left, List.mem_map, List.mem_flatMap]
    rintro x ⟨v, ⟨f, _, e, _, rfl⟩, rfl⟩ ⟨v', ⟨f', _, e', _, rfl⟩, hk⟩
    simp only [key, Prod.mk.injEq] at hk
    exact hab hk.1.symm

theorem key_inj {m : Src} (h : Valid m) {j k : Nat} {a b : Visit} (ha : (visits m)[j]? = some a)
    (hb : (visits m)[k]? = some b) (he : key a = key b) : j = k := by
  have hn := keys_nodup h
  have hj : j < ((visits m).map key).length := by rw [List.length_map]; exact lt_of_getElem? ha
  refine (List.getElem?_inj hj hn).1 ?_
  rw [List.getElem?_map, List.getElem?_map, ha, hb, Option.map_some, Option.map_some, he]

theorem uniqueOpp {m : Src} (h : Valid m) : UniqueOpp (visits m) := by
  intro j1 j2 k a1 a2 b h1 h2 h3 o1 o2
  have m1 := (mem_visits.1 (List.mem_of_getElem? h1)).1
  have m2 := (mem_visits.1 (List.mem_of_getElem? h2)).1
  have m3 := (mem_visits.1 (List.mem_of_getElem? h3)).1
  rw [o1.2.1] at m1
  rw [o2.2.1] at m2
  have hc : a1.cell = a2.cell := by
    rcases h.two_cells b.face _ _ _ _ _ _ m1 m2 m3 with hc | hc | hc
    · exact hc
    · exact absurd hc o1.2.2
    · exact absurd hc o2.2.2
  refine key_inj h h1 h2 ?_
  simp only [key, Prod.mk.injEq]
  exact ⟨hc, o1.2.1.trans o2.2.1.symm, o1.1.trans o2.1.symm⟩

theorem valid_visits {m : Src} (h : Valid m) :
    ∀ v ∈ visits m, v.cell < m.ncells ∧ v.edge < m.nedges ∧ Known (m.cellType v.cell) := by
  intro v hv
  have hf := (mem_visits.1 hv).1
  exact ⟨h.cells_lt _ hf.1, h.edges_lt _ _ _ (visit_incident hv), h.types _ hf.1⟩

theorem cache_ok {m : Src} (h : Valid m) : ∃ i, cacheSideInfo m = some i ∧ InfoOk m i :=
  cacheSideInfo_ok m (valid_visits h) (uniqueOpp h)

theorem InfoOk.side_iff {m : Src} {i : Info} (h : InfoOk m i) {s : Nat} {r : Rec} :
    i.side s = some r ↔ ∃ v, (visits m)[s]? = some v ∧ mkRec m v = r := by
  rw [h.side, Option.map_eq_some_iff]

theorem positions_sorted {α : Type} (p : α → Bool) (l : List α) : (positions p l).Pairwise (· < ·) := by
  unfold positions
  exact List.pairwise_lt_range.filter _

theorem cornerVisits_nodup {m : Src} (h : Valid m) (hn : NodesOk m) : (cornerVisits m).Nodup := by
  unfold cornerVisits
  rw [List.nodup_flatMap]
  refine ⟨fun c hc => (hn.nodup c hc).map fun a b hab => by simpa using hab, ?_⟩
  refine h.cells_nodup.imp ?_
  intro a b hab
  simp only [Function.onFun, List.disjoint_left, List.mem_map]
  rintro x ⟨n, _, rfl⟩ ⟨n', _, hk⟩
  simp only [Prod.mk.injEq] at hk
  exact hab hk.1.symm

theorem mem_cornerVisits {m : Src} {c n : Nat} : (c, n) ∈ cornerVisits m ↔ c ∈ m.cells ∧ n ∈ m.cellNodes c := by
  unfold cornerVisits
  simp only [List.mem_flatMap, List.mem_map, Prod.mk.injEq]
  constructor
  · rintro ⟨c', hc, n', hn, rfl, rfl⟩; exact ⟨hc, hn⟩
  · rintro ⟨hc, hn⟩; exact ⟨c, hc, n, hn, rfl, rfl⟩

theorem corners_ok {m : Src} (h : Valid m) (hn : NodesOk m) {i : Info} (hi : InfoOk m i) :
    ∃ k, cacheCornerInfo m i = some k ∧ CInv m (cornerVisits m) (cornerVisits m) k := by
  refine cacheCornerInfo_ok m i hi (fun v hv => (valid_visits h v hv).2.2) ?_ (cornerVisits_nodup h hn)
  rintro ⟨c, n⟩ hv
  obtain ⟨hc, hcn⟩ := mem_cornerVisits.1 hv
  exact ⟨h.cells_lt c hc, hn.lt c hc n hcn, h.types c hc⟩

/-- the node of a wedge is an end of the edge of its side -/
theorem wnode_end {m : Src} {w : Nat} {v : Visit} (hv : (visits m)[w / 2]? = some v) :
    wnode m w = (m.edgeNodes v.edge).1 ∨ wnode m w = (m.edgeNodes v.edge).2 := by
  rw [wnode, hv]; dsimp only; split <;> simp

theorem wcell_wnode_visit {m : Src} (hn : NodesOk m) {w : Nat} (hw : w / 2 < (visits m).length) :
    (wcell m w, wnode m w) ∈ cornerVisits m := by
  have hv : (visits m)[w / 2]? = some (visits m)[w / 2] := List.getElem?_eq_getElem hw
  have hmem := List.mem_of_getElem? hv
  have hc : wcell m w = (visits m)[w / 2].cell := by rw [wcell, hv]
  have hcells := (mem_visits.1 hmem).1.1
  rw [mem_cornerVisits, hc]
  refine ⟨hcells, (hn.ends _ hcells _).2 ⟨_, _, visit_incident hmem, ?_⟩⟩
  rcases wnode_end hv with h | h
  · exact .inl h.symm
  · exact .inr h.symm

/-- both ends of the edge of a side are nodes of its two wedges -/
theorem exists_wedge {m : Src} {s : Nat} {v : Visit} (hv : (visits m)[s]? = some v) (n : Nat)
    (hn : (m.edgeNodes v.edge).1 = n ∨ (m.edgeNodes v.edge).2 = n) :
    ∃ w, w / 2 = s ∧ wnode m w = n := by
  have h0 : (2 * s) / 2 = s := by omega
  have h1 : (2 * s + 1) / 2 = s := by omega
  have e0 : (2 * s) % 2 = 0 := by omega
  have e1 : ¬ ((2 * s + 1) % 2 = 0) := by omega
  have w0 : wnode m (2 * s) = if (mkRec m v).use = true then (m.edgeNodes v.edge).1 else (m.edgeNodes v.edge).2 := by
    rw [wnode, h0, hv]; simp
  have w1 : wnode m (2 * s + 1) = if (mkRec m v).use = true then (m.edgeNodes v.edge).2 else (m.edgeNodes v.edge).1 := by
    rw [wnode, h1, hv]
    cases hu : (mkRec m v).use <;> simp [hu]
  cases hu : (mkRec m v).use
  · rw [hu] at w0 w1
    rcases hn with rfl | rfl
    · exact ⟨2 * s + 1, h1, by simpa using w1⟩
    · exact ⟨2 * s, h0, by simpa using w0⟩
  · rw [hu] at w0 w1
    rcases hn with rfl | rfl
    · exact ⟨2 * s, h0, by simpa using w0⟩
    · exact ⟨2 * s + 1, h1, by simpa using w1⟩

theorem wedgesOf_nodup (m : Src) (c : Nat) : (wedgesOf m c).Nodup := by
  have : (wedgesOf m c).Pairwise (· < ·) := by
    unfold wedgesOf pairs
    rw [List.pairwise_flatMap]
    refine ⟨fun s _ => by simp, ?_⟩
    refine (positions_sorted _ _).imp ?_
    intro a b hab x hx y hy
    simp only [List.mem_cons, List.not_mem_nil, or_false] at hx hy
    omega
  exact this.imp fun h => Nat.ne_of_lt h

/-- the wedges of the corner at node `n` of cell `c` -/
def cwedges (m : Src) (v : Nat × Nat) : List Nat := (wedgesOf m v.1).filter fun w => v.2 = wnode m w

theorem mem_cwedges {m : Src} {c n w : Nat} :
    w ∈ cwedges m (c, n) ↔ w / 2 < (visits m).length ∧ wcell m w = c ∧ wnode m w = n := by
  rw [cwedges, List.mem_filter, mem_wedgesOf]
  simp only [decide_eq_true_eq, eq_comm (a := n), and_assoc]

theorem cwedges_ne {m : Src} (hn : NodesOk m) {c n : Nat} (h : (c, n) ∈ cornerVisits m) : cwedges m (c, n) ≠ [] := by
  obtain ⟨hc, hcn⟩ := mem_cornerVisits.1 h
  obtain ⟨f, e, hinc, hend⟩ := (hn.ends c hc n).1 hcn
  obtain ⟨v, hv, hk⟩ := incident_visit hinc
  simp only [key, Prod.mk.injEq] at hk
  obtain ⟨s, hs, hsv⟩ := List.getElem_of_mem hv
  have hsv' : (visits m)[s]? = some v := by rw [List.getElem?_eq_getElem hs, hsv]
  obtain ⟨w, hw, hwn⟩ := exists_wedge hsv' n (by rw [hk.2.2]; exact hend)
  intro hnil
  have : w ∈ cwedges m (c, n) := mem_cwedges.2 ⟨by omega, by rw [wcell, hw, hsv']; exact hk.1, hwn⟩
  rw [hnil] at this; cases this

section corner
variable {m : Src} {i : Info} {k : CornerInfo}

theorem cornerWedges_get (hk : CInv m (cornerVisits m) (cornerVisits m) k) {cn : Nat} :
    k.cornerWedges[cn]? = ((cornerVisits m)[cn]?).map (cwedges m) := by
  rw [hk.cornerWedges, Nat.sub_self, List.replicate_zero, List.append_nil, List.getElem?_map]; rfl

theorem cornerWedges_some (hk : CInv m (cornerVisits m) (cornerVisits m) k) {cn : Nat} {v : Nat × Nat}
    (hv : (cornerVisits m)[cn]? = some v) : k.cornerWedges[cn]? = some (cwedges m v) := by
  rw [cornerWedges_get hk, hv]; rfl

theorem ncorners (hk : CInv m (cornerVisits m) (cornerVisits m) k) : k.cornerWedges.length = (cornerVisits m).length := by
  rw [hk.cornerWedges]; simp

theorem corner_first (hn : NodesOk m) (hk : CInv m (cornerVisits m) (cornerVisits m) k) {cn c n : Nat}
    (hv : (cornerVisits m)[cn]? = some (c, n)) :
    ∃ w0, (k.cornerWedges[cn]?).bind (·.head?) = some w0 ∧ w0 / 2 < (visits m).length ∧ wcell m w0 = c ∧ wnode m w0 = n := by
  have hne := cwedges_ne hn (List.mem_of_getElem? hv)
  rw [cornerWedges_some hk hv, Option.bind_some]
  obtain ⟨w0, ws, e⟩ := List.exists_cons_of_ne_nil hne
  have : w0 ∈ cwedges m (c, n) := by rw [e]; simp
  exact ⟨w0, by rw [e]; rfl, mem_cwedges.1 this⟩

theorem wcell_side (hi : InfoOk m i) {w : Nat} (hw : w / 2 < (visits m).length) :
    ∃ r, i.side (w / 2) = some r ∧ r.cell = wcell m w := by
  have hv : (visits m)[w / 2]? = some (visits m)[w / 2] := List.getElem?_eq_getElem hw
  refine ⟨mkRec m (visits m)[w / 2], hi.side_iff.2 ⟨_, hv, rfl⟩, ?_⟩
  rw [mkRec_cell, wcell, hv]

theorem corner_node (hn : NodesOk m) (hi : InfoOk m i) (hk : CInv m (cornerVisits m) (cornerVisits m) k) {cn c n : Nat}
    (hv : (cornerVisits m)[cn]? = some (c, n)) : cornerGetNode m i k cn = some n := by
  obtain ⟨w0, e, hlt, -, hwn⟩ := corner_first hn hk hv
  rw [cornerGetNode, e, Option.bind_some, wedgeGetNode_ok hi w0 hlt, hwn]

theorem corner_cell (hn : NodesOk m) (hi : InfoOk m i) (hk : CInv m (cornerVisits m) (cornerVisits m) k) {cn c n : Nat}
    (hv : (cornerVisits m)[cn]? = some (c, n)) : cornerGetCell i k cn = some c := by
  obtain ⟨w0, e, hlt, hwc, -⟩ := corner_first hn hk hv
  obtain ⟨r, hr, hrc⟩ := wcell_side hi hlt
  rw [cornerGetCell, e, Option.bind_some, Info.wedge, wedgeGetSide, hr, Option.map_some, hrc, hwc]

theorem corner_visit (hk : CInv m (cornerVisits m) (cornerVisits m) k) {cn : Nat} (h : cn < k.cornerWedges.length) :
    ∃ c n, (cornerVisits m)[cn]? = some (c, n) := by
  rw [ncorners hk] at h
  exact ⟨_, _, List.getElem?_eq_getElem h⟩

end corner
end Jali.Sides
