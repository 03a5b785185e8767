import Verif.Props.Sides
/-! The number of wedges of a corner: one for each edge of a face of the cell that ends at the node. -/
namespace Jali.Sides
open Spec

theorem sideNode_or (m : Src) (i : Info) {x : Nat} {r : Rec} (hx : i.side x = some r) (n : Nat) :
    ((m.edgeNodes r.edge).1 = n ∨ (m.edgeNodes r.edge).2 = n) ↔ (sideGetNode m i x 0 = some n ∨ sideGetNode m i x 1 = some n) := by
  unfold sideGetNode
  rw [hx, Option.map_some, Option.map_some]
  cases r.use <;> simp [or_comm]

theorem sideNode_both (m : Src) (i : Info) {x : Nat} {r : Rec} (hx : i.side x = some r) {n : Nat} (h0 : sideGetNode m i x 0 = some n)
    (h1 : sideGetNode m i x 1 = some n) : (m.edgeNodes r.edge).1 = (m.edgeNodes r.edge).2 := by
  unfold sideGetNode at h0 h1
  rw [hx, Option.map_some] at h0 h1
  cases hu : r.use <;> rw [hu] at h0 h1 <;> simp at h0 h1 <;> omega

/-- the edges, with their faces, of the faces of a cell that end at a node -/
def endsAt (m : Src) (c n : Nat) : List (Nat × Nat) :=
  (m.cellFaces c).flatMap fun fd => ((m.faceEdges fd.1).filter fun ed =>
    decide ((m.edgeNodes ed.1).1 = n) || decide ((m.edgeNodes ed.1).2 = n)).map fun ed => (fd.1, ed.1)

theorem mem_endsAt {m : Src} {c n f e : Nat} (hc : c ∈ m.cells) : (f, e) ∈ endsAt m c n ↔
    Incident m c f e ∧ ((m.edgeNodes e).1 = n ∨ (m.edgeNodes e).2 = n) := by
  unfold endsAt
  simp only [List.mem_flatMap, List.mem_map, List.mem_filter, Bool.or_eq_true, decide_eq_true_eq, Prod.mk.injEq, Prod.exists,
    exists_eq_right_right]
  constructor
  · rintro ⟨f', fd, hf, e', ed, ⟨he, hn⟩, rfl, rfl⟩
    exact ⟨⟨⟨fd, hc, hf⟩, ed, he⟩, hn⟩
  · rintro ⟨⟨⟨fd, _, hf⟩, ed, he⟩, hn⟩
    exact ⟨f, fd, hf, e, ed, ⟨he, hn⟩, rfl, rfl⟩

theorem endsAt_nodup {m : Src} (h : Valid m) {c : Nat} (hc : c ∈ m.cells) (n : Nat) : (endsAt m c n).Nodup := by
  have hf := h.faces_nodup c hc
  have he : ∀ fd ∈ m.cellFaces c, ((m.faceEdges fd.1).map Prod.fst).Nodup := fun fd hfd => h.edges_nodup c fd.1 fd.2 ⟨hc, hfd⟩
  unfold endsAt
  revert hf he
  generalize m.cellFaces c = l
  induction l with
  | nil => intro _ _; exact List.nodup_nil
  | cons fd l ih =>
    intro hf he
    rw [List.map_cons, List.nodup_cons] at hf
    rw [List.flatMap_cons]
    refine List.nodup_append.mpr ⟨?_, ih hf.2 fun q hq => he q (List.mem_cons_of_mem _ hq), ?_⟩
    · have h1 := he fd (List.mem_cons_self ..)
      have h2 := (List.filter_sublist (p := fun ed : Nat × Int => decide ((m.edgeNodes ed.1).1 = n) || decide ((m.edgeNodes ed.1).2 = n))
        (l := m.faceEdges fd.1)).map Prod.fst
      have h3 := h1.sublist h2
      have h4 : (List.map (fun e => (fd.1, e)) (List.map Prod.fst ((m.faceEdges fd.1).filter fun ed =>
          decide ((m.edgeNodes ed.1).1 = n) || decide ((m.edgeNodes ed.1).2 = n)))).Nodup :=
        h3.map (fun a b hab => (Prod.mk.inj hab).2)
      rw [List.map_map] at h4
      exact h4
    · rintro ⟨f1, e1⟩ h1 ⟨f2, e2⟩ h2 heq
      obtain ⟨rfl, rfl⟩ := Prod.mk.inj heq
      obtain ⟨ed, _, h1⟩ := List.mem_map.mp h1
      obtain ⟨fd', hfd', h2⟩ := List.mem_flatMap.mp h2
      obtain ⟨ed', _, h2⟩ := List.mem_map.mp h2
      have a := (Prod.mk.inj h1).1
      have b := (Prod.mk.inj h2).1
      exact hf.1 (List.mem_map.mpr ⟨fd', hfd', b.trans a.symm⟩)

/-- a corner has as many wedges as edges of faces of its cell end at its node -/
theorem corner_wedge_count {m : Src} (h : Valid m) {i : Info} (hci : cacheSideInfo m = some i) {c n : Nat} (hc : c ∈ m.cells)
    (hdist : ∀ f e, Incident m c f e → (m.edgeNodes e).1 ≠ (m.edgeNodes e).2) {ws : List Nat} (hnd : ws.Nodup)
    (hws : ∀ w, w ∈ ws ↔ (∃ r, i.wedge w = some r ∧ r.cell = c) ∧ wedgeGetNode m i w = some n) :
    ws.length = (endsAt m c n).length := by
  obtain ⟨i', e', _, _, hinc, hex, _⟩ := sides_are_incidences m h
  rw [hci] at e'; cases e'
  have hP : (ws.map fun w => ((i.wedge w).map fun r => (r.face, r.edge)).getD (0, 0)).Perm (endsAt m c n) := by
    refine (List.perm_ext_iff_of_nodup ?_ (endsAt_nodup h hc n)).mpr ?_
    · refine List.Nodup.map_on ?_ hnd
      intro w hw w' hw' heq
      obtain ⟨⟨r, hr, hrc⟩, hn⟩ := (hws w).mp hw
      obtain ⟨⟨r', hr', hrc'⟩, hn'⟩ := (hws w').mp hw'
      rw [hr, hr'] at heq
      obtain ⟨ef, ee⟩ := Prod.mk.inj (show (r.face, r.edge) = (r'.face, r'.edge) from heq)
      have hI := hinc (w / 2) r hr
      obtain ⟨x, _, hx⟩ := hex _ _ _ hI
      have e1 := hx (w / 2) ⟨r, hr, rfl, rfl, rfl⟩
      have e2 := hx (w' / 2) ⟨r', hr', by rw [hrc', hrc], ef.symm, ee.symm⟩
      have e3 : w / 2 = w' / 2 := e1.trans e2.symm
      by_contra hne
      have hd := hdist r.face r.edge (hrc ▸ hI)
      have hn1 : sideGetNode m i (w / 2) (w % 2) = some n := hn
      have hn2 : sideGetNode m i (w / 2) (w' % 2) = some n := by rw [e3]; exact hn'
      have hcase : (w % 2 = 0 ∧ w' % 2 = 1) ∨ (w % 2 = 1 ∧ w' % 2 = 0) := by omega
      rcases hcase with ⟨a, b⟩ | ⟨a, b⟩ <;> rw [a] at hn1 <;> rw [b] at hn2
      · exact hd (sideNode_both m i hr hn1 hn2)
      · exact hd (sideNode_both m i hr hn2 hn1)
    · rintro ⟨f, e⟩
      rw [mem_endsAt hc, List.mem_map]
      constructor
      · rintro ⟨w, hw, heq⟩
        obtain ⟨⟨r, hr, hrc⟩, hn⟩ := (hws w).mp hw
        rw [hr] at heq
        obtain ⟨rfl, rfl⟩ := Prod.mk.inj (show (r.face, r.edge) = (f, e) from heq)
        refine ⟨hrc ▸ hinc (w / 2) r hr, (sideNode_or m i hr n).mpr ?_⟩
        have hn1 : sideGetNode m i (w / 2) (w % 2) = some n := hn
        rcases (by omega : w % 2 = 0 ∨ w % 2 = 1) with a | a <;> rw [a] at hn1
        · exact .inl hn1
        · exact .inr hn1
      · rintro ⟨hI, hn⟩
        obtain ⟨x, ⟨r, hr, rfl, rfl, rfl⟩, _⟩ := hex _ _ _ hI
        rcases (sideNode_or m i hr n).mp hn with h0 | h1
        · have e0 : (2 * x) / 2 = x := by omega
          have e1 : (2 * x) % 2 = 0 := by omega
          have hw : i.wedge (2 * x) = some r := by show i.side ((2 * x) / 2) = _; rw [e0]; exact hr
          refine ⟨2 * x, (hws _).mpr ⟨⟨r, hw, rfl⟩, ?_⟩, by rw [hw]; rfl⟩
          show sideGetNode m i ((2 * x) / 2) ((2 * x) % 2) = _
          rw [e0, e1]; exact h0
        · have e0 : (2 * x + 1) / 2 = x := by omega
          have e1 : (2 * x + 1) % 2 = 1 := by omega
          have hw : i.wedge (2 * x + 1) = some r := by show i.side ((2 * x + 1) / 2) = _; rw [e0]; exact hr
          refine ⟨2 * x + 1, (hws _).mpr ⟨⟨r, hw, rfl⟩, ?_⟩, by rw [hw]; rfl⟩
          show sideGetNode m i ((2 * x + 1) / 2) ((2 * x + 1) % 2) = _
          rw [e0, e1]; exact h1
  have := hP.length_eq
  rwa [List.length_map] at this

/-- a cell has as many sides as its faces have edges -/
theorem side_count {m : Src} (h : Valid m) {i : Info} (hci : cacheSideInfo m = some i) {c : Nat} (hc : c ∈ m.cells) {l : List Nat}
    (hl : i.cellGetSides c = some l) : l.length = ((m.cellFaces c).map fun fd => (m.faceEdges fd.1).length).sum := by
  obtain ⟨i', e', _, _, hinc, hex, hcs, _⟩ := sides_are_incidences m h
  rw [hci] at e'; cases e'
  obtain ⟨l', hl', hpw, hin⟩ := hcs c (h.cells_lt c hc)
  rw [hl] at hl'; cases hl'
  have hnd : l.Nodup := hpw.imp fun h => Nat.ne_of_lt h
  have hE : ((m.cellFaces c).flatMap fun fd => (m.faceEdges fd.1).map fun ed => (fd.1, ed.1)).Nodup := by
    have hf := h.faces_nodup c hc
    have he : ∀ fd ∈ m.cellFaces c, ((m.faceEdges fd.1).map Prod.fst).Nodup := fun fd hfd => h.edges_nodup c fd.1 fd.2 ⟨hc, hfd⟩
    revert hf he
    generalize m.cellFaces c = l
    induction l with
    | nil => intro _ _; exact List.nodup_nil
    | cons fd l ih =>
      intro hf he
      rw [List.map_cons, List.nodup_cons] at hf
      rw [List.flatMap_cons]
      refine List.nodup_append.mpr ⟨?_, ih hf.2 fun q hq => he q (List.mem_cons_of_mem _ hq), ?_⟩
      · have h4 : (List.map (fun e => (fd.1, e)) (List.map Prod.fst (m.faceEdges fd.1))).Nodup :=
          (he fd (List.mem_cons_self ..)).map (fun a b hab => (Prod.mk.inj hab).2)
        rw [List.map_map] at h4
        exact h4
      · rintro ⟨f1, e1⟩ h1 ⟨f2, e2⟩ h2 heq
        obtain ⟨rfl, rfl⟩ := Prod.mk.inj heq
        obtain ⟨ed, _, h1⟩ := List.mem_map.mp h1
        obtain ⟨fd', hfd', h2⟩ := List.mem_flatMap.mp h2
        obtain ⟨ed', _, h2⟩ := List.mem_map.mp h2
        exact hf.1 (List.mem_map.mpr ⟨fd', hfd', (Prod.mk.inj h2).1.trans (Prod.mk.inj h1).1.symm⟩)
  have hP : (l.map fun x => ((i.side x).map fun r => (r.face, r.edge)).getD (0, 0)).Perm
      ((m.cellFaces c).flatMap fun fd => (m.faceEdges fd.1).map fun ed => (fd.1, ed.1)) := by
    refine (List.perm_ext_iff_of_nodup ?_ hE).mpr ?_
    · refine List.Nodup.map_on ?_ hnd
      intro x hx y hy heq
      obtain ⟨r, hr, hrc⟩ := (hin x).mp hx
      obtain ⟨r', hr', hrc'⟩ := (hin y).mp hy
      rw [hr, hr'] at heq
      obtain ⟨ef, ee⟩ := Prod.mk.inj (show (r.face, r.edge) = (r'.face, r'.edge) from heq)
      obtain ⟨z, _, hz⟩ := hex _ _ _ (hinc x r hr)
      exact (hz x ⟨r, hr, rfl, rfl, rfl⟩).trans (hz y ⟨r', hr', by rw [hrc', hrc], ef.symm, ee.symm⟩).symm
    · rintro ⟨f, e⟩
      rw [List.mem_map]
      constructor
      · rintro ⟨x, hx, heq⟩
        obtain ⟨r, hr, hrc⟩ := (hin x).mp hx
        rw [hr] at heq
        obtain ⟨rfl, rfl⟩ := Prod.mk.inj (show (r.face, r.edge) = (f, e) from heq)
        obtain ⟨⟨fd, _, hf⟩, ed, he⟩ := hrc ▸ hinc x r hr
        exact List.mem_flatMap.mpr ⟨_, hf, List.mem_map.mpr ⟨_, he, rfl⟩⟩
      · intro hm
        obtain ⟨fd, hf, hm⟩ := List.mem_flatMap.mp hm
        obtain ⟨ed, he, hm⟩ := List.mem_map.mp hm
        obtain ⟨rfl, rfl⟩ := Prod.mk.inj hm
        obtain ⟨x, ⟨r, hr, hrc, hrf, hre⟩, _⟩ := hex c fd.1 ed.1 ⟨⟨fd.2, hc, hf⟩, ed.2, he⟩
        exact ⟨x, (hin x).mpr ⟨r, hr, hrc⟩, by rw [hr]; exact Prod.ext hrf hre⟩
  have := hP.length_eq
  rw [List.length_map, List.length_flatMap] at this
  rw [this]
  exact congrArg List.sum (List.map_congr_left fun fd _ => List.length_map _)

/-- a cell has as many corners as nodes -/
theorem corner_count {m : Src} (h : Valid m) (hn : NodesOk m) {i : Info} {k : CornerInfo} (hci : cacheSideInfo m = some i)
    (hck : cacheCornerInfo m i = some k) {c : Nat} (hc : c ∈ m.cells) :
    ∃ l, k.cellCorners[c]? = some l ∧ l.length = (m.cellNodes c).length ∧ l.Nodup ∧
      ∀ cn, cn ∈ l ↔ cn < k.cornerWedges.length ∧ cornerGetCell i k cn = some c := by
  obtain ⟨i', k', e', ek', h1, h2, _, _, h5, _⟩ := corners m h hn
  rw [hci] at e'; cases e'
  rw [hck] at ek'; cases ek'
  obtain ⟨l, hl, hnd, hin⟩ := h5 c (h.cells_lt c hc)
  refine ⟨l, hl, ?_, hnd, hin⟩
  have hP : (l.map fun cn => (cornerGetNode m i k cn).getD 0).Perm (m.cellNodes c) := by
    refine (List.perm_ext_iff_of_nodup ?_ (hn.nodup c hc)).mpr ?_
    · refine List.Nodup.map_on ?_ hnd
      intro x hx y hy heq
      obtain ⟨hx1, hx2⟩ := (hin x).mp hx
      obtain ⟨hy1, hy2⟩ := (hin y).mp hy
      obtain ⟨c1, _, n, hn1, hc1, hnx⟩ := h1 x hx1
      obtain ⟨c2, _, n', hn2, hc2, hny⟩ := h1 y hy1
      rw [hx2] at hc1; cases hc1
      rw [hy2] at hc2; cases hc2
      rw [hnx, hny] at heq
      have heq : n = n' := heq
      subst heq
      obtain ⟨z, _, hz⟩ := h2 c hc n hn1
      exact (hz x ⟨hx1, hx2, hnx⟩).trans (hz y ⟨hy1, hy2, hny⟩).symm
    · intro n
      rw [List.mem_map]
      constructor
      · rintro ⟨cn, hcn, rfl⟩
        obtain ⟨a, b⟩ := (hin cn).mp hcn
        obtain ⟨c1, _, n, hn1, hc1, hnx⟩ := h1 cn a
        rw [b] at hc1; cases hc1
        rw [hnx]; exact hn1
      · intro hm
        obtain ⟨cn, ⟨a, b, e⟩, _⟩ := h2 c hc n hm
        exact ⟨cn, (hin cn).mpr ⟨a, b⟩, by rw [e]; rfl⟩
  have := hP.length_eq
  rwa [List.length_map] at this

end Jali.Sides
