import Verif.Proof.Sides
/-! Lemmas about wedges and corners. -/
namespace Jali.Sides
open Spec

/-- the two wedges of each side -/
def pairs (l : List Nat) : List Nat := l.flatMap fun s => [2 * s, 2 * s + 1]

theorem length_pairs (l : List Nat) : (pairs l).length = 2 * l.length := by
  induction l with
  | nil => rfl
  | cons a l ih => rw [pairs, List.flatMap_cons, List.length_append, List.length_cons, ← pairs, ih]; simp; omega

theorem pairs_snoc (l : List Nat) (s : Nat) : pairs (l ++ [s]) = pairs l ++ [2 * s, 2 * s + 1] := by
  simp [pairs]

theorem mem_pairs {l : List Nat} {w : Nat} : w ∈ pairs l ↔ w / 2 ∈ l := by
  unfold pairs
  rw [List.mem_flatMap]
  constructor
  · rintro ⟨s, hs, hw⟩
    simp only [List.mem_cons, List.not_mem_nil, or_false] at hw
    have : w / 2 = s := by omega
    rw [this]; exact hs
  · intro h
    refine ⟨w / 2, h, ?_⟩
    simp only [List.mem_cons, List.not_mem_nil, or_false]; omega

theorem FillOk.push2 {v : Fill} {l : List Nat} {n : Nat} (h : FillOk v (pairs l) (2 * n)) (s : Nat)
    (hlt : l.length < n) :
    ∃ v1 v2, v.push (2 * s) = some v1 ∧ v1.push (2 * s + 1) = some v2 ∧ FillOk v2 (pairs (l ++ [s])) (2 * n) := by
  obtain ⟨v1, e1, h1⟩ := h.push (2 * s) (by rw [length_pairs]; omega)
  obtain ⟨v2, e2, h2⟩ := h1.push (2 * s + 1) (by rw [List.length_append, length_pairs]; simp; omega)
  refine ⟨v1, v2, e1, e2, ?_⟩
  rw [pairs_snoc]
  simpa using h2

theorem InfoOk.side {m : Src} {i : Info} (h : InfoOk m i) (s : Nat) :
    i.side s = ((visits m)[s]?).map (mkRec m) := by
  rw [Info.side, h.recs, List.getElem?_map]
  cases (visits m)[s]? <;> rfl

theorem mkRec_cell (m : Src) (v : Visit) : (mkRec m v).cell = v.cell := by
  unfold mkRec; dsimp only; split <;> rfl
theorem mkRec_face (m : Src) (v : Visit) : (mkRec m v).face = v.face := by
  unfold mkRec; dsimp only; split <;> rfl
theorem mkRec_edge (m : Src) (v : Visit) : (mkRec m v).edge = v.edge := by
  unfold mkRec; dsimp only; split <;> rfl

/-- progress of the wedge lists after the sides of `done` -/
def WInv (m : Src) (full done : List Visit) (l : Fill × Fill × Fill) : Prop :=
  FillOk l.1 (pairs (positions (fun v => m.cellType v.cell == .PARALLEL_OWNED) done))
    (2 * (positions (fun v => m.cellType v.cell == .PARALLEL_OWNED) full).length) ∧
  FillOk l.2.1 (pairs (positions (fun v => m.cellType v.cell == .PARALLEL_GHOST) done))
    (2 * (positions (fun v => m.cellType v.cell == .PARALLEL_GHOST) full).length) ∧
  FillOk l.2.2 (pairs (positions (fun v => m.cellType v.cell == .BOUNDARY_GHOST) done))
    (2 * (positions (fun v => m.cellType v.cell == .BOUNDARY_GHOST) full).length)

theorem wedgeLoop_ok (m : Src) (i : Info) (h : InfoOk m i) : ∀ (rest done : List Visit) (l : Fill × Fill × Fill),
    visits m = done ++ rest → WInv m (visits m) done l →
    (∀ v ∈ rest, Known (m.cellType v.cell)) →
    ∃ l', wedgeLoop m i (List.range' done.length rest.length) l = some l' ∧ WInv m (visits m) (visits m) l' := by
  intro rest
  induction rest with
  | nil =>
    intro done l hd hw _
    rw [List.append_nil] at hd
    exact ⟨l, rfl, by rw [← hd] at hw; exact hw⟩
  | cons v rest ih =>
    intro done l hd hw hk
    have hside : i.side done.length = some (mkRec m v) := by
      rw [h.side, hd, List.getElem?_append_right (Nat.le_refl _)]; simp
    obtain ⟨ho, hg, hb⟩ := hw
    have hlt : ∀ p : Visit → Bool, p v = true → (positions p done).length < (positions p (visits m)).length := by
      intro p hp; rw [hd]; exact positions_lt_of_snoc p done rest v hp
    have step : ∃ l1, listWedges (m.cellType v.cell) l done.length = some l1 ∧ WInv m (visits m) (done ++ [v]) l1 := by
      rcases hk v (by simp) with ht | ht | ht
      · obtain ⟨v1, v2, e1, e2, h2⟩ := ho.push2 done.length (hlt _ (by simp [ht]))
        refine ⟨(v2, l.2.1, l.2.2), by rw [ht]; unfold listWedges; dsimp only; rw [e1, Option.bind_some, e2]; rfl, ?_, ?_, ?_⟩
        · rw [positions_snoc_pos _ _ _ (by simp [ht])]; exact h2
        · rw [positions_snoc_neg _ _ _ (by simp [ht])]; exact hg
        · rw [positions_snoc_neg _ _ _ (by simp [ht])]; exact hb
      · obtain ⟨v1, v2, e1, e2, h2⟩ := hg.push2 done.length (hlt _ (by simp [ht]))
        refine ⟨(l.1, v2, l.2.2), by rw [ht]; unfold listWedges; dsimp only; rw [e1, Option.bind_some, e2]; rfl, ?_, ?_, ?_⟩
        · rw [positions_snoc_neg _ _ _ (by simp [ht])]; exact ho
        · rw [positions_snoc_pos _ _ _ (by simp [ht])]; exact h2
        · rw [positions_snoc_neg _ _ _ (by simp [ht])]; exact hb
      · obtain ⟨v1, v2, e1, e2, h2⟩ := hb.push2 done.length (hlt _ (by simp [ht]))
        refine ⟨(l.1, l.2.1, v2), by rw [ht]; unfold listWedges; dsimp only; rw [e1, Option.bind_some, e2]; rfl, ?_, ?_, ?_⟩
        · rw [positions_snoc_neg _ _ _ (by simp [ht])]; exact ho
        · rw [positions_snoc_neg _ _ _ (by simp [ht])]; exact hg
        · rw [positions_snoc_pos _ _ _ (by simp [ht])]; exact h2
    obtain ⟨l1, e1, h1⟩ := step
    obtain ⟨l2, e2, h2⟩ := ih (done ++ [v]) l1 (by rw [hd]; simp) h1 (fun w hw => hk w (by simp [hw]))
    refine ⟨l2, ?_, h2⟩
    rw [List.length_append, List.length_singleton] at e2
    rw [List.length_cons, List.range'_succ]
    obtain ⟨o, g, b⟩ := l
    rw [wedgeLoop, hside, Option.bind_some, mkRec_cell, e1, Option.bind_some, e2]

theorem cacheWedgeInfo_ok (m : Src) (i : Info) (h : InfoOk m i) (hk : ∀ v ∈ visits m, Known (m.cellType v.cell)) :
    cacheWedgeInfo m i = some ⟨pairs i.owned.arr, pairs i.ghost.arr, pairs i.bndry.arr,
      pairs i.owned.arr ++ pairs i.ghost.arr ++ pairs i.bndry.arr⟩ := by
  have hw : WInv m (visits m) [] (Fill.new (2 * i.owned.arr.length), Fill.new (2 * i.ghost.arr.length),
      Fill.new (2 * i.bndry.arr.length)) := by
    rw [h.owned, h.ghost, h.bndry]
    exact ⟨FillOk.new _, FillOk.new _, FillOk.new _⟩
  obtain ⟨l, e, h1, h2, h3⟩ := wedgeLoop_ok m i h (visits m) [] _ rfl hw hk
  rw [cacheWedgeInfo, h.all, List.range_eq_range']
  change Option.map _ (wedgeLoop m i (List.range' ([] : List Visit).length (visits m).length) _) = _
  rw [e]
  have f1 := h1.full (length_pairs _)
  have f2 := h2.full (length_pairs _)
  have f3 := h3.full (length_pairs _)
  rw [Option.map_some, f1, f2, f3, h.owned, h.ghost, h.bndry]

/-! ### corners -/

theorem cornerWedgeLoop_ok (m : Src) (i : Info) (n : Nat) (g : Nat → Nat) : ∀ (ws : List Nat) (k : CornerInfo),
    (∀ w ∈ ws, wedgeGetNode m i w = some (g w)) → (∀ w ∈ ws, w < k.wedgeCorner.length) →
    k.next < k.cornerWedges.length →
    ∃ k', cornerWedgeLoop m i n ws k = some k' ∧
      k'.cornerWedges = k.cornerWedges.modify k.next (· ++ ws.filter fun w => n = g w) ∧
      k'.wedgeCorner.length = k.wedgeCorner.length ∧
      (∀ w, (w ∈ ws ∧ n = g w → k'.wedgeCorner[w]? = some (k.next : Int)) ∧
        (¬ (w ∈ ws ∧ n = g w) → k'.wedgeCorner[w]? = k.wedgeCorner[w]?)) ∧
      k'.cellCorners = k.cellCorners ∧ k'.nodeCorners = k.nodeCorners ∧ k'.owned = k.owned ∧ k'.ghost = k.ghost ∧
      k'.bndry = k.bndry ∧ k'.next = k.next := by
  intro ws
  induction ws with
  | nil =>
    intro k _ _ _
    refine ⟨k, rfl, ?_, rfl, by simp, rfl, rfl, rfl, rfl, rfl, rfl⟩
    apply List.ext_getElem
    · simp
    · intro j h1 h2; rw [List.getElem_modify]; split <;> simp
  | cons w ws ih =>
    intro k hn hlt hk
    rw [cornerWedgeLoop, hn w (by simp), Option.bind_some]
    by_cases h : n = g w
    · rw [if_pos h, pushBackAt, if_pos hk, Option.bind_some, assign, if_pos (hlt w (by simp))]
      rw [Option.map_some, Option.bind_some]
      obtain ⟨k', e, h1, h2, h3, h4⟩ := ih { k with
          cornerWedges := k.cornerWedges.modify k.next (· ++ [w])
          wedgeCorner := k.wedgeCorner.set w (k.next : Int) }
        (fun x hx => hn x (by simp [hx]))
        (fun x hx => by simpa using hlt x (by simp [hx])) (by simpa using hk)
      refine ⟨k', e, ?_, by simpa using h2, ?_, h4⟩
      · rw [h1]
        dsimp only
        apply List.ext_getElem
        · simp
        · intro j a b
          simp only [List.getElem_modify]
          split
          · simp [h]
          · rfl
      · intro x
        obtain ⟨h5, h6⟩ := h3 x
        dsimp only at h5 h6
        refine ⟨?_, ?_⟩
        · rintro ⟨hx, hg⟩
          by_cases hxs : x ∈ ws
          · exact h5 ⟨hxs, hg⟩
          · have hxw : x = w := by simpa [hxs] using hx
            subst hxw
            rw [h6 (fun hc => hxs hc.1), List.getElem?_set, if_pos rfl, if_pos (hlt x (by simp))]
        · intro hx
          have hxw : w ≠ x := by
            rintro rfl; exact hx ⟨by simp, h⟩
          rw [h6 (fun hc => hx ⟨by simp [hc.1], hc.2⟩), List.getElem?_set, if_neg hxw]
    · rw [if_neg h, Option.bind_some]
      obtain ⟨k', e, h1, h2, h3, h4⟩ := ih k (fun x hx => hn x (by simp [hx])) (fun x hx => hlt x (by simp [hx])) hk
      refine ⟨k', e, ?_, h2, ?_, h4⟩
      · rw [h1, List.filter_cons, if_neg (by simpa using h)]
      · intro x
        obtain ⟨h5, h6⟩ := h3 x
        refine ⟨?_, ?_⟩
        · rintro ⟨hx, hg⟩
          refine h5 ⟨?_, hg⟩
          rcases List.mem_cons.1 hx with rfl | hx
          · exact absurd hg h
          · exact hx
        · intro hx
          exact h6 fun hc => hx ⟨by simp [hc.1], hc.2⟩

/-- the wedges of cell `c` -/
def wedgesOf (m : Src) (c : Nat) : List Nat := pairs (positions (fun v => v.cell == c) (visits m))

/-- node of a wedge -/
def wnode (m : Src) (w : Nat) : Nat :=
  match (visits m)[w / 2]? with
  | none => 0
  | some v => if (w % 2 = 0) = ((mkRec m v).use = true) then (m.edgeNodes v.edge).1 else (m.edgeNodes v.edge).2

/-- cell of a wedge -/
def wcell (m : Src) (w : Nat) : Nat :=
  match (visits m)[w / 2]? with
  | none => 0
  | some v => v.cell

theorem wedgeGetNode_ok {m : Src} {i : Info} (h : InfoOk m i) (w : Nat) (hw : w / 2 < (visits m).length) :
    wedgeGetNode m i w = some (wnode m w) := by
  have : (visits m)[w / 2]? = some (visits m)[w / 2] := List.getElem?_eq_getElem hw
  rw [wedgeGetNode, sideGetNode, wedgeGetSide, h.side, wnode, this]
  dsimp only
  rw [Option.map_some, Option.map_some, mkRec_edge]

theorem mem_wedgesOf {m : Src} {c w : Nat} :
    w ∈ wedgesOf m c ↔ w / 2 < (visits m).length ∧ wcell m w = c := by
  rw [wedgesOf, mem_pairs, mem_positions]
  constructor
  · rintro ⟨v, hv, hc⟩
    refine ⟨lt_of_getElem? hv, ?_⟩
    rw [wcell, hv]; simpa using hc
  · rintro ⟨hlt, hc⟩
    refine ⟨(visits m)[w / 2], List.getElem?_eq_getElem hlt, ?_⟩
    rw [wcell, List.getElem?_eq_getElem hlt] at hc
    simpa using hc

/-- Invariant of the corner loops. -/
structure CInv (m : Src) (full done : List (Nat × Nat)) (k : CornerInfo) : Prop where
  next : k.next = done.length
  cornerWedges : k.cornerWedges = (done.map fun v => (wedgesOf m v.1).filter fun w => v.2 = wnode m w) ++
    List.replicate (full.length - done.length) []
  wlen : k.wedgeCorner.length = 2 * (visits m).length
  hit : ∀ (j : Nat) v w, done[j]? = some v → w / 2 < (visits m).length → wcell m w = v.1 → wnode m w = v.2 →
    k.wedgeCorner[w]? = some (j : Int)
  miss : ∀ w, w / 2 < (visits m).length → (wcell m w, wnode m w) ∉ done → k.wedgeCorner[w]? = some (-1)
  cellCorners : k.cellCorners = (List.range m.ncells).map fun c => positions (fun v => v.1 == c) done
  nodeCorners : k.nodeCorners = (List.range m.nnodes).map fun n => positions (fun v => v.2 == n) done
  owned : FillOk k.owned (positions (fun v => m.cellType v.1 == .PARALLEL_OWNED) done)
    (positions (fun v => m.cellType v.1 == .PARALLEL_OWNED) full).length
  ghost : FillOk k.ghost (positions (fun v => m.cellType v.1 == .PARALLEL_GHOST) done)
    (positions (fun v => m.cellType v.1 == .PARALLEL_GHOST) full).length
  bndry : FillOk k.bndry (positions (fun v => m.cellType v.1 == .BOUNDARY_GHOST) done)
    (positions (fun v => m.cellType v.1 == .BOUNDARY_GHOST) full).length

theorem cornerBody_ok (m : Src) (i : Info) (hi : InfoOk m i) (done rest : List (Nat × Nat)) (c n : Nat) (k : CornerInfo)
    (h : CInv m (done ++ (c, n) :: rest) done k) (hc : c < m.ncells) (hn : n < m.nnodes)
    (ht : Known (m.cellType c)) (hnew : (c, n) ∉ done) :
    ∃ k', cornerBody m i (wedgesOf m c) c n k = some k' ∧ CInv m (done ++ (c, n) :: rest) (done ++ [(c, n)]) k' := by
  have e1 : pushBackAt k.cellCorners c k.next =
      some ((List.range m.ncells).map fun c' => positions (fun v => v.1 == c') (done ++ [(c, n)])) := by
    rw [h.cellCorners, h.next]; exact pushBackAt_table m.ncells Prod.fst done (c, n) hc
  have e2 : pushBackAt k.nodeCorners n k.next =
      some ((List.range m.nnodes).map fun n' => positions (fun v => v.2 == n') (done ++ [(c, n)])) := by
    rw [h.nodeCorners, h.next]; exact pushBackAt_table m.nnodes Prod.snd done (c, n) hn
  have e3 : ∃ o g b, listCorner (m.cellType c) k.owned k.ghost k.bndry k.next = some (o, g, b) ∧
      FillOk o (positions (fun v => m.cellType v.1 == .PARALLEL_OWNED) (done ++ [(c, n)]))
        (positions (fun v : Nat × Nat => m.cellType v.1 == .PARALLEL_OWNED) (done ++ (c, n) :: rest)).length ∧
      FillOk g (positions (fun v => m.cellType v.1 == .PARALLEL_GHOST) (done ++ [(c, n)]))
        (positions (fun v : Nat × Nat => m.cellType v.1 == .PARALLEL_GHOST) (done ++ (c, n) :: rest)).length ∧
      FillOk b (positions (fun v => m.cellType v.1 == .BOUNDARY_GHOST) (done ++ [(c, n)]))
        (positions (fun v : Nat × Nat => m.cellType v.1 == .BOUNDARY_GHOST) (done ++ (c, n) :: rest)).length := by
    rcases ht with ht | ht | ht
    · obtain ⟨o, eo, ho⟩ := h.owned.push k.next (positions_lt_of_snoc _ _ _ _ (by simp [ht]))
      refine ⟨o, k.ghost, k.bndry, by rw [ht]; unfold listCorner; dsimp only; rw [eo]; rfl, ?_, ?_, ?_⟩
      · rw [positions_snoc_pos _ _ _ (by simp [ht]), ← h.next]; exact ho
      · rw [positions_snoc_neg _ _ _ (by simp [ht])]; exact h.ghost
      · rw [positions_snoc_neg _ _ _ (by simp [ht])]; exact h.bndry
    · obtain ⟨o, eo, ho⟩ := h.ghost.push k.next (positions_lt_of_snoc _ _ _ _ (by simp [ht]))
      refine ⟨k.owned, o, k.bndry, by rw [ht]; unfold listCorner; dsimp only; rw [eo]; rfl, ?_, ?_, ?_⟩
      · rw [positions_snoc_neg _ _ _ (by simp [ht])]; exact h.owned
      · rw [positions_snoc_pos _ _ _ (by simp [ht]), ← h.next]; exact ho
      · rw [positions_snoc_neg _ _ _ (by simp [ht])]; exact h.bndry
    · obtain ⟨o, eo, ho⟩ := h.bndry.push k.next (positions_lt_of_snoc _ _ _ _ (by simp [ht]))
      refine ⟨k.owned, k.ghost, o, by rw [ht]; unfold listCorner; dsimp only; rw [eo]; rfl, ?_, ?_, ?_⟩
      · rw [positions_snoc_neg _ _ _ (by simp [ht])]; exact h.owned
      · rw [positions_snoc_neg _ _ _ (by simp [ht])]; exact h.ghost
      · rw [positions_snoc_pos _ _ _ (by simp [ht]), ← h.next]; exact ho
  obtain ⟨o, g, b, e3, ho, hg, hb⟩ := e3
  have hwlt : ∀ w ∈ wedgesOf m c, w / 2 < (visits m).length := fun w hw => (mem_wedgesOf.1 hw).1
  obtain ⟨k', e4, f1, f2, f3, f4, f5, f6, f7, f8, f9⟩ := cornerWedgeLoop_ok m i n (wnode m) (wedgesOf m c)
    { k with
      cellCorners := (List.range m.ncells).map fun c' => positions (fun v => v.1 == c') (done ++ [(c, n)])
      nodeCorners := (List.range m.nnodes).map fun n' => positions (fun v => v.2 == n') (done ++ [(c, n)])
      owned := o, ghost := g, bndry := b }
    (fun w hw => wedgeGetNode_ok hi w (hwlt w hw))
    (fun w hw => by have := hwlt w hw; dsimp only; rw [h.wlen]; omega)
    (by dsimp only; rw [h.cornerWedges, h.next]; simp)
  unfold cornerBody
  rw [e1, Option.bind_some, e2, Option.bind_some, e3, Option.bind_some, e4]
  refine ⟨_, rfl, ?_, ?_, ?_, ?_, ?_, f4, f5, ?_, ?_, ?_⟩
  · dsimp only; rw [f9]; simp [h.next]
  · dsimp only
    rw [f1, h.cornerWedges, h.next]
    have hk : (done ++ (c, n) :: rest).length - done.length = rest.length + 1 := by simp
    have hk2 : (done ++ (c, n) :: rest).length - (done ++ [(c, n)]).length = rest.length := by simp; omega
    rw [hk, hk2, List.replicate_succ]
    apply List.ext_getElem
    · simp
    · intro j a b'
      rw [List.getElem_modify]
      by_cases hj : done.length = j
      · subst hj
        rw [if_pos rfl, List.getElem_append_right (by simp), List.getElem_append_left (by simp)]
        simp
      · rw [if_neg hj]
        by_cases hj2 : j < done.length
        · rw [List.getElem_append_left (by simpa using hj2), List.getElem_append_left (by simp; omega)]
          simp [hj2]
        · rw [List.getElem_append_right (by simp; omega), List.getElem_append_right (by simp; omega)]
          simp only [List.length_map, List.length_append, List.length_singleton, List.getElem_replicate]
          rw [List.getElem_cons]
          split
          · omega
          · simp
  · dsimp only; rw [f2]; exact h.wlen
  · intro j v w hv hw h1 h2
    dsimp only
    obtain ⟨f3a, f3b⟩ := f3 w
    dsimp only at f3a f3b
    rcases getElem?_snoc_cases hv with ⟨hj, hv'⟩ | ⟨rfl, rfl⟩
    · have hne : v ≠ (c, n) := by
        rintro rfl; exact hnew (List.mem_of_getElem? hv')
      rw [f3b ?_]
      · exact h.hit j v w hv' hw h1 h2
      · rintro ⟨hwc, hwn⟩
        apply hne
        obtain ⟨-, hcc⟩ := mem_wedgesOf.1 hwc
        exact Prod.ext (h1.symm.trans hcc) (h2.symm.trans hwn.symm)
    · rw [f3a ⟨mem_wedgesOf.2 ⟨hw, h1⟩, h2.symm⟩, h.next]
  · intro w hw hno
    dsimp only
    obtain ⟨f3a, f3b⟩ := f3 w
    dsimp only at f3a f3b
    rw [List.mem_append, not_or] at hno
    rw [f3b ?_]
    · exact h.miss w hw hno.1
    · rintro ⟨hwc, hwn⟩
      apply hno.2
      rw [(mem_wedgesOf.1 hwc).2, ← hwn]; simp
  · dsimp only; rw [f6]; exact ho
  · dsimp only; rw [f7]; exact hg
  · dsimp only; rw [f8]; exact hb

theorem InfoOk.cellGetWedges {m : Src} {i : Info} (h : InfoOk m i) (c : Nat) (hc : c < m.ncells) :
    i.cellGetWedges c = some (wedgesOf m c) := by
  rw [Info.cellGetWedges, h.cellSides, List.getElem?_map, List.getElem?_range hc]; rfl

theorem cornerRun_ok (m : Src) (i : Info) (hi : InfoOk m i) : ∀ (rest done : List (Nat × Nat)) (k : CornerInfo),
    CInv m (done ++ rest) done k →
    (∀ v ∈ rest, v.1 < m.ncells ∧ v.2 < m.nnodes ∧ Known (m.cellType v.1)) → (done ++ rest).Nodup →
    ∃ k', cornerRun m i rest k = some k' ∧ CInv m (done ++ rest) (done ++ rest) k' := by
  intro rest
  induction rest with
  | nil => intro done k h _ _; exact ⟨k, rfl, by simpa using h⟩
  | cons v rest ih =>
    intro done k h hv hnd
    obtain ⟨c, n⟩ := v
    obtain ⟨hc, hn, ht⟩ := hv (c, n) (by simp)
    have e : done ++ (c, n) :: rest = (done ++ [(c, n)]) ++ rest := by simp
    have hnew : (c, n) ∉ done := by
      intro hmem
      rw [List.nodup_append] at hnd
      exact hnd.2.2 (c, n) hmem (c, n) (by simp) rfl
    obtain ⟨k1, e1, h1⟩ := cornerBody_ok m i hi done rest c n k h hc hn ht hnew
    rw [e] at h1 hnd
    obtain ⟨k2, e2, h2⟩ := ih (done ++ [(c, n)]) k1 h1 (fun w hw => hv w (by simp [hw])) hnd
    rw [e]
    refine ⟨k2, ?_, h2⟩
    rw [cornerRun, hi.cellGetWedges c hc, Option.bind_some, e1, Option.bind_some, e2]

theorem countCorners_eq (m : Src) (p : EntityType → Bool) :
    countCorners m p = ((cornerVisits m).filter fun v => p (m.cellType v.1)).length := by
  unfold countCorners cornerVisits
  generalize m.cells = cs
  induction cs with
  | nil => rfl
  | cons c cs ih =>
    rw [List.map_cons, List.sum_cons, ih, List.flatMap_cons, List.filter_append, List.length_append]
    congr 1
    rw [List.filter_map]
    cases h : p (m.cellType c) with
    | true =>
      have : ((fun v : Nat × Nat => p (m.cellType v.1)) ∘ fun e : Nat => (c, e)) = fun _ => true := by
        funext e; simp [h]
      rw [this]; simp
    | false =>
      have : ((fun v : Nat × Nat => p (m.cellType v.1)) ∘ fun e : Nat => (c, e)) = fun _ => false := by
        funext e; simp [h]
      rw [this]; simp

theorem types_total {α : Type} (ty : α → EntityType) (l : List α) (h : ∀ a ∈ l, Known (ty a)) :
    (positions (fun v => ty v == .PARALLEL_OWNED) l).length + (positions (fun v => ty v == .PARALLEL_GHOST) l).length +
      (positions (fun v => ty v == .BOUNDARY_GHOST) l).length = l.length := by
  simp only [length_positions]
  induction l with
  | nil => rfl
  | cons a l ih =>
    have := ih fun b hb => h b (by simp [hb])
    rcases h a (by simp) with ht | ht | ht <;> simp [ht] <;> omega

theorem cacheCornerInfo_ok (m : Src) (i : Info) (hi : InfoOk m i)
    (hk : ∀ v ∈ visits m, Known (m.cellType v.cell))
    (hv : ∀ v ∈ cornerVisits m, v.1 < m.ncells ∧ v.2 < m.nnodes ∧ Known (m.cellType v.1))
    (hnd : (cornerVisits m).Nodup) :
    ∃ k, cacheCornerInfo m i = some k ∧ CInv m (cornerVisits m) (cornerVisits m) k := by
  have hn : countCorners m (fun _ => true) = (cornerVisits m).length := by rw [countCorners_eq]; simp
  have hw : 2 * (i.owned.arr.length + i.ghost.arr.length + i.bndry.arr.length) = 2 * (visits m).length := by
    rw [hi.owned, hi.ghost, hi.bndry, types_total (fun v : Visit => m.cellType v.cell) _ hk]
  have hs : CInv m ([] ++ cornerVisits m) []
      { cornerWedges := List.replicate (countCorners m fun _ => true) []
        wedgeCorner := List.replicate (2 * (i.owned.arr.length + i.ghost.arr.length + i.bndry.arr.length)) (-1)
        cellCorners := List.replicate m.ncells []
        nodeCorners := List.replicate m.nnodes []
        owned := Fill.new (countCorners m (· == .PARALLEL_OWNED))
        ghost := Fill.new (countCorners m (· == .PARALLEL_GHOST))
        bndry := Fill.new (countCorners m (· == .BOUNDARY_GHOST))
        next := 0 } := by
    refine ⟨rfl, ?_, ?_, by simp, ?_, ?_, ?_, ?_, ?_, ?_⟩
    · simp [hn]
    · simp only [List.length_replicate, hw]
    · intro w hwl _
      dsimp only
      rw [hw, List.getElem?_replicate, if_pos (by omega)]
    · simp only [positions_nil]; apply List.ext_getElem <;> simp
    · simp only [positions_nil]; apply List.ext_getElem <;> simp
    · have := FillOk.new (countCorners m (· == .PARALLEL_OWNED))
      rw [List.nil_append, length_positions, ← countCorners_eq m (· == .PARALLEL_OWNED)]; exact this
    · have := FillOk.new (countCorners m (· == .PARALLEL_GHOST))
      rw [List.nil_append, length_positions, ← countCorners_eq m (· == .PARALLEL_GHOST)]; exact this
    · have := FillOk.new (countCorners m (· == .BOUNDARY_GHOST))
      rw [List.nil_append, length_positions, ← countCorners_eq m (· == .BOUNDARY_GHOST)]; exact this
  obtain ⟨k, e, h⟩ := cornerRun_ok m i hi (cornerVisits m) [] _ hs hv (by simpa using hnd)
  exact ⟨k, e, by simpa using h⟩

end Jali.Sides
