import Verif.Model.MstkCoords
import Verif.Props.MstkExtractMisc
/-
C129: coordinates of an MSTK mesh, and histories of calls that move nodes.
-/
namespace Jali.Mstk

variable {α : Type}

/-- the mesh is in space or in the plane -/
def Source.SpaceOk (s : Source α) : Prop := s.spaceDim = 2 ∨ s.spaceDim = 3

/-- the last of the calls that is about node `n` -/
def lastMove (os : List (Move α)) (n : Nat) : Option (Move α) := (os.filter fun o => o.node = n).getLast?

/-- what a call must bring: a pointer to three numbers, or a point with the dimension of space (or a higher one) -/
def Move.Enough (sdim : Nat) : Move α → Prop
  | .array _ a => 3 ≤ a.length
  | .point _ p => sdim ≤ p.length

/-! ### cells and faces -/

theorem mapM_bind_map {β γ δ : Type} (g : β → γ) (h : γ → Option δ) (l : List β) : (l.map g).mapM h = l.mapM fun b => h (g b) := by
  induction l with
  | nil => rfl
  | cons a l ih => simp only [List.map_cons, List.mapM_cons, ih]

theorem nodeGet_id (s : Source α) (v : Fin s.j.m.nv) : s.nodeGet (s.j.m.vmap.id v - 1) = s.pointAt v := by
  unfold Source.nodeGet
  rw [s.j.m.vnum.at_id v]; rfl

theorem nodes_mapM (s : Source α) (l : List (Fin s.j.m.nv)) :
    (l.map fun v => s.j.m.vmap.id v - 1).mapM s.nodeGet = l.mapM s.pointAt := by
  rw [mapM_bind_map]
  congr 1
  funext v
  exact nodeGet_id s v

/-- **C129** the coordinates of a cell are those of its nodes, in the order in which `cell_get_nodes` lists them -/
theorem cell_coordinates_of_nodes (s : Source α) (c : Nat) :
    s.cellGet c = (if s.dim3 then s.j.cellNodes3 c else s.j.cellNodes2 c).bind fun l => l.mapM s.nodeGet := by
  unfold Source.cellGet
  split
  · unfold JMesh.cellNodes3
    cases (s.j.m.rmap s.j.bg).at c with
    | none => rfl
    | some r => exact (nodes_mapM s _).symm
  · unfold JMesh.cellNodes2
    cases (s.j.m.cmap s.j.bg).at c with
    | none => rfl
    | some r => exact (nodes_mapM s _).symm

/-- **C129** the coordinates of a face are those of its nodes, in the order in which `face_get_nodes` lists them -/
theorem face_coordinates_of_nodes (s : Source α) (f : Nat) :
    s.faceGet f = (if s.dim3 then s.j.faceNodes3 f else s.j.faceNodes2 f).bind fun l => l.mapM s.nodeGet := by
  unfold Source.faceGet
  by_cases hd : s.dim3 = true
  · rw [if_pos hd, if_pos hd]
    unfold JMesh.faceNodes3
    split
    · cases s.j.m.fmap.at f with
      | none => rfl
      | some fh =>
        cases s.j.faceflip[f]? with
        | none => rfl
        | some fl => exact (nodes_mapM s _).symm
    · rfl
  · rw [if_neg hd, if_neg hd]
    unfold JMesh.faceNodes2
    split
    · cases s.j.m.emap.at f with
      | none => rfl
      | some e =>
        cases s.j.faceflip[f]? with
        | none => rfl
        | some fl =>
          cases fl
          · exact (nodes_mapM s [(s.j.m.edge e).v0, (s.j.m.edge e).v1]).symm
          · exact (nodes_mapM s [(s.j.m.edge e).v1, (s.j.m.edge e).v0]).symm
    · rfl

/-- **C129** the three forms of `node_get_coordinates` give the same numbers -/
theorem coordinate_forms_agree (s : Source α) (n : Nat) :
    (s.spaceDim = 3 → s.nodeGet n = (s.nodeGet3 n).map fun p => [p.1, p.2.1, p.2.2]) ∧
    (s.spaceDim = 2 → s.nodeGet n = (s.nodeGet2 n).map fun p => [p.1, p.2]) := by
  constructor
  · intro h
    unfold Source.nodeGet Source.nodeGet3
    rw [if_pos h]
    cases s.j.m.vmap.at n with
    | none => rfl
    | some v => simp [Source.pointAt, h, Xyz.toList]
  · intro h
    unfold Source.nodeGet Source.nodeGet2
    rw [if_pos h]
    cases s.j.m.vmap.at n with
    | none => rfl
    | some v => simp [Source.pointAt, h, Xyz.toList]

/-- **C129** every node has coordinates, as many as space has dimensions -/
theorem node_has_coordinates (s : Source α) (h : s.SpaceOk) (n : Nat) :
    (n < s.j.m.nv ↔ (s.nodeGet n).isSome) ∧ ∀ p, s.nodeGet n = some p → p.length = s.spaceDim := by
  have h3 : s.spaceDim ≤ 3 := by rcases h with h | h <;> omega
  constructor
  · constructor
    · intro hn
      obtain ⟨v, hv⟩ := s.j.m.vnum.at_some hn
      simp [Source.nodeGet, hv, Source.pointAt, h3]
    · intro hs
      cases hv : s.j.m.vmap.at n with
      | none => simp [Source.nodeGet, hv] at hs
      | some v => exact s.j.m.vnum.lt_of_at hv
  · intro p hp
    cases hv : s.j.m.vmap.at n with
    | none => simp [Source.nodeGet, hv] at hp
    | some v =>
      simp only [Source.nodeGet, hv, Option.bind_some, Source.pointAt, h3, if_true, Option.some.injEq] at hp
      rw [← hp]
      simp [Xyz.toList, h3]

/-! ### moving nodes -/

variable [Zero α]

/-- one call: it succeeds exactly if it is about a node and brings enough numbers; it changes that node and nothing else -/
theorem move_spec (s : Source α) (h : s.SpaceOk) (o : Move α) :
    ((s.move o).isSome ↔ o.node < s.j.m.nv ∧ o.Enough s.spaceDim) ∧
    ∀ t, s.move o = some t → t.j = s.j ∧ t.dim3 = s.dim3 ∧ t.spaceDim = s.spaceDim ∧
      ∀ n, t.nodeGet n = if n = o.node then some (o.coords.take s.spaceDim) else s.nodeGet n := by
  have h3 : s.spaceDim ≤ 3 := by rcases h with h | h <;> omega
  -- the effect of a write
  have put : ∀ (v : Fin s.j.m.nv) (k : Nat) (p : Xyz α) (l : List α), s.j.m.vmap.at k = some v →
      p.toList.take s.spaceDim = l.take s.spaceDim →
      ∀ n, (s.put v p).nodeGet n = if n = k then some (l.take s.spaceDim) else s.nodeGet n := by
    intro v k p l hv hl n
    show (s.j.m.vmap.at n).bind (s.put v p).pointAt = _
    by_cases hn : n = k
    · subst hn
      rw [if_pos rfl, hv, ← hl]
      show (if s.spaceDim ≤ 3 then some (((Function.update s.xyz v p) v).toList.take s.spaceDim) else none) = _
      rw [if_pos h3, Function.update_self]
    · rw [if_neg hn]
      unfold Source.nodeGet
      cases hw : s.j.m.vmap.at n with
      | none => rfl
      | some w =>
        have hne : w ≠ v := by
          rintro rfl
          have e1 := s.j.m.vnum.id_of_at hv
          have e2 := s.j.m.vnum.id_of_at hw
          omega
        show (if s.spaceDim ≤ 3 then some (((Function.update s.xyz v p) w).toList.take s.spaceDim) else none) = _
        rw [Function.update_of_ne hne]; rfl
  have bound : ∀ k, (∃ v, s.j.m.vmap.at k = some v) ↔ k < s.j.m.nv :=
    fun k => ⟨fun ⟨v, hv⟩ => s.j.m.vnum.lt_of_at hv, fun hk => s.j.m.vnum.at_some hk⟩
  cases o with
  | array k a =>
    cases hv : s.j.m.vmap.at k with
    | none =>
      have hk : ¬ k < s.j.m.nv := fun hk => by
        obtain ⟨v, e⟩ := (bound k).mpr hk; rw [hv] at e; cases e
      refine ⟨?_, fun t ht => ?_⟩
      · simp [Source.move, Source.setArray, hv, Move.node, hk]
      · simp [Source.move, Source.setArray, hv] at ht
    | some v =>
      have hk := (bound k).mp ⟨v, hv⟩
      match a with
      | [] | [_] | [_, _] =>
        refine ⟨?_, fun t ht => ?_⟩
        · simp [Source.move, Source.setArray, hv, Move.Enough]
        · simp [Source.move, Source.setArray, hv] at ht
      | x :: y :: z :: l =>
        refine ⟨?_, fun t ht => ?_⟩
        · simp [Source.move, Source.setArray, hv, Move.Enough, Move.node, hk]
        · simp only [Source.move, Source.setArray, hv, Option.bind_some, Option.some.injEq] at ht
          subst ht
          refine ⟨rfl, rfl, rfl, put v k _ _ hv ?_⟩
          show _ = (x :: y :: z :: l).take s.spaceDim
          rcases h with h | h <;> rw [h] <;> rfl
  | point k p =>
    cases hv : s.j.m.vmap.at k with
    | none =>
      have hk : ¬ k < s.j.m.nv := fun hk => by
        obtain ⟨v, e⟩ := (bound k).mpr hk; rw [hv] at e; cases e
      refine ⟨?_, fun t ht => ?_⟩
      · simp [Source.move, Source.setPoint, hv, Move.node, hk]
      · simp [Source.move, Source.setPoint, hv] at ht
    | some v =>
      have hk := (bound k).mp ⟨v, hv⟩
      refine ⟨?_, fun t ht => ?_⟩
      · simp only [Source.move, Source.setPoint, hv, Option.bind_some, Move.Enough, Move.node, hk, true_and, fillArray]
        split
        · rename_i h'; simp; omega
        · rename_i h'; simp; omega
      · simp only [Source.move, Source.setPoint, hv, Option.bind_some, fillArray] at ht
        split at ht
        · simp at ht
        · rename_i h'
          simp only [Option.map_some, Option.some.injEq] at ht
          subst ht
          refine ⟨rfl, rfl, rfl, put v k _ _ hv ?_⟩
          show _ = p.take s.spaceDim
          have hl : s.spaceDim ≤ p.length := by omega
          rcases h with h | h
          · rw [h] at hl ⊢
            match p, hl with
            | x :: y :: l, _ => rfl
          · rw [h] at hl ⊢
            match p, hl with
            | x :: y :: z :: l, _ => rfl

/-- **C129** a history of calls succeeds exactly if each is about a node of the mesh and brings enough numbers -/
theorem moves_succeed (s : Source α) (h : s.SpaceOk) (os : List (Move α)) :
    (s.moves os).isSome ↔ ∀ o ∈ os, o.node < s.j.m.nv ∧ o.Enough s.spaceDim := by
  induction os generalizing s with
  | nil => simp [Source.moves]
  | cons o os ih =>
    obtain ⟨h1, h2⟩ := move_spec s h o
    unfold Source.moves
    cases ht : s.move o with
    | none =>
      rw [ht] at h1
      simp only [Option.bind_none, Option.isSome_none, Bool.false_eq_true, false_iff, List.mem_cons, forall_eq_or_imp] at h1 ⊢
      exact fun hh => h1 hh.1
    | some t =>
      rw [ht] at h1
      obtain ⟨e1, e2, e3, _⟩ := h2 t ht
      have := ih t (by unfold Source.SpaceOk; rw [e3]; exact h)
      rw [e1, e3] at this
      simp only [Option.bind_some, List.mem_cons, forall_eq_or_imp]
      rw [this]
      exact ⟨fun hh => ⟨h1.mp rfl, hh⟩, fun hh => hh.2⟩

/-- **C129** after any history of calls the coordinates of a node are the ones given in the last call about this node, and those it
had before if there is none; connectivity is what it was -/
theorem coordinates_after_moves (s t : Source α) (h : s.SpaceOk) (os : List (Move α)) (ht : s.moves os = some t) :
    t.j = s.j ∧ t.dim3 = s.dim3 ∧ t.spaceDim = s.spaceDim ∧
    ∀ n, t.nodeGet n = match lastMove os n with
      | some o => some (o.coords.take s.spaceDim)
      | none => s.nodeGet n := by
  induction os generalizing s with
  | nil => cases ht; exact ⟨rfl, rfl, rfl, fun n => rfl⟩
  | cons o os ih =>
    unfold Source.moves at ht
    obtain ⟨u, hu, ht⟩ := Option.bind_eq_some_iff.mp ht
    obtain ⟨e1, e2, e3, e4⟩ := (move_spec s h o).2 u hu
    obtain ⟨f1, f2, f3, f4⟩ := ih u (by unfold Source.SpaceOk; rw [e3]; exact h) ht
    refine ⟨by rw [f1, e1], by rw [f2, e2], by rw [f3, e3], fun n => ?_⟩
    rw [f4 n, e3]
    unfold lastMove
    by_cases hn : o.node = n
    · rw [List.filter_cons_of_pos (by simpa using hn)]
      cases hl : (os.filter fun o => o.node = n).getLast? with
      | none =>
        have : (os.filter fun o => o.node = n) = [] := List.getLast?_eq_none_iff.mp hl
        rw [this]
        simp only [List.getLast?_singleton]
        rw [e4, if_pos hn.symm]
      | some o' => simp [List.getLast?_cons, hl]
    · rw [List.filter_cons_of_neg (by simpa using hn)]
      cases hl : (os.filter fun o => o.node = n).getLast? with
      | none => simp only; rw [e4, if_neg (fun e => hn e.symm)]
      | some o' => rfl

/-- **C129 is false of the code for pointers in the plane**: two numbers, enough for `node_set_coordinates` of `Mesh_simple`, are not
enough here, although node positions have two coordinates: a third number is read past the end -/
theorem pointer_read_past_end (s : Source α) (n : Nat) (x y : α) : s.move (.array n [x, y]) = none := by
  simp only [Source.move, Source.setArray]
  cases s.j.m.vmap.at n <;> rfl

/-! ### examples -/

example : twoTetsSrc.SpaceOk ∧ twoTris.SpaceOk := ⟨.inr rfl, by unfold Source.SpaceOk; decide⟩

set_option synthInstance.maxHeartbeats 400000 in
example : (twoTetsSrc.moves [.point 1 [5, 6, 7], .array 4 [2, 2, 2], .point 1 [9, 8, 7]]).bind (·.nodeGet 1) = some [9, 8, 7] ∧
    (twoTetsSrc.moves [.point 1 [5, 6, 7], .array 4 [2, 2, 2], .point 1 [9, 8, 7]]).bind (·.cellGet 1) =
      some [[0, 1, 0], [0, 0, 1], [9, 8, 7], [2, 2, 2]] ∧
    (twoTetsSrc.moves [.point 1 [5, 6, 7], .array 4 [2, 2, 2], .point 1 [9, 8, 7]]).bind (·.faceGet 4) =
      some [[9, 8, 7], [0, 1, 0], [2, 2, 2]] := by
  decide +kernel

set_option synthInstance.maxHeartbeats 400000 in
example : (twoTris.moves [.point 1 [5, 6, 7]]).bind (·.faceGet 1) = some [[5, 6], [1, 1]] ∧
    (twoTris.moves [.array 1 [5, 6]]).isNone := by
  decide +kernel

example : lastMove [Move.point 1 [5, 6, 7], .array 4 [2, 2, 2], .point 1 [9, 8, (7 : Int)]] 1 = some (.point 1 [9, 8, 7]) := by
  rfl

end Jali.Mstk
