import Verif.Proof.Tile
/-! The loop over the parts: invariant of the master tables. -/
namespace Jali.Tile
open Spec

theorem first_lt {q : Nat → List Nat} {parts : List (List Nat)} {i e : Nat} (h : FirstToTouch q parts i e) :
    i < parts.length := by
  obtain ⟨⟨p, hp, -⟩, -⟩ := h
  by_contra hc
  rw [List.getElem?_eq_none (by omega)] at hp
  cases hp

theorem first_unique {q : Nat → List Nat} {parts : List (List Nat)} {i j e : Nat}
    (hi : FirstToTouch q parts i e) (hj : FirstToTouch q parts j e) : i = j := by
  obtain ⟨⟨p, hp, hpt⟩, h1⟩ := hi
  obtain ⟨⟨r, hr, hrt⟩, h2⟩ := hj
  rcases Nat.lt_trichotomy i j with h | h | h
  · exact absurd hpt (h2 i h p hp)
  · exact h
  · exact absurd hrt (h1 j h r hr)

theorem first_exists (q : Nat → List Nat) (e : Nat) : ∀ (parts : List (List Nat)),
    (∃ p ∈ parts, Touches q p e) → ∃ i, FirstToTouch q parts i e := by
  intro parts
  induction parts with
  | nil => rintro ⟨p, hp, -⟩; cases hp
  | cons p ps ih =>
    intro h
    by_cases hp : Touches q p e
    · exact ⟨0, ⟨p, rfl, hp⟩, by intro j hj; omega⟩
    · obtain ⟨r, hr, hrt⟩ := h
      have : ∃ p ∈ ps, Touches q p e := by
        rcases List.mem_cons.1 hr with rfl | hr
        · exact absurd hrt hp
        · exact ⟨r, hr, hrt⟩
      obtain ⟨i, ⟨s, hs, hst⟩, hi⟩ := ih this
      refine ⟨i + 1, ⟨s, by simpa using hs, hst⟩, ?_⟩
      intro j hj s' hs'
      cases j with
      | zero => simp at hs'; subst hs'; exact hp
      | succ j => exact hi j (by omega) s' (by simpa using hs')

theorem first_append_left {q : Nat → List Nat} {parts : List (List Nat)} {p : List Nat} {i e : Nat}
    (hi : i < parts.length) : FirstToTouch q (parts ++ [p]) i e ↔ FirstToTouch q parts i e := by
  unfold FirstToTouch
  rw [List.getElem?_append_left hi]
  constructor
  · rintro ⟨h1, h2⟩
    refine ⟨h1, fun j hj r hr => h2 j hj r ?_⟩
    rw [List.getElem?_append_left (by omega)]; exact hr
  · rintro ⟨h1, h2⟩
    refine ⟨h1, fun j hj r hr => h2 j hj r ?_⟩
    rw [List.getElem?_append_left (by omega)] at hr; exact hr

theorem first_append_last {q : Nat → List Nat} {parts : List (List Nat)} {p : List Nat} {e : Nat} :
    FirstToTouch q (parts ++ [p]) parts.length e ↔ Touches q p e ∧ ∀ r ∈ parts, ¬ Touches q r e := by
  unfold FirstToTouch
  rw [List.getElem?_append_right (Nat.le_refl _)]
  simp only [Nat.sub_self, List.getElem?_cons_zero, Option.some.injEq, exists_eq_left']
  refine and_congr_right fun _ => ⟨?_, ?_⟩
  · intro h r hr
    obtain ⟨j, hj, rfl⟩ := List.getElem_of_mem hr
    exact h j hj _ (by rw [List.getElem?_append_left hj, List.getElem?_eq_getElem hj])
  · intro h j hj r hr
    rw [List.getElem?_append_left hj] at hr
    exact h r (List.mem_of_getElem? hr)

/-- State of one master table and of the lists of the tiles made so far. -/
structure TableOk (q : Nat → List Nat) (gh : List Nat → List Nat) (n : Nat) (parts : List (List Nat))
    (m : List Int) (ls : List Lists) : Prop where
  len : m.length = n
  lsLen : ls.length = parts.length
  owner : ∀ e i, e < n → FirstToTouch q parts i e → m[e]? = some (i : Int)
  free : ∀ e, e < n → (∀ p ∈ parts, ¬ Touches q p e) → m[e]? = some (-1)
  lists : ∀ i l p, ls[i]? = some l → parts[i]? = some p →
    l.owned.Nodup ∧ (∀ e, e ∈ l.owned ↔ FirstToTouch q parts i e) ∧
    l.ghost.Nodup ∧ (∀ e, e ∈ l.ghost ↔ Touches q (p ++ gh p) e ∧ e ∉ l.owned) ∧
    l.all = l.owned ++ l.ghost

theorem TableOk.empty (q : Nat → List Nat) (gh : List Nat → List Nat) (n : Nat) :
    TableOk q gh n [] (List.replicate n (-1)) [] := by
  refine ⟨by simp, rfl, ?_, ?_, ?_⟩
  · intro e i _ h; exact absurd (first_lt h) (by simp)
  · intro e he _; simp [List.getElem?_replicate, he]
  · intro i l p h; simp at h

theorem TableOk.master_ne {q gh n parts m ls} (h : TableOk q gh n parts m ls) (e : Nat) :
    m[e]? ≠ some ((parts.length : Nat) : Int) := by
  by_cases he : e < n
  · by_cases ht : ∃ p ∈ parts, Touches q p e
    · obtain ⟨i, hi⟩ := first_exists q e parts ht
      rw [h.owner e i he hi]
      have := first_lt hi
      simp only [ne_eq, Option.some.injEq]; omega
    · rw [h.free e he (by simpa using ht)]
      simp only [ne_eq, Option.some.injEq]; omega
  · rw [List.getElem?_eq_none (by rw [h.len]; omega)]; simp

theorem TableOk.free_iff {q gh n parts m ls} (h : TableOk q gh n parts m ls) (e : Nat) (he : e < n) :
    m[e]? = some (-1) ↔ ∀ p ∈ parts, ¬ Touches q p e := by
  constructor
  · intro hm p hp ht
    obtain ⟨i, hi⟩ := first_exists q e parts ⟨p, hp, ht⟩
    rw [h.owner e i he hi] at hm
    simp only [Option.some.injEq] at hm; omega
  · exact h.free e he

theorem TableOk.step {q gh n parts m ls} (h : TableOk q gh n parts m ls) (p : List Nat)
    (hr : ∀ c ∈ p ++ gh p, ∀ e ∈ q c, e < n) :
    ∃ m' l, collect true parts.length q p (gh p) m = some (m', l) ∧
      TableOk q gh n (parts ++ [p]) m' (ls ++ [l]) := by
  obtain ⟨m', l, e1, h1⟩ := collect_ok parts.length q p (gh p) m h.master_ne
    (by rw [h.len]; exact hr)
  have hlt : ∀ e, Touches q p e → e < n := by
    rintro e ⟨c, hc, he⟩; exact hr c (List.mem_append_left _ hc) e he
  refine ⟨m', l, e1, by rw [h1.len, h.len], by simp [h.lsLen], ?_, ?_, ?_⟩
  · intro e i he hi
    have hil := first_lt hi
    rw [List.length_append, List.length_singleton] at hil
    by_cases hip : i = parts.length
    · subst hip
      obtain ⟨ht, hno⟩ := first_append_last.1 hi
      exact (h1.master e).1 ⟨h.free e he hno, ht⟩
    · have hi' := (first_append_left (by omega)).1 hi
      rw [(h1.master e).2 ?_, h.owner e i he hi']
      rintro ⟨hm, -⟩
      rw [h.owner e i he hi'] at hm
      simp only [Option.some.injEq] at hm; omega
  · intro e he hno
    rw [(h1.master e).2 ?_]
    · exact h.free e he fun r hr => hno r (by simp [hr])
    · rintro ⟨-, ht⟩; exact hno p (by simp) ht
  · intro i l' p' hl hp
    by_cases hi : i < parts.length
    · rw [List.getElem?_append_left (by rw [h.lsLen]; exact hi)] at hl
      rw [List.getElem?_append_left hi] at hp
      obtain ⟨a, b, c⟩ := h.lists i l' p' hl hp
      exact ⟨a, fun e => (b e).trans (first_append_left hi).symm, c⟩
    · have hi2 : i < (parts ++ [p]).length := by
        by_contra hc; rw [List.getElem?_eq_none (by omega)] at hp; cases hp
      rw [List.length_append, List.length_singleton] at hi2
      have hi3 : i = parts.length := by omega
      subst hi3
      rw [List.getElem?_append_right (Nat.le_refl _)] at hp
      rw [List.getElem?_append_right (by rw [h.lsLen]), h.lsLen] at hl
      simp at hp hl
      subst hp; subst hl
      refine ⟨h1.ownedNodup, ?_, h1.ghostNodup, h1.mem_ghost, h1.all_eq⟩
      intro e
      rw [h1.mem_owned, first_append_last]
      constructor
      · rintro ⟨ht, hm⟩; exact ⟨ht, (h.free_iff e (hlt e ht)).1 hm⟩
      · rintro ⟨ht, hm⟩; exact ⟨ht, (h.free_iff e (hlt e ht)).2 hm⟩

theorem setMasters_ok (t : Nat) : ∀ (cells : List Nat) (m : List Int), (∀ c ∈ cells, c < m.length) →
    ∃ m', setMasters t cells m = some m' ∧ m'.length = m.length ∧
      (∀ c ∈ cells, m'[c]? = some (t : Int)) ∧ ∀ c, c ∉ cells → m'[c]? = m[c]? := by
  intro cells
  induction cells with
  | nil => intro m _; exact ⟨m, rfl, rfl, by simp, by simp⟩
  | cons c cs ih =>
    intro m h
    have hc := h c (by simp)
    obtain ⟨m', e, hl, h1, h2⟩ := ih (m.set c (t : Int)) (by
      intro x hx; rw [List.length_set]; exact h x (by simp [hx]))
    refine ⟨m', ?_, by rw [hl, List.length_set], ?_, ?_⟩
    · rw [setMasters, setMaster, if_pos hc, Option.bind_some, e]
    · intro x hx
      by_cases hxs : x ∈ cs
      · exact h1 x hxs
      · have : x = c := by simpa [hxs] using hx
        subst this
        rw [h2 x hxs, List.getElem?_set, if_pos rfl, if_pos hc]
    · intro x hx
      rw [List.mem_cons, not_or] at hx
      rw [h2 x hx.2, List.getElem?_set, if_neg (Ne.symm hx.1)]

/-- the ghost cells of a tile with owned cells `p` -/
def ghostsOf (T : Topo) (layers : Nat) (p : List Nat) : List Nat := (halo T.cellAdj layers (p, [])).2

theorem near_lt (T : Topo) (fl : Flags) (hT : T.Valid fl) (p : List Nat) (hp : ∀ c ∈ p, c < T.ncells) :
    ∀ k x, Near T.cellAdj p k x → x < T.ncells := by
  intro k
  induction k with
  | zero => intro x h; exact hp x h
  | succ k ih =>
    rintro x (h | ⟨y, hy, hx⟩)
    · exact ih x h
    · exact hT.adj y (ih y hy) x hx

theorem ghostsOf_lt (T : Topo) (fl : Flags) (hT : T.Valid fl) (layers : Nat) (p : List Nat)
    (hp : ∀ c ∈ p, c < T.ncells) : ∀ c ∈ p ++ ghostsOf T layers p, c < T.ncells := by
  intro c hc
  rcases List.mem_append.1 hc with h | h
  · exact hp c h
  · exact near_lt T fl hT p hp layers c (((halo_spec T.cellAdj layers p).2.2 c).1 h).1

/-- Invariant of the mesh while tiles are being made from `parts`. -/
structure Inv (T : Topo) (fl : Flags) (layers : Nat) (parts : List (List Nat)) (M : Mesh) : Prop where
  init : M.init = true
  tilesLen : M.tiles.length = parts.length
  node : TableOk T.cellNodes (ghostsOf T layers) T.nnodes parts M.node (M.tiles.map (·.nodes))
  face : fl.faces = true → TableOk T.cellFaces (ghostsOf T layers) T.nfaces parts M.face (M.tiles.map (·.faces))
  edge : fl.edges = true → TableOk T.cellEdges (ghostsOf T layers) T.nedges parts M.edge (M.tiles.map (·.edges))
  cellLen : M.cell.length = T.ncells
  cellOwner : ∀ (i : Nat) p, parts[i]? = some p → ∀ c ∈ p, M.cell[c]? = some (i : Int)
  cellFree : ∀ c < T.ncells, c ∉ parts.flatten → M.cell[c]? = some (-1)
  rest : ∀ (i : Nat) t p, M.tiles[i]? = some t → parts[i]? = some p →
    t.id = i ∧ t.cells = { owned := p, ghost := ghostsOf T layers p, all := p ++ ghostsOf T layers p } ∧
    t.sides = (if fl.wedges then gather T.cellSides p (ghostsOf T layers p) else {}) ∧
    t.wedges = (if fl.wedges then gather T.cellWedges p (ghostsOf T layers p) else {}) ∧
    t.corners = (if fl.corners then gather T.cellCorners p (ghostsOf T layers p) else {}) ∧
    (fl.faces = false → t.faces = {}) ∧ (fl.edges = false → t.edges = {})

theorem resize_nil (n : Nat) : resizeMinusOne [] n = List.replicate n (-1) := by
  simp [resizeMinusOne]

theorem resize_same (v : List Int) (n : Nat) (h : v.length = n) : resizeMinusOne v n = v := by
  subst h; simp [resizeMinusOne]

theorem Inv.start (T : Topo) (fl : Flags) (layers : Nat) : Inv T fl layers [] (initTiles T fl {}) := by
  refine ⟨rfl, rfl, ?_, ?_, ?_, ?_, ?_, ?_, ?_⟩
  · exact (show (initTiles T fl {}).node = List.replicate T.nnodes (-1) from resize_nil _) ▸ TableOk.empty _ _ _
  · intro hf
    have : (initTiles T fl {}).face = List.replicate T.nfaces (-1) := by
      simp only [initTiles, hf, if_true]; exact resize_nil _
    rw [this]; exact TableOk.empty _ _ _
  · intro hf
    have : (initTiles T fl {}).edge = List.replicate T.nedges (-1) := by
      simp only [initTiles, hf, if_true]; exact resize_nil _
    rw [this]; exact TableOk.empty _ _ _
  · simp only [initTiles, resize_nil, List.length_replicate]
  · intro i p h; simp at h
  · intro c hc _; simp [initTiles, resize_nil, hc]
  · intro i t p h; simp [initTiles] at h

theorem initTiles_again (T : Topo) (fl : Flags) (layers : Nat) (M : Mesh) (h : Inv T fl layers [] M) :
    initTiles T fl M = M := by
  have e1 := resize_same M.node _ h.node.len
  have e2 := resize_same M.cell _ h.cellLen
  have e3 : (if fl.faces then resizeMinusOne M.face T.nfaces else M.face) = M.face := by
    split
    · rename_i hf; exact resize_same M.face _ (h.face hf).len
    · rfl
  have e4 : (if fl.edges then resizeMinusOne M.edge T.nedges else M.edge) = M.edge := by
    split
    · rename_i hf; exact resize_same M.edge _ (h.edge hf).len
    · rfl
  unfold initTiles
  rw [e1, e2, e3, e4, ← h.init]

theorem makeMeshtile_ok (T : Topo) (fl : Flags) (hT : T.Valid fl) (layers : Nat) (parts : List (List Nat)) (M : Mesh)
    (h : Inv T fl layers parts M) (p : List Nat) (hp : ∀ c ∈ p, c < T.ncells)
    (hd : ∀ c ∈ p, c ∉ parts.flatten) :
    ∃ M', makeMeshtile T fl M p layers fl = some M' ∧ Inv T fl layers (parts ++ [p]) M' := by
  have hM1 : (if M.tiles.length = 0 then initTiles T fl M else M) = M := by
    split
    · rename_i h0
      have : parts = [] := by
        apply List.eq_nil_of_length_eq_zero; rw [← h.tilesLen]; exact h0
      subst this
      exact initTiles_again T fl layers M h
    · rfl
  have hlt := ghostsOf_lt T fl hT layers p hp
  obtain ⟨mc, ec, hcl, hc1, hc2⟩ := setMasters_ok M.tiles.length p M.cell (by rw [h.cellLen]; exact hp)
  obtain ⟨mn, ln, en, hn⟩ := h.node.step p (fun c hc => hT.nodes c (hlt c hc))
  have hF : ∃ mf lf, (if fl.faces then collect M.init M.tiles.length T.cellFaces p (ghostsOf T layers p) M.face
      else some (M.face, {})) = some (mf, lf) ∧
      (fl.faces = true → TableOk T.cellFaces (ghostsOf T layers) T.nfaces (parts ++ [p]) mf
        (M.tiles.map (·.faces) ++ [lf])) ∧ (fl.faces = false → lf = {}) := by
    cases hf : fl.faces with
    | false => exact ⟨M.face, {}, by simp, by simp, fun _ => rfl⟩
    | true =>
      obtain ⟨mf, lf, ef, hf'⟩ := (h.face hf).step p (fun c hc => hT.faces hf c (hlt c hc))
      exact ⟨mf, lf, by rw [if_pos rfl, h.init, h.tilesLen, ef], fun _ => hf', by simp⟩
  have hE : ∃ mf lf, (if fl.edges then collect M.init M.tiles.length T.cellEdges p (ghostsOf T layers p) M.edge
      else some (M.edge, {})) = some (mf, lf) ∧
      (fl.edges = true → TableOk T.cellEdges (ghostsOf T layers) T.nedges (parts ++ [p]) mf
        (M.tiles.map (·.edges) ++ [lf])) ∧ (fl.edges = false → lf = {}) := by
    cases hf : fl.edges with
    | false => exact ⟨M.edge, {}, by simp, by simp, fun _ => rfl⟩
    | true =>
      obtain ⟨mf, lf, ef, hf'⟩ := (h.edge hf).step p (fun c hc => hT.edges hf c (hlt c hc))
      exact ⟨mf, lf, by rw [if_pos rfl, h.init, h.tilesLen, ef], fun _ => hf', by simp⟩
  obtain ⟨mf, lf, ef, hf1, hf2⟩ := hF
  obtain ⟨me, le, ee, he1, he2⟩ := hE
  have hspec := (halo_spec T.cellAdj layers p).1
  unfold makeMeshtile construct
  dsimp only
  rw [hM1, ec, Option.bind_some]
  change ∃ M', Option.map _ ((collect M.init M.tiles.length T.cellNodes p (ghostsOf T layers p) M.node).bind
    fun cn => (if fl.faces then collect M.init M.tiles.length T.cellFaces p (ghostsOf T layers p) M.face
      else some (M.face, {})).bind fun cf =>
      (if fl.edges then collect M.init M.tiles.length T.cellEdges p (ghostsOf T layers p) M.edge
      else some (M.edge, {})).bind _) = some M' ∧ _
  rw [ef, ee, h.init, h.tilesLen, en]
  refine ⟨_, rfl, ?_⟩
  refine ⟨rfl, by simp [h.tilesLen], ?_, ?_, ?_, ?_, ?_, ?_, ?_⟩
  · simpa using hn
  · intro hf; simpa using hf1 hf
  · intro hf; simpa using he1 hf
  · dsimp only; rw [hcl, h.cellLen]
  · intro i p' hp' c hc
    by_cases hi : i < parts.length
    · rw [List.getElem?_append_left hi] at hp'
      dsimp only
      rw [hc2 c ?_, h.cellOwner i p' hp' c hc]
      intro hcp
      exact hd c hcp (List.mem_flatten.2 ⟨p', List.mem_of_getElem? hp', hc⟩)
    · have hi2 : i < (parts ++ [p]).length := by
        by_contra hcon; rw [List.getElem?_eq_none (by omega)] at hp'; cases hp'
      rw [List.length_append, List.length_singleton] at hi2
      have hi3 : i = parts.length := by omega
      subst hi3
      rw [List.getElem?_append_right (Nat.le_refl _)] at hp'
      simp at hp'
      subst hp'
      rw [hc1 c hc, h.tilesLen]
  · intro c hcn hc
    rw [List.flatten_append, List.mem_append, not_or] at hc
    dsimp only
    rw [hc2 c (by simpa using hc.2), h.cellFree c hcn hc.1]
  · intro i t p' ht hp'
    by_cases hi : i < parts.length
    · rw [List.getElem?_append_left hi] at hp'
      dsimp only at ht
      rw [List.getElem?_append_left (by rw [h.tilesLen]; exact hi)] at ht
      exact h.rest i t p' ht hp'
    · have hi2 : i < (parts ++ [p]).length := by
        by_contra hcon; rw [List.getElem?_eq_none (by omega)] at hp'; cases hp'
      rw [List.length_append, List.length_singleton] at hi2
      have hi3 : i = parts.length := by omega
      subst hi3
      rw [List.getElem?_append_right (Nat.le_refl _)] at hp'
      dsimp only at ht
      rw [List.getElem?_append_right (by rw [h.tilesLen]), h.tilesLen] at ht
      simp only [Nat.sub_self, List.getElem?_cons_zero, Option.some.injEq] at hp' ht
      subst hp'; subst ht
      refine ⟨rfl, ?_, rfl, rfl, rfl, hf2, he2⟩
      dsimp only; rw [hspec]; rfl

theorem makeTiles_ok (T : Topo) (fl : Flags) (hT : T.Valid fl) (layers : Nat) :
    ∀ (rest parts : List (List Nat)) (M : Mesh), Inv T fl layers parts M →
      (∀ c ∈ rest.flatten, c < T.ncells) → (parts ++ rest).flatten.Nodup →
      ∃ M', makeTiles T fl layers rest M = some M' ∧ Inv T fl layers (parts ++ rest) M' := by
  intro rest
  induction rest with
  | nil => intro parts M h _ _; exact ⟨M, rfl, by simpa using h⟩
  | cons p rest ih =>
    intro parts M h hlt hnd
    have hnd' : ((parts ++ [p]) ++ rest).flatten.Nodup := by simpa using hnd
    obtain ⟨M1, e1, h1⟩ := makeMeshtile_ok T fl hT layers parts M h p
      (fun c hc => hlt c (by simp [hc]))
      (by
        intro c hc hcp
        rw [List.flatten_append, List.flatten_cons, List.nodup_append] at hnd
        exact hnd.2.2 c hcp c (List.mem_append_left _ hc) rfl)
    obtain ⟨M2, e2, h2⟩ := ih (parts ++ [p]) M1 h1 (fun c hc => hlt c (by
      rw [List.flatten_cons]; exact List.mem_append_right _ hc)) hnd'
    refine ⟨M2, ?_, by simpa using h2⟩
    rw [makeTiles, e1, Option.bind_some, e2]

theorem buildTiles_ok (T : Topo) (fl : Flags) (hT : T.Valid fl) (layers : Nat) (parts : List (List Nat))
    (hne : parts ≠ []) (hlt : ∀ c ∈ parts.flatten, c < T.ncells) (hnd : parts.flatten.Nodup) :
    ∃ M, buildTiles T fl layers parts = some M ∧ Inv T fl layers parts M := by
  obtain ⟨M, e, h⟩ := makeTiles_ok T fl hT layers parts [] _ (Inv.start T fl layers) hlt (by simpa using hnd)
  refine ⟨M, ?_, by simpa using h⟩
  rw [← e]
  cases parts with
  | nil => exact absurd rfl hne
  | cons p ps =>
    rw [buildTiles, makeTiles, makeTiles]
    congr 1
    have hi := initTiles_again T fl layers _ (Inv.start T fl layers)
    unfold makeMeshtile
    dsimp only
    rw [if_pos (show ([] : List Tile).length = 0 from rfl), if_pos (show (initTiles T fl {}).tiles.length = 0 from rfl), hi]

end Jali.Tile
