import Verif.Proof.TileBuild
import Verif.Props.Partition
/-! Property theorems C25-C28, C65: tiles. -/
namespace Jali.Tile
open Spec

/-- A 3x1 strip of quadrilaterals, used in the examples: cells 0,1,2; nodes 0..7 (0..3 below, 4..7 above). -/
def strip : Topo where
  ncells := 3
  nnodes := 8
  nfaces := 10
  nedges := 10
  cellAdj c := if c = 0 then [1] else if c = 1 then [0, 2] else [1]
  cellNodes c := [c, c + 1, c + 5, c + 4]
  cellFaces c := [c, 7 + c, 3 + c, 6 + c]
  cellEdges c := [c, 7 + c, 3 + c, 6 + c]
  cellSides c := [4 * c, 4 * c + 1, 4 * c + 2, 4 * c + 3]
  cellWedges c := [8 * c, 8 * c + 1, 8 * c + 2, 8 * c + 3, 8 * c + 4, 8 * c + 5, 8 * c + 6, 8 * c + 7]
  cellCorners c := [4 * c, 4 * c + 1, 4 * c + 2, 4 * c + 3]

theorem strip_valid (fl : Flags) : strip.Valid fl := by
  refine ⟨?_, ?_, ?_, ?_⟩
  · intro c hc x hx
    simp only [strip] at hx hc ⊢
    split at hx
    · simp at hx; omega
    · split at hx <;> simp at hx <;> omega
  · intro c hc x hx; simp [strip] at hx hc ⊢; omega
  · intro _ c hc x hx; simp [strip] at hx hc ⊢; omega
  · intro _ c hc x hx; simp [strip] at hx hc ⊢; omega

def allFlags : Flags := ⟨true, true, true, true, true⟩

theorem ownedOnce_of_table {q : Nat → List Nat} {gh : List Nat → List Nat} {n : Nat} {parts : List (List Nat)}
    {tbl : List Int} {ts : List Tile} {f : Tile → Lists} (h : TableOk q gh n parts tbl (ts.map f)) :
    OwnedOnce n (Touches q parts.flatten) (fun i e => ∃ t, ts[i]? = some t ∧ e ∈ (f t).owned)
      (getMaster true tbl) := by
  have hlen : ts.length = parts.length := by have := h.lsLen; simpa using this
  have own : ∀ i e, (∃ t, ts[i]? = some t ∧ e ∈ (f t).owned) ↔ FirstToTouch q parts i e := by
    intro i e
    constructor
    · rintro ⟨t, ht, he⟩
      have hi : i < parts.length := by
        rw [← hlen]
        by_contra hc; rw [List.getElem?_eq_none (by omega)] at ht; cases ht
      exact ((h.lists i (f t) _ (by rw [List.getElem?_map, ht]; rfl) (List.getElem?_eq_getElem hi)).2.1 e).1 he
    · intro hf
      have hi := first_lt hf
      have ht : ts[i]? = some (ts[i]'(by omega)) := List.getElem?_eq_getElem _
      exact ⟨_, ht, ((h.lists i _ _ (by rw [List.getElem?_map, ht]; rfl)
        (List.getElem?_eq_getElem hi)).2.1 e).2 hf⟩
  have touch : ∀ e, Touches q parts.flatten e ↔ ∃ p ∈ parts, Touches q p e := by
    intro e
    simp only [Touches, List.mem_flatten]
    constructor
    · rintro ⟨c, ⟨p, hp, hc⟩, he⟩; exact ⟨p, hp, c, hc, he⟩
    · rintro ⟨p, hp, c, hc, he⟩; exact ⟨c, ⟨p, hp, hc⟩, he⟩
  intro e he
  refine ⟨?_, ?_⟩
  · intro ht
    obtain ⟨i, hi⟩ := first_exists q e parts ((touch e).1 ht)
    exact ⟨i, (own i e).2 hi, by simpa [getMaster] using h.owner e i he hi,
      fun j hj => first_unique ((own j e).1 hj) hi⟩
  · intro ht
    rw [touch] at ht
    refine ⟨?_, ?_⟩
    · intro i hi
      obtain ⟨⟨p, hp, hpt⟩, -⟩ := (own i e).1 hi
      exact ht ⟨p, List.mem_of_getElem? hp, hpt⟩
    · have := h.free e he (by intro p hp hpt; exact ht ⟨p, hp, hpt⟩)
      simpa [getMaster] using this

/-- **C25.** Tiles built from pairwise disjoint lists of mesh cells: there is one tile per list, numbered in order,
owning exactly the cells of its list; every cell of a list, and every node, face and edge of such a cell, is owned by
exactly one tile, which is the reported master tile; entities no list touches are owned by no tile and have master
`-1`. Building never leaves the master tables. -/
theorem tiles_own_disjointly (T : Topo) (fl : Flags) (hT : T.Valid fl) (layers : Nat) (parts : List (List Nat))
    (hne : parts ≠ []) (hlt : ∀ c ∈ parts.flatten, c < T.ncells) (hnd : parts.flatten.Nodup) :
    ∃ M, buildTiles T fl layers parts = some M ∧
      M.tiles.map (·.id) = List.range parts.length ∧
      M.tiles.map (·.cells.owned) = parts ∧
      OwnedOnce T.ncells (· ∈ parts.flatten) (fun i e => ∃ t, M.tiles[i]? = some t ∧ e ∈ t.cells.owned)
        M.masterOfCell ∧
      OwnedOnce T.nnodes (Touches T.cellNodes parts.flatten)
        (fun i e => ∃ t, M.tiles[i]? = some t ∧ e ∈ t.nodes.owned) M.masterOfNode ∧
      (fl.faces = true → OwnedOnce T.nfaces (Touches T.cellFaces parts.flatten)
        (fun i e => ∃ t, M.tiles[i]? = some t ∧ e ∈ t.faces.owned) M.masterOfFace) ∧
      (fl.edges = true → OwnedOnce T.nedges (Touches T.cellEdges parts.flatten)
        (fun i e => ∃ t, M.tiles[i]? = some t ∧ e ∈ t.edges.owned) M.masterOfEdge) := by
  obtain ⟨M, e, h⟩ := buildTiles_ok T fl hT layers parts hne hlt hnd
  have nth : ∀ i : Nat, (hi : i < parts.length) → M.tiles[i]? = some (M.tiles[i]'(by rw [h.tilesLen]; exact hi)) :=
    fun i hi => List.getElem?_eq_getElem _
  have hcells : M.tiles.map (·.cells.owned) = parts := by
    apply List.ext_getElem
    · simpa using h.tilesLen
    · intro i h1 h2
      rw [List.getElem_map, (h.rest i _ _ (nth i h2) (List.getElem?_eq_getElem h2)).2.1]
  refine ⟨M, e, ?_, hcells, ?_, ?_, ?_, ?_⟩
  · apply List.ext_getElem
    · simp [h.tilesLen]
    · intro i h1 h2
      have hi : i < parts.length := by simpa using h2
      rw [List.getElem_map, List.getElem_range]
      exact (h.rest i _ _ (nth i hi) (List.getElem?_eq_getElem hi)).1
  · have own : ∀ (i c : Nat), (∃ t, M.tiles[i]? = some t ∧ c ∈ t.cells.owned) ↔ ∃ p, parts[i]? = some p ∧ c ∈ p := by
      intro i c
      rw [← hcells, List.getElem?_map]
      cases M.tiles[i]? <;> simp
    intro c hc
    refine ⟨?_, ?_⟩
    · intro hmem
      obtain ⟨p, hp, hcp⟩ := List.mem_flatten.1 hmem
      obtain ⟨i, hi, rfl⟩ := List.getElem_of_mem hp
      refine ⟨i, (own i c).2 ⟨_, List.getElem?_eq_getElem hi, hcp⟩, ?_, ?_⟩
      · have := h.cellOwner i _ (List.getElem?_eq_getElem hi) c hcp
        simp only [Mesh.masterOfCell, getMaster, h.init, if_true, this]
      · intro j hj
        obtain ⟨r, hr, hcr⟩ := (own j c).1 hj
        have h1 := h.cellOwner i _ (List.getElem?_eq_getElem hi) c hcp
        rw [h.cellOwner j r hr c hcr] at h1
        simp only [Option.some.injEq] at h1; omega
    · intro hmem
      refine ⟨?_, ?_⟩
      · intro i hi
        obtain ⟨p, hp, hcp⟩ := (own i c).1 hi
        exact hmem (List.mem_flatten.2 ⟨p, List.mem_of_getElem? hp, hcp⟩)
      · have := h.cellFree c hc hmem
        simp only [Mesh.masterOfCell, getMaster, h.init, if_true, this]
  · have := ownedOnce_of_table h.node
    rw [← h.init] at this; exact this
  · intro hf
    have := ownedOnce_of_table (h.face hf)
    rw [← h.init] at this; exact this
  · intro hf
    have := ownedOnce_of_table (h.edge hf)
    rw [← h.init] at this; exact this

-- two tiles on the strip: the shared nodes 2 and 6 go to the first tile
example : (buildTiles strip allFlags 1 [[0, 1], [2]]).map (fun M =>
    (M.node, M.tiles.map (·.nodes.owned), M.tiles.map (·.nodes.ghost), M.tiles.map (·.cells.ghost))) =
    some ([0, 0, 0, 1, 0, 0, 0, 1], [[0, 1, 5, 4, 2, 6], [3, 7]], [[3, 7], [2, 6, 1, 5]], [[2], [1]]) := by
  decide +kernel

/-- **C25 for `build_tiles` with the INDEX partitioner**: every cell of a (serial) mesh is owned by exactly one tile,
and so is every node of the mesh that belongs to a cell. -/
theorem index_tiles_cover (T : Topo) (fl : Flags) (hT : T.Valid fl) (layers p : Nat) (hp : 1 ≤ p) :
    ∃ M, buildTiles T fl layers (Partition.byIndexSpace T.ncells p) = some M ∧ M.tiles.length = p ∧
      (∀ c < T.ncells, ∃ i : Nat, M.masterOfCell c = some (i : Int) ∧ i < p ∧
        ∀ j : Nat, (∃ t, M.tiles[j]? = some t ∧ c ∈ t.cells.owned) ↔ j = i) ∧
      ∀ n < T.nnodes, (∃ c < T.ncells, n ∈ T.cellNodes c) → ∃ i : Nat, M.masterOfNode n = some (i : Int) ∧ i < p ∧
        ∀ j : Nat, (∃ t, M.tiles[j]? = some t ∧ n ∈ t.nodes.owned) ↔ j = i := by
  obtain ⟨hl, hf, -⟩ := Partition.byIndexSpace_partition T.ncells p hp
  have hne : Partition.byIndexSpace T.ncells p ≠ [] := by
    intro h; rw [h] at hl; simp at hl; omega
  obtain ⟨M, e, hid, -, hc, hn, -⟩ := tiles_own_disjointly T fl hT layers _ hne
    (by rw [hf]; intro c hc; exact List.mem_range.1 hc) (by rw [hf]; exact List.nodup_range)
  have hlen : M.tiles.length = p := by
    have := congrArg List.length hid
    simpa [hl] using this
  have lt_of : ∀ (i : Nat) {P : Tile → Prop}, (∃ t, M.tiles[i]? = some t ∧ P t) → i < p := by
    rintro i P ⟨t, ht, -⟩
    rw [← hlen]
    by_contra hcon; rw [List.getElem?_eq_none (by omega)] at ht; cases ht
  refine ⟨M, e, hlen, ?_, ?_⟩
  · intro c hcn
    obtain ⟨i, h1, h2, h3⟩ := (hc c hcn).1 (by rw [hf]; exact List.mem_range.2 hcn)
    exact ⟨i, h2, lt_of i h1, fun j => ⟨h3 j, fun hj => hj ▸ h1⟩⟩
  · rintro n hnn ⟨c, hcn, hnc⟩
    obtain ⟨i, h1, h2, h3⟩ := (hn n hnn).1 ⟨c, by rw [hf]; exact List.mem_range.2 hcn, hnc⟩
    exact ⟨i, h2, lt_of i h1, fun j => ⟨h3 j, fun hj => hj ▸ h1⟩⟩

example : (buildTiles strip allFlags 0 (Partition.byIndexSpace 3 2)).map (fun M => M.cell) =
    some [0, 0, 1] := by decide +kernel

/-- **C26.** With `layers` halo layers, the ghost cells of each tile are exactly the cells within `layers`
node-adjacency steps of its owned cells that it does not own, each listed once. -/
theorem tile_halo_exact (T : Topo) (fl : Flags) (hT : T.Valid fl) (layers : Nat) (parts : List (List Nat))
    (hne : parts ≠ []) (hlt : ∀ c ∈ parts.flatten, c < T.ncells) (hnd : parts.flatten.Nodup) :
    ∃ M, buildTiles T fl layers parts = some M ∧ M.tiles.length = parts.length ∧
      ∀ t ∈ M.tiles, t.cells.ghost.Nodup ∧
        ∀ x, x ∈ t.cells.ghost ↔ Near T.cellAdj t.cells.owned layers x ∧ x ∉ t.cells.owned := by
  obtain ⟨M, e, h⟩ := buildTiles_ok T fl hT layers parts hne hlt hnd
  refine ⟨M, e, h.tilesLen, ?_⟩
  intro t ht
  obtain ⟨i, hi, rfl⟩ := List.getElem_of_mem ht
  have hi' : i < parts.length := by rw [← h.tilesLen]; exact hi
  rw [(h.rest i _ _ (List.getElem?_eq_getElem hi) (List.getElem?_eq_getElem hi')).2.1]
  exact (halo_spec T.cellAdj layers parts[i]).2

example : (buildTiles strip allFlags 2 [[0], [1, 2]]).map (fun M => M.tiles.map (·.cells.ghost)) =
    some [[1, 2], [0]] := by decide +kernel

/-- `l` lists entities without repetition, owned ones first, and contains exactly the entities (given by `query`) of the
cells `cells`. -/
def ListsOk (query : Nat → List Nat) (cells : List Nat) (l : Lists) : Prop :=
  l.all = l.owned ++ l.ghost ∧ l.all.Nodup ∧ ∀ e, e ∈ l.all ↔ Touches query cells e

theorem listsOk_of_table {q : Nat → List Nat} {gh : List Nat → List Nat} {n : Nat} {parts : List (List Nat)}
    {tbl : List Int} {ls : List Lists} (h : TableOk q gh n parts tbl ls) (i : Nat) (l : Lists) (p : List Nat)
    (hl : ls[i]? = some l) (hp : parts[i]? = some p) : ListsOk q (p ++ gh p) l := by
  obtain ⟨h1, h2, h3, h4, h5⟩ := h.lists i l p hl hp
  refine ⟨h5, ?_, ?_⟩
  · rw [h5, List.nodup_append]
    refine ⟨h1, h3, ?_⟩
    rintro a ha b hb rfl
    exact ((h4 a).1 hb).2 ha
  · intro e
    rw [h5, List.mem_append, h4]
    constructor
    · rintro (h | h)
      · obtain ⟨⟨r, hr, hrt⟩, -⟩ := (h2 e).1 h
        rw [hp] at hr; cases hr
        exact (touches_append _ _ _ _).2 (.inl hrt)
      · exact h.1
    · intro h
      by_cases ho : e ∈ l.owned
      · exact .inl ho
      · exact .inr ⟨h, ho⟩

theorem gather_nodup (q : Nat → List Nat) (own ghost : List Nat) (hc : (own ++ ghost).Nodup)
    (hn : ∀ c ∈ own ++ ghost, (q c).Nodup)
    (hd : ∀ c ∈ own ++ ghost, ∀ d ∈ own ++ ghost, c ≠ d → ∀ e ∈ q c, e ∉ q d) :
    ListsOk q (own ++ ghost) (gather q own ghost) := by
  refine ⟨rfl, ?_, ?_⟩
  · change (own.flatMap q ++ ghost.flatMap q).Nodup
    rw [← List.flatMap_append, List.nodup_flatMap]
    refine ⟨hn, ?_⟩
    refine hc.imp_of_mem ?_
    intro c d hcm hdm hne
    exact fun e h1 h2 => hd c hcm d hdm hne e h1 h2
  · intro e
    change e ∈ own.flatMap q ++ ghost.flatMap q ↔ _
    rw [← List.flatMap_append, mem_flatMap_iff]

/-- **C27.** In every tile and for every kind of entity the list for ALL is OWNED followed by GHOST and repeats nothing;
it contains exactly the nodes, faces (if requested) and edges (if requested) of the owned and ghost cells of the tile,
and, when wedges/corners are requested and no two cells share any, exactly the wedges/corners of these cells; the counts
agree with the lists for every type argument. -/
theorem tile_lists_consistent (T : Topo) (fl : Flags) (hT : T.Valid fl) (layers : Nat) (parts : List (List Nat))
    (hne : parts ≠ []) (hlt : ∀ c ∈ parts.flatten, c < T.ncells) (hnd : parts.flatten.Nodup)
    (hw : ∀ q ∈ [T.cellWedges, T.cellCorners], ∀ c < T.ncells, (q c).Nodup ∧
      ∀ d < T.ncells, c ≠ d → ∀ e ∈ q c, e ∉ q d) :
    ∃ M, buildTiles T fl layers parts = some M ∧ M.tiles.length = parts.length ∧
      ∀ t ∈ M.tiles,
        t.cells.all = t.cells.owned ++ t.cells.ghost ∧ t.cells.all.Nodup ∧
        ListsOk T.cellNodes t.cells.all t.nodes ∧
        (fl.faces = true → ListsOk T.cellFaces t.cells.all t.faces) ∧
        (fl.edges = true → ListsOk T.cellEdges t.cells.all t.edges) ∧
        (fl.wedges = true → ListsOk T.cellWedges t.cells.all t.wedges) ∧
        (fl.corners = true → ListsOk T.cellCorners t.cells.all t.corners) ∧
        (∀ k l, t.lists k = some l → ∀ ptype, t.numEntities k ptype = (l.get ptype).length) := by
  obtain ⟨M, e, h⟩ := buildTiles_ok T fl hT layers parts hne hlt hnd
  refine ⟨M, e, h.tilesLen, ?_⟩
  intro t ht
  obtain ⟨i, hi, rfl⟩ := List.getElem_of_mem ht
  have hi' : i < parts.length := by rw [← h.tilesLen]; exact hi
  have hti : M.tiles[i]? = some M.tiles[i] := List.getElem?_eq_getElem hi
  have hpi : parts[i]? = some parts[i] := List.getElem?_eq_getElem hi'
  obtain ⟨-, hcells, hs, hwd, hcn, hnf, hne'⟩ := h.rest i _ _ hti hpi
  have hpnd : parts[i].Nodup := (List.nodup_flatten.1 hnd).1 _ (List.getElem_mem hi')
  have hsp := halo_spec T.cellAdj layers parts[i]
  have hallnd : (parts[i] ++ ghostsOf T layers parts[i]).Nodup := by
    rw [List.nodup_append]
    refine ⟨hpnd, hsp.2.1, ?_⟩
    rintro a ha b hb rfl
    exact ((hsp.2.2 a).1 hb).2 ha
  have hlt' := ghostsOf_lt T fl hT layers parts[i] (fun c hc => hlt c (List.mem_flatten.2 ⟨_, List.getElem_mem hi', hc⟩))
  have hnode : ListsOk T.cellNodes (parts[i] ++ ghostsOf T layers parts[i]) M.tiles[i].nodes :=
    listsOk_of_table h.node i _ _ (by rw [List.getElem?_map, hti]; rfl) hpi
  have hface : fl.faces = true → ListsOk T.cellFaces (parts[i] ++ ghostsOf T layers parts[i]) M.tiles[i].faces :=
    fun hf => listsOk_of_table (h.face hf) i _ _ (by rw [List.getElem?_map, hti]; rfl) hpi
  have hedge : fl.edges = true → ListsOk T.cellEdges (parts[i] ++ ghostsOf T layers parts[i]) M.tiles[i].edges :=
    fun hf => listsOk_of_table (h.edge hf) i _ _ (by rw [List.getElem?_map, hti]; rfl) hpi
  rw [hcells]
  dsimp only
  refine ⟨rfl, hallnd, hnode, hface, hedge, ?_, ?_, ?_⟩
  · intro hf
    rw [hwd, if_pos hf]
    exact gather_nodup _ _ _ hallnd (fun c hc => (hw _ (by simp) c (hlt' c hc)).1)
      (fun c hc d hd hcd => (hw _ (by simp) c (hlt' c hc)).2 d (hlt' d hd) hcd)
  · intro hf
    rw [hcn, if_pos hf]
    exact gather_nodup _ _ _ hallnd (fun c hc => (hw _ (by simp) c (hlt' c hc)).1)
      (fun c hc d hd hcd => (hw _ (by simp) c (hlt' c hc)).2 d (hlt' d hd) hcd)
  · have key : ∀ l : Lists, l.all = l.owned ++ l.ghost → ∀ ptype, l.num ptype = (l.get ptype).length := by
      intro l hl ptype
      cases ptype <;> simp [Lists.num, Lists.get, hl]
    have all_ok : ∀ k l, M.tiles[i].lists k = some l → l.all = l.owned ++ l.ghost := by
      intro k l hl
      have hgather : ∀ (b : Bool) q, (if b then gather q parts[i] (ghostsOf T layers parts[i]) else ({} : Lists)).all =
          (if b then gather q parts[i] (ghostsOf T layers parts[i]) else ({} : Lists)).owned ++
          (if b then gather q parts[i] (ghostsOf T layers parts[i]) else ({} : Lists)).ghost := by
        intro b q; cases b <;> rfl
      cases k <;> simp only [Tile.lists, Option.some.injEq, reduceCtorEq] at hl <;> subst hl
      · exact hnode.1
      · cases hf : fl.edges with
        | true => exact (hedge hf).1
        | false => rw [hne' hf]; rfl
      · cases hf : fl.faces with
        | true => exact (hface hf).1
        | false => rw [hnf hf]; rfl
      · rw [hcells]
      · rw [hs]; exact hgather _ _
      · rw [hwd]; exact hgather _ _
      · rw [hcn]; exact hgather _ _
    intro k l hl ptype
    rw [Tile.numEntities, hl]
    exact key l (all_ok k l hl) ptype

example : ∀ q ∈ [strip.cellWedges, strip.cellCorners], ∀ c < strip.ncells, (q c).Nodup ∧
    ∀ d < strip.ncells, c ≠ d → ∀ e ∈ q c, e ∉ q d := by
  intro q hq c hc
  simp only [List.mem_cons, List.not_mem_nil, or_false] at hq
  rcases hq with rfl | rfl <;> simp only [strip] at hc ⊢
  · refine ⟨by simp, ?_⟩
    intro d hd hcd e he he'
    simp at he he'; omega
  · refine ⟨by simp, ?_⟩
    intro d hd hcd e he he'
    simp at he he'; omega

/-- **C28 (what holds).** When *wedges* are requested on the mesh, every tile lists the sides of its owned cells as owned
sides and the sides of its ghost cells as ghost sides, and the reported master tile of an owned side is the tile. -/
theorem tile_sides_partial (T : Topo) (fl : Flags) (hT : T.Valid fl) (layers : Nat) (parts : List (List Nat))
    (hne : parts ≠ []) (hlt : ∀ c ∈ parts.flatten, c < T.ncells) (hnd : parts.flatten.Nodup)
    (hw : fl.wedges = true) (sideCell : Nat → Nat) (hsc : ∀ c < T.ncells, ∀ s ∈ T.cellSides c, sideCell s = c) :
    ∃ M, buildTiles T fl layers parts = some M ∧ M.tiles.length = parts.length ∧
      ∀ t ∈ M.tiles, t.sides.owned = t.cells.owned.flatMap T.cellSides ∧
        t.sides.ghost = t.cells.ghost.flatMap T.cellSides ∧
        ∀ s ∈ t.sides.owned, M.masterOfSub sideCell s = some (t.id : Int) := by
  obtain ⟨M, e, h⟩ := buildTiles_ok T fl hT layers parts hne hlt hnd
  refine ⟨M, e, h.tilesLen, ?_⟩
  intro t ht
  obtain ⟨i, hi, rfl⟩ := List.getElem_of_mem ht
  have hi' : i < parts.length := by rw [← h.tilesLen]; exact hi
  have hpi : parts[i]? = some parts[i] := List.getElem?_eq_getElem hi'
  obtain ⟨hid, hcells, hs, -⟩ := h.rest i _ _ (List.getElem?_eq_getElem hi) hpi
  rw [hs, hcells, if_pos hw, hid]
  refine ⟨rfl, rfl, ?_⟩
  intro s hsm
  obtain ⟨c, hc, hcs⟩ := List.mem_flatMap.1 hsm
  have hcn := hlt c (List.mem_flatten.2 ⟨_, List.getElem_mem hi', hc⟩)
  rw [Mesh.masterOfSub, hsc c hcn s hcs, getMaster, h.init, if_pos rfl]
  exact h.cellOwner i _ hpi c hc

example : (buildTiles strip allFlags 1 [[0, 1], [2]]).map (fun M => M.tiles.map (·.sides.owned)) =
    some [[0, 1, 2, 3, 4, 5, 6, 7], [8, 9, 10, 11]] := by decide +kernel

/-- **C28 is false of the code.** On any mesh whose cells have sides, with sides requested but wedges not, every tile
that owns a cell still has no sides at all. -/
theorem tile_sides_missing (T : Topo) (fl : Flags) (hT : T.Valid fl) (layers : Nat) (parts : List (List Nat))
    (hne : parts ≠ []) (hlt : ∀ c ∈ parts.flatten, c < T.ncells) (hnd : parts.flatten.Nodup)
    (_hs : fl.sides = true) (hw : fl.wedges = false) (hcs : ∀ c < T.ncells, T.cellSides c ≠ []) :
    ∃ M, buildTiles T fl layers parts = some M ∧ M.tiles.length = parts.length ∧
      ∀ t ∈ M.tiles, t.cells.owned ≠ [] →
        t.sides.owned = [] ∧ t.sides.owned ≠ t.cells.owned.flatMap T.cellSides := by
  obtain ⟨M, e, h⟩ := buildTiles_ok T fl hT layers parts hne hlt hnd
  refine ⟨M, e, h.tilesLen, ?_⟩
  intro t ht ho
  obtain ⟨i, hi, rfl⟩ := List.getElem_of_mem ht
  have hi' : i < parts.length := by rw [← h.tilesLen]; exact hi
  obtain ⟨hid, hcells, hs, -⟩ := h.rest i _ _ (List.getElem?_eq_getElem hi) (List.getElem?_eq_getElem hi')
  rw [hcells] at ho ⊢
  rw [hs, hw, if_neg (by simp)]
  refine ⟨rfl, ?_⟩
  intro hc
  obtain ⟨c, hcm⟩ := List.exists_mem_of_ne_nil _ ho
  have hcn := hlt c (List.mem_flatten.2 ⟨_, List.getElem_mem hi', hcm⟩)
  obtain ⟨s, hsm⟩ := List.exists_mem_of_ne_nil _ (hcs c hcn)
  have : s ∈ List.flatMap T.cellSides parts[i] := List.mem_flatMap.2 ⟨c, hcm, hsm⟩
  dsimp only at hc
  rw [← hc] at this
  cases this

-- sides requested, wedges not: the tiles have no sides
example : (buildTiles strip ⟨true, true, true, false, false⟩ 1 [[0, 1], [2]]).map (fun M =>
    M.tiles.map fun t => (t.cells.owned, t.sides.owned)) = some [([0, 1], []), ([2], [])] := by decide +kernel

/-- **C65 (what holds).** The set query of a tile for ALL returns exactly the members of the mesh set that are in the
tile, in the order of the mesh set; for OWNED, exactly the members of the mesh set's owned part that the tile owns; kinds
without entities and meaningless types give nothing. -/
theorem tile_set_entities_partial (t : Tile) (k : EntityKind) (meshSet : EntityType → List Nat) :
    (∀ l, t.lists k = some l → ∀ ptype ∈ [EntityType.ALL, .PARALLEL_OWNED, .PARALLEL_GHOST],
      (t.getSetEntities k ptype meshSet).Sublist (meshSet ptype) ∧
      ∀ e, e ∈ t.getSetEntities k ptype meshSet ↔ e ∈ meshSet ptype ∧ e ∈ l.get ptype) ∧
    (t.lists k = none → ∀ ptype, t.getSetEntities k ptype meshSet = []) := by
  refine ⟨?_, ?_⟩
  · intro l hl ptype hp
    simp only [List.mem_cons, List.not_mem_nil, or_false] at hp
    unfold Tile.getSetEntities
    rw [hl]
    rcases hp with rfl | rfl | rfl <;>
      exact ⟨List.filter_sublist, fun e => by simp [Lists.get]⟩
  · intro hl ptype
    unfold Tile.getSetEntities; rw [hl]

/-- **C65 is false of the code.** On a serial mesh a mesh set has no ghost members (its GHOST part is empty), so a tile
reports no GHOST members of any set, even though it has ghost cells that belong to the set: OWNED and GHOST answers do
not add up to the ALL answer. -/
theorem tile_set_ghosts_missing : ∃ (M : Mesh) (t : Tile) (meshSet : EntityType → List Nat),
    buildTiles strip allFlags 1 [[0, 1], [2]] = some M ∧ t ∈ M.tiles ∧
    meshSet .PARALLEL_GHOST = [] ∧ meshSet .ALL = meshSet .PARALLEL_OWNED ∧
    2 ∈ t.cells.ghost ∧ 2 ∈ t.getSetEntities .CELL .ALL meshSet ∧
    2 ∉ t.getSetEntities .CELL .PARALLEL_OWNED meshSet ∧ t.getSetEntities .CELL .PARALLEL_GHOST meshSet = [] := by
  obtain ⟨M, e, -⟩ := tiles_own_disjointly strip allFlags (strip_valid _) 1 [[0, 1], [2]] (by simp)
    (by simp [strip]) (by simp)
  have hM : ∀ M', buildTiles strip allFlags 1 [[0, 1], [2]] = some M' →
      (M'.tiles.map (·.cells))[0]? = some ⟨[0, 1], [2], [0, 1, 2]⟩ := by
    intro M' h'
    have h2 : (buildTiles strip allFlags 1 [[0, 1], [2]]).map (fun M => (M.tiles.map (·.cells))[0]?) =
        some (some ⟨[0, 1], [2], [0, 1, 2]⟩) := by decide +kernel
    rw [h'] at h2
    simpa using h2
  have h3 := hM M e
  rw [List.getElem?_map, Option.map_eq_some_iff] at h3
  obtain ⟨t, ht, htc⟩ := h3
  refine ⟨M, t, fun ty => if ty = .PARALLEL_GHOST then [] else [1, 2], e, List.mem_of_getElem? ht, rfl, rfl, ?_⟩
  simp [Tile.getSetEntities, Tile.lists, htc]

end Jali.Tile
