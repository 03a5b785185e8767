import Verif.Props.MstkTypes
import Verif.Props.MstkNeighbours
import Verif.Props.Tile
import Verif.Spec.MstkTiles
/-
C118: the tiles of a mesh made by MSTK.
-/
namespace Jali.Mstk
open Jali.Sides Jali.Tile.Spec

theorem within_iff {adj : Nat → List Nat} {node : Nat → Nat → Prop}
    (h : ∀ c x, x ∈ adj c ↔ x ≠ c ∧ ∃ n, node c n ∧ node x n) (cells : List Nat) (k x : Nat) :
    Near adj cells k x ↔ Within node cells k x := by
  induction k generalizing x with
  | zero => exact Iff.rfl
  | succ k ih =>
    unfold Near Within
    constructor
    · rintro (hx | ⟨y, hy, hm⟩)
      · exact .inl ((ih x).mp hx)
      · exact .inr ⟨y, (ih y).mp hy, ((h y x).mp hm).2⟩
    · rintro (hx | ⟨y, hy, hm⟩)
      · exact .inl ((ih x).mpr hx)
      · by_cases e : x = y
        · subst e; exact .inl ((ih x).mpr hy)
        · exact .inr ⟨y, (ih y).mpr hy, (h y x).mpr ⟨e, hm⟩⟩

theorem owned_range {L : IdLists} {n : Nat} (h : Consecutive L n) : L.owned = List.range L.owned.length ∧ L.owned.length ≤ n ∧
    ∀ c, c ∈ L.ghost ++ L.bndry ↔ L.owned.length ≤ c ∧ c < n := by
  have e := h.1
  have hl := congrArg List.length e
  rw [List.length_range, List.append_assoc, List.length_append] at hl
  have e1 : L.owned = List.range L.owned.length := by
    have := congrArg (List.take L.owned.length) e
    rw [List.append_assoc, List.take_left, List.take_range] at this
    rw [Nat.min_eq_left (by omega)] at this
    exact this
  refine ⟨e1, by omega, ?_⟩
  have e2 : L.ghost ++ L.bndry = (List.range n).drop L.owned.length := by
    have := congrArg (List.drop L.owned.length) e
    rw [List.append_assoc, List.drop_left] at this
    exact this
  intro c
  rw [e2, List.mem_iff_getElem]
  constructor
  · rintro ⟨i, hi, rfl⟩
    rw [List.getElem_drop, List.getElem_range]
    rw [List.length_drop, List.length_range] at hi
    omega
  · rintro ⟨a, b⟩
    refine ⟨c - L.owned.length, ?_, ?_⟩
    · rw [List.length_drop, List.length_range]; omega
    · rw [List.getElem_drop, List.getElem_range]; omega

theorem listsOf_of {q : Nat → List Nat} {of : Nat → Nat → Prop} (h : ∀ c x, x ∈ q c ↔ of c x) {cells : List Nat} {l : Tile.Lists}
    (hl : Tile.ListsOk q cells l) : ListsOf l cells of := by
  refine ⟨hl.1, hl.2.1, fun e => (hl.2.2 e).trans ?_⟩
  exact ⟨fun ⟨c, hc, he⟩ => ⟨c, hc, (h c e).mp he⟩, fun ⟨c, hc, he⟩ => ⟨c, hc, (h c e).mpr he⟩⟩

theorem tilesOk_of {T : Tile.Topo} {r : MeshCache.Request} (hT : T.Valid (tileFlags r)) {L : IdLists} (hL : Consecutive L T.ncells)
    {node face edge wedge corner : Nat → Nat → Prop} (hnode : ∀ c x, x ∈ T.cellNodes c ↔ node c x)
    (hface : ∀ c x, x ∈ T.cellFaces c ↔ face c x) (hedge : ∀ c x, x ∈ T.cellEdges c ↔ edge c x)
    (hwedge : ∀ c x, x ∈ T.cellWedges c ↔ wedge c x) (hcorner : ∀ c x, x ∈ T.cellCorners c ↔ corner c x)
    (hadj : ∀ c x, x ∈ T.cellAdj c ↔ x ≠ c ∧ ∃ n, node c n ∧ node x n)
    (hw : ∀ q ∈ [T.cellWedges, T.cellCorners], ∀ c < T.ncells, (q c).Nodup ∧ ∀ d < T.ncells, c ≠ d → ∀ e ∈ q c, e ∉ q d)
    (layers nt : Nat) (hnt : 1 ≤ nt) (parts : List (List Nat)) (hl : parts.length = nt) (hf : parts.flatten.Perm (List.range L.owned.length)) :
    ∃ M, Tile.buildTiles T (tileFlags r) layers parts = some M ∧ M.tiles.map (·.cells.owned) = parts ∧
      TilesOk M r nt layers L node face edge wedge corner := by
  obtain ⟨ho, hle, hrest⟩ := owned_range hL
  have hne : parts ≠ [] := by
    intro h; rw [h] at hl; simp at hl; omega
  have hlt : ∀ c ∈ parts.flatten, c < T.ncells := by
    intro c hc; have := List.mem_range.1 (hf.mem_iff.mp hc); omega
  have hnd : parts.flatten.Nodup := hf.nodup_iff.mpr List.nodup_range
  have hmem : ∀ c, c ∈ parts.flatten ↔ c ∈ L.owned := by
    intro c; rw [hf.mem_iff, ← ho]
  obtain ⟨M, e, hid, hown, hc, hn, hfa, hed⟩ := Tile.tiles_own_disjointly T _ hT layers _ hne hlt hnd
  obtain ⟨M', e', _, hh⟩ := Tile.tile_halo_exact T _ hT layers _ hne hlt hnd
  rw [e] at e'; cases e'
  obtain ⟨M', e', _, hli⟩ := Tile.tile_lists_consistent T _ hT layers _ hne hlt hnd hw
  rw [e] at e'; cases e'
  have ownlt : ∀ c ∈ L.owned, c < T.ncells := fun c hc => hlt c ((hmem c).mpr hc)
  have touch : ∀ {q : Nat → List Nat} {of : Nat → Nat → Prop}, (∀ c x, x ∈ q c ↔ of c x) → ∀ c x, c ∈ L.owned → of c x →
      Touches q parts.flatten x :=
    fun h c x hc hx => ⟨c, (hmem c).mpr hc, (h c x).mpr hx⟩
  refine ⟨M, e, hown, ?_, ?_, ?_, ?_, ?_, ?_, ?_, ?_, ?_, ?_, ?_, ?_⟩
  · have := congrArg List.length hid
    simpa [hl] using this
  · intro c hcm
    exact (hc c (ownlt c hcm)).1 ((hmem c).mpr hcm)
  · intro c hcm
    have hb := (hrest c).mp hcm
    have hnot : c ∉ parts.flatten := by
      rw [hmem, ho, List.mem_range]; omega
    obtain ⟨h1, h2⟩ := (hc c hb.2).2 hnot
    refine ⟨h2, fun t ht hx => ?_⟩
    obtain ⟨i, hi, rfl⟩ := List.getElem_of_mem ht
    exact h1 i ⟨_, List.getElem?_eq_getElem hi, hx⟩
  · intro t ht
    obtain ⟨a, b, _⟩ := hli t ht
    refine ⟨a, b, fun x => ?_⟩
    rw [(hh t ht).2 x, within_iff hadj]
  · intro c n hcm hx
    exact (hn n (hT.nodes c (ownlt c hcm) n ((hnode c n).mpr hx))).1 (touch hnode c n hcm hx)
  · intro hr c n hcm hx
    exact (hfa hr n (hT.faces hr c (ownlt c hcm) n ((hface c n).mpr hx))).1 (touch hface c n hcm hx)
  · intro hr c n hcm hx
    exact (hed hr n (hT.edges hr c (ownlt c hcm) n ((hedge c n).mpr hx))).1 (touch hedge c n hcm hx)
  · intro t ht
    exact listsOf_of hnode (hli t ht).2.2.1
  · intro hr t ht
    exact listsOf_of hface ((hli t ht).2.2.2.1 hr)
  · intro hr t ht
    exact listsOf_of hedge ((hli t ht).2.2.2.2.1 hr)
  · intro hr t ht
    exact listsOf_of hwedge ((hli t ht).2.2.2.2.2.1 hr)
  · intro hr t ht
    exact listsOf_of hcorner ((hli t ht).2.2.2.2.2.2.1 hr)

/-- wedges and corners of a cell, as `wedge_get_cell` and `corner_get_cell` tell -/
def WedgeOf (k : Types.Caches) (c w : Nat) : Prop := ∃ i rec, k.side = some i ∧ i.wedge w = some rec ∧ rec.cell = c
def CornerOf (k : Types.Caches) (c cn : Nat) : Prop :=
  ∃ i kk, k.side = some i ∧ k.corner = some kk ∧ cn < kk.cornerWedges.length ∧ cornerGetCell i kk cn = some c

theorem mem_getD {l : Option (List Nat)} {x : Nat} : x ∈ l.getD [] ↔ Has l x := by
  unfold Has
  cases l with
  | none => simp
  | some l => simp

theorem mem_fst_getD {l : Option (List (Nat × Int))} {x : Nat} : x ∈ (l.getD []).map Prod.fst ↔ HasFst l x := by
  unfold HasFst
  cases l with
  | none => simp
  | some l => simp

/-- the caches list the wedges and corners of each cell -/
theorem subcells_of {b : Types.Base} (W : Types.WellFormed b) {n : Nat} (hn : b.cells.all = List.range n) :
    ∃ k, Types.cacheExtra b = some k ∧
      (∀ c x, x ∈ (k.side.bind fun i => i.cellGetWedges c).getD [] ↔ WedgeOf k c x) ∧
      (∀ c x, x ∈ (k.corner.bind fun i => i.cellCorners[c]?).getD [] ↔ CornerOf k c x) ∧
      (∀ c < n, ((k.side.bind fun i => i.cellGetWedges c).getD []).Nodup) ∧
      (∀ c < n, ((k.corner.bind fun i => i.cellCorners[c]?).getD []).Nodup) := by
  obtain ⟨k, hk, _, hv, hside, _, hcorner, _⟩ := Types.cacheExtra_ok b W
  by_cases hs : b.req.sides = true
  · obtain ⟨k', i, hk', hi, hci, hv, ho, hnk⟩ := side_caches W hs
    rw [hk] at hk'; cases hk'
    obtain ⟨i', _, hi', _, _, _, _, _, hcw, _, _⟩ := wedges _ hv ho W.dim
    rw [hci] at hi'; cases hi'
    obtain ⟨i', hi', _, _, hinc, _, hcs, _⟩ := sides_are_incidences _ hv
    rw [hci] at hi'; cases hi'
    have hnc : (Types.source b k.types).ncells = n := by
      show b.cells.owned.length + b.cells.ghost.length + b.cells.bndry.length = n
      have := congrArg List.length hn
      simpa [Types.Three.all, Nat.add_assoc] using this
    have hcell : ∀ s rec, i.side s = some rec → rec.cell < n := by
      intro s rec hrec
      obtain ⟨⟨d, hd⟩, _⟩ := hinc s rec hrec
      have : rec.cell ∈ b.cells.all := hd.1
      rw [hn] at this
      exact List.mem_range.mp this
    refine ⟨k, hk, ?_, ?_, ?_, ?_⟩
    · intro c x
      rw [hi]
      constructor
      · intro hx
        by_cases hc : c < n
        · obtain ⟨cs, cw, e1, e2, _, e4⟩ := hcw c (by rw [hnc]; exact hc)
          obtain ⟨l, e5, _, e6⟩ := hcs c (by rw [hnc]; exact hc)
          rw [e1] at e5; cases e5
          have hx' : x ∈ cw := by
            have : x ∈ (i.cellGetWedges c).getD [] := hx
            rw [e2] at this; exact this
          obtain ⟨rec, e7, e8⟩ := (e6 _).mp ((e4 x).mp hx')
          exact ⟨i, rec, hi, e7, e8⟩
        · exfalso
          obtain ⟨i', hi', hok⟩ := cache_ok hv
          rw [hci] at hi'; cases hi'
          have hx : x ∈ (i.cellGetWedges c).getD [] := hx
          unfold Info.cellGetWedges at hx
          rw [hok.cellSides, List.getElem?_eq_none (by simp [hnc]; omega)] at hx
          cases hx
      · rintro ⟨i', rec, hi', e7, e8⟩
        rw [hi] at hi'; cases hi'
        have hc : c < n := by rw [← e8]; exact hcell _ rec e7
        obtain ⟨cs, cw, e1, e2, _, e4⟩ := hcw c (by rw [hnc]; exact hc)
        obtain ⟨l, e5, _, e6⟩ := hcs c (by rw [hnc]; exact hc)
        rw [e1] at e5; cases e5
        show x ∈ (i.cellGetWedges c).getD []
        rw [e2]
        exact (e4 x).mpr ((e6 _).mpr ⟨rec, e7, e8⟩)
    · intro c x
      by_cases hcr : b.req.corners = true
      · obtain ⟨i', kk, hi', hkk, h1, _, _, _, hcl, _⟩ := corners _ hv hnk
        rw [hci] at hi'; cases hi'
        have hkc : k.corner = some kk := (hcorner kk).mpr ⟨hcr, i, hci, hkk⟩
        rw [hkc]
        by_cases hc : c < n
        · obtain ⟨l, e1, _, e3⟩ := hcl c (by rw [hnc]; exact hc)
          show x ∈ (kk.cellCorners[c]?).getD [] ↔ _
          rw [e1]
          constructor
          · intro hx
            obtain ⟨a, b⟩ := (e3 x).mp hx
            exact ⟨i, kk, hi, hkc, a, b⟩
          · rintro ⟨i', kk', hi', hkk', a, b⟩
            rw [hi] at hi'; cases hi'
            rw [hkc] at hkk'; cases hkk'
            exact (e3 x).mpr ⟨a, b⟩
        · constructor
          · intro hx
            exfalso
            obtain ⟨i', hi', hok⟩ := cache_ok hv
            rw [hci] at hi'; cases hi'
            obtain ⟨kk', hkk', hok'⟩ := corners_ok hv hnk hok
            rw [hkk] at hkk'; cases hkk'
            have hx : x ∈ (kk.cellCorners[c]?).getD [] := hx
            have hlen : kk.cellCorners.length = n := by
              rw [hok'.cellCorners]; simp [hnc]
            rw [List.getElem?_eq_none (by omega)] at hx
            cases hx
          · rintro ⟨i', kk', hi', hkk', a, hb⟩
            rw [hi] at hi'; cases hi'
            rw [hkc] at hkk'; cases hkk'
            obtain ⟨c', hc', _, _, b', _⟩ := h1 x a
            rw [hb] at b'; cases b'
            have : c ∈ b.cells.all := hc'
            rw [hn] at this
            exact absurd (List.mem_range.mp this) hc
      · have hkc : k.corner = none := by
          cases e : k.corner with
          | none => rfl
          | some kk => exact absurd ((hcorner kk).mp e).1 hcr
        rw [hkc]
        constructor
        · intro hx; cases hx
        · rintro ⟨_, _, _, h, _⟩; rw [hkc] at h; cases h
    · intro c hc
      obtain ⟨cs, cw, e1, e2, e3, _⟩ := hcw c (by rw [hnc]; exact hc)
      rw [hi]
      show ((i.cellGetWedges c).getD []).Nodup
      rw [e2]; exact e3
    · intro c hc
      cases hkc : k.corner with
      | none => exact List.nodup_nil
      | some kk =>
        obtain ⟨_, i', hi', hkk⟩ := (hcorner kk).mp hkc
        rw [hci] at hi'; cases hi'
        obtain ⟨i', kk', hi', hkk', _, _, _, _, hcl, _⟩ := corners _ hv hnk
        rw [hci] at hi'; cases hi'
        rw [hkk] at hkk'; cases hkk'
        obtain ⟨l, e1, e2, _⟩ := hcl c (by rw [hnc]; exact hc)
        show ((kk.cellCorners[c]?).getD []).Nodup
        rw [e1]; exact e2
  · have hsn : k.side = none := by
      cases e : k.side with
      | none => rfl
      | some kk => exact absurd ((hside kk).mp e).1 hs
    have hcn : k.corner = none := by
      cases e : k.corner with
      | none => rfl
      | some kk =>
        exfalso
        have hc := ((hcorner kk).mp e).1
        obtain ⟨r0, hr0⟩ := W.closed
        rw [hr0] at hs hc
        obtain ⟨a, b, c, d, e⟩ := r0
        cases a <;> cases b <;> cases c <;> cases d <;> cases e <;> first | exact hs rfl | cases hc
    refine ⟨k, hk, ?_, ?_, ?_, ?_⟩
    · intro c x
      rw [hsn]
      exact ⟨fun h => (by cases h), fun ⟨_, _, h, _⟩ => (by rw [hsn] at h; cases h)⟩
    · intro c x
      rw [hcn]
      exact ⟨fun h => (by cases h), fun ⟨_, _, _, h, _⟩ => (by rw [hcn] at h; cases h)⟩
    · intro c _; rw [hsn]; exact List.nodup_nil
    · intro c _; rw [hcn]; exact List.nodup_nil

theorem subcells_disjoint {T : Tile.Topo} {k : Types.Caches} {n : Nat}
    (h1 : ∀ c x, x ∈ T.cellWedges c ↔ WedgeOf k c x) (h2 : ∀ c x, x ∈ T.cellCorners c ↔ CornerOf k c x)
    (h3 : ∀ c < n, (T.cellWedges c).Nodup) (h4 : ∀ c < n, (T.cellCorners c).Nodup) :
    ∀ q ∈ [T.cellWedges, T.cellCorners], ∀ c < n, (q c).Nodup ∧ ∀ d < n, c ≠ d → ∀ e ∈ q c, e ∉ q d := by
  intro q hq c hc
  simp only [List.mem_cons, List.not_mem_nil, or_false] at hq
  rcases hq with rfl | rfl
  · refine ⟨h3 c hc, fun d _ hcd e he he' => hcd ?_⟩
    obtain ⟨i, rec, a, b, e1⟩ := (h1 c e).mp he
    obtain ⟨i', rec', a', b', e2⟩ := (h1 d e).mp he'
    rw [a] at a'; cases a'
    rw [b] at b'; cases b'
    rw [← e1, ← e2]
  · refine ⟨h4 c hc, fun d _ hcd e he he' => hcd ?_⟩
    obtain ⟨i, kk, a, b, _, e1⟩ := (h2 c e).mp he
    obtain ⟨i', kk', a', b', _, e2⟩ := (h2 d e).mp he'
    rw [a] at a'; cases a'
    rw [b] at b'; cases b'
    rw [e1] at e2; cases e2; rfl

theorem tileTopo3_valid (j : JMesh) (r : MeshCache.Request) (h : j.Made3 r) (k : Types.Caches) : (j.tileTopo3 k).Valid (tileFlags r) := by
  obtain ⟨l1, l2, l3, l4, _⟩ := len_ids j.m j.bg
  obtain ⟨q1, q2, q3⟩ := cached_connectivity3 j r h
  refine ⟨?_, ?_, ?_, ?_⟩
  · intro c _ x hx
    obtain ⟨_, n, _, hn⟩ := (node_adj_iff3 j c x).mp (mem_getD.mp hx)
    obtain ⟨g, _, hg, _⟩ := (has_cellNodes3 x n).mp hn
    show x < (j.m.cellIds3 j.bg).all.length
    rw [l4]; exact (j.m.rnum j.bg).lt_of_at hg
  · intro c _ x hx
    obtain ⟨_, v, _, hv, _⟩ := (has_cellNodes3 c x).mp (mem_getD.mp hx)
    show x < j.m.nodeIds.all.length
    rw [l1]; exact j.m.vnum.lt_of_at hv
  · intro hf c _ x hx
    have hx := mem_fst_getD.mp hx
    rw [q1 hf, hasFst_cellFaces3 (h.ready hf)] at hx
    obtain ⟨_, fh, _, hv, _⟩ := hx
    show x < j.m.faceIds3.all.length
    rw [l3]; exact j.m.fnum.lt_of_at hv
  · intro hf c _ x hx
    obtain ⟨l, hl, hm⟩ := mem_getD.mp hx
    rw [(q3 hf).1] at hl
    unfold JMesh.cellEdges3 at hl
    rw [if_pos (h.readyE hf).edges] at hl
    obtain ⟨g, _, rfl⟩ := Option.map_eq_some_iff.mp hl
    obtain ⟨v, hv, _⟩ := (mem_map_id j.m.enum _).mp hm
    show x < j.m.edgeIds.all.length
    rw [l2]; exact j.m.enum.lt_of_at hv

/-- **C165** (3D) building the tiles of a mesh made by MSTK from any lists that divide its owned cells: tile `i` owns list `i`, ghosts belong to no
tile, the halo of a tile is what can be reached in the given number of layers, and its lists are complete -/
theorem tiles_of_parts3 (j : JMesh) (r : MeshCache.Request) (h : j.Made3 r) (hp : j.m.Polygons) (hr : j.m.Regions)
    (layers numTiles : Nat) (hnt : 1 ≤ numTiles) (parts : List (List Nat)) (hl : parts.length = numTiles)
    (hf : parts.flatten.Perm (List.range (j.m.cellIds3 j.bg).owned.length)) :
    ∃ k M, j.buildParts3 r layers parts = some (k, M) ∧ M.tiles.map (·.cells.owned) = parts ∧ Types.cacheExtra (j.base3 r) = some k ∧
      TilesOk M r numTiles layers (j.m.cellIds3 j.bg) (fun c n => Has (j.cellNodes3 c) n) (fun c f => HasFst (j.cellGetFaces3 c) f)
        (fun c e => Has (j.cellGetEdges3 c) e) (WedgeOf k) (CornerOf k) := by
  obtain ⟨k, hk, a1, a2, a3, a4⟩ := subcells_of (mesh_ok3 j r h hp hr) cells3_range
  obtain ⟨l1, l2, l3, l4, _⟩ := len_ids j.m j.bg
  obtain ⟨q1, q2, q3⟩ := cached_connectivity3 j r h
  have hT := tileTopo3_valid j r h k
  have hL : Consecutive (j.m.cellIds3 j.bg) (j.tileTopo3 k).ncells := by
    show Consecutive _ (j.m.cellIds3 j.bg).all.length
    rw [l4]; exact (ids_consecutive j.m j.bg).2.2.2.1
  have hn : (j.tileTopo3 k).ncells = j.m.nr := l4
  obtain ⟨M, e, ho, ok⟩ := tilesOk_of hT hL (node := fun c n => Has (j.cellNodes3 c) n) (face := fun c f => HasFst (j.cellGetFaces3 c) f)
    (edge := fun c e => Has (j.cellGetEdges3 c) e) (wedge := WedgeOf k) (corner := CornerOf k)
    (fun _ _ => mem_getD) (fun _ _ => mem_fst_getD) (fun _ _ => mem_getD) a1 a2
    (fun c x => mem_getD.trans (node_adj_iff3 j c x)) (subcells_disjoint a1 a2 (by rw [hn]; exact a3) (by rw [hn]; exact a4))
    layers numTiles hnt parts hl hf
  refine ⟨k, M, ?_, ho, hk, ok⟩
  unfold JMesh.buildParts3
  rw [hk, Option.bind_some, e]
  rfl

/-- **C165** (2D and surface meshes, without boundary ghosts) -/
theorem tiles_of_parts2 (j : JMesh) (r : MeshCache.Request) (h : j.Made2 r) (hp : j.m.Polygons) (hr : j.m.OrientedCells)
    (sdim layers numTiles : Nat) (hnt : 1 ≤ numTiles) (parts : List (List Nat)) (hl : parts.length = numTiles)
    (hf : parts.flatten.Perm (List.range (j.m.cellIds2 j.bg).owned.length)) :
    ∃ k M, j.buildParts2 sdim r layers parts = some (k, M) ∧ M.tiles.map (·.cells.owned) = parts ∧ Types.cacheExtra (j.base2 r) = some k ∧
      TilesOk M r numTiles layers (j.m.cellIds2 j.bg) (fun c n => Has (j.cellNodes2 c) n) (fun c f => HasFst (j.cellGetFaces2 c) f)
        (fun c e => Has (j.cellGetEdges2 sdim c) e) (WedgeOf k) (CornerOf k) := by
  obtain ⟨k, hk, a1, a2, a3, a4⟩ := subcells_of (mesh_ok2 j r h hp hr) cells2_range
  obtain ⟨l1, l2, _, _, l4⟩ := len_ids j.m j.bg
  obtain ⟨q1, q2, q3⟩ := cached_connectivity2 j r h sdim
  have hT : (j.tileTopo2 sdim k).Valid (tileFlags r) := by
    refine ⟨?_, ?_, ?_, ?_⟩
    · intro c _ x hx
      obtain ⟨_, n, _, hn⟩ := (node_adj_iff2 j c x).mp (mem_getD.mp hx)
      obtain ⟨g, _, hg, _⟩ := (has_cellNodes2 x n).mp hn
      show x < (j.m.cellIds2 j.bg).all.length
      rw [l4]; exact (j.m.cnum j.bg).lt_of_at hg
    · intro c _ x hx
      obtain ⟨_, v, _, hv, _⟩ := (has_cellNodes2 c x).mp (mem_getD.mp hx)
      show x < j.m.nodeIds.all.length
      rw [l1]; exact j.m.vnum.lt_of_at hv
    · intro hf c _ x hx
      have hx := mem_fst_getD.mp hx
      rw [q1 hf, hasFst_cellFaces2 (h.ready hf)] at hx
      obtain ⟨_, fh, _, hv, _⟩ := hx
      show x < j.m.edgeIds.all.length
      rw [l2]; exact j.m.enum.lt_of_at hv
    · intro hf c _ x hx
      obtain ⟨l, hl, hm⟩ := mem_getD.mp hx
      rw [(q3 hf).1] at hl
      unfold JMesh.cellEdges2 at hl
      rw [if_pos (h.readyE hf).edges] at hl
      obtain ⟨g, _, rfl⟩ := Option.map_eq_some_iff.mp hl
      obtain ⟨v, hv, _⟩ := (mem_map_id j.m.enum _).mp hm
      show x < j.m.edgeIds.all.length
      rw [l2]; exact j.m.enum.lt_of_at hv
  have hL : Consecutive (j.m.cellIds2 j.bg) (j.tileTopo2 sdim k).ncells := by
    show Consecutive _ (j.m.cellIds2 j.bg).all.length
    rw [l4]; exact (ids_consecutive j.m j.bg).2.2.2.2
  have hn : (j.tileTopo2 sdim k).ncells = j.m.nf := l4
  obtain ⟨M, e, ho, ok⟩ := tilesOk_of hT hL (node := fun c n => Has (j.cellNodes2 c) n) (face := fun c f => HasFst (j.cellGetFaces2 c) f)
    (edge := fun c e => Has (j.cellGetEdges2 sdim c) e) (wedge := WedgeOf k) (corner := CornerOf k)
    (fun _ _ => mem_getD) (fun _ _ => mem_fst_getD) (fun _ _ => mem_getD) a1 a2
    (fun c x => mem_getD.trans (node_adj_iff2 j c x)) (subcells_disjoint a1 a2 (by rw [hn]; exact a3) (by rw [hn]; exact a4))
    layers numTiles hnt parts hl hf
  refine ⟨k, M, ?_, ho, hk, ok⟩
  unfold JMesh.buildParts2
  rw [hk, Option.bind_some, e]
  rfl

/-- **C118** (3D) building the tiles of a mesh made by MSTK with the INDEX partitioner, on one rank or several, with or without boundary
ghosts: the owned cells are divided among the tiles, ghosts belong to none, the halo of a tile is what can be reached in the given number of
layers, and its lists are complete -/
theorem tiles_of_mesh3 (j : JMesh) (r : MeshCache.Request) (h : j.Made3 r) (hp : j.m.Polygons) (hr : j.m.Regions)
    (layers numTiles : Nat) (hnt : 1 ≤ numTiles) :
    ∃ k M, j.buildTiles3 r layers numTiles = some (k, M) ∧ Types.cacheExtra (j.base3 r) = some k ∧
      TilesOk M r numTiles layers (j.m.cellIds3 j.bg) (fun c n => Has (j.cellNodes3 c) n) (fun c f => HasFst (j.cellGetFaces3 c) f)
        (fun c e => Has (j.cellGetEdges3 c) e) (WedgeOf k) (CornerOf k) := by
  obtain ⟨hl, hf, -⟩ := Partition.byIndexSpace_partition (j.m.cellIds3 j.bg).owned.length numTiles hnt
  obtain ⟨k, M, e, _, hk, ok⟩ := tiles_of_parts3 j r h hp hr layers numTiles hnt _ hl (by rw [hf])
  exact ⟨k, M, e, hk, ok⟩

/-- **C118** (2D and surface meshes, without boundary ghosts) -/
theorem tiles_of_mesh2 (j : JMesh) (r : MeshCache.Request) (h : j.Made2 r) (hp : j.m.Polygons) (hr : j.m.OrientedCells)
    (sdim layers numTiles : Nat) (hnt : 1 ≤ numTiles) :
    ∃ k M, j.buildTiles2 sdim r layers numTiles = some (k, M) ∧ Types.cacheExtra (j.base2 r) = some k ∧
      TilesOk M r numTiles layers (j.m.cellIds2 j.bg) (fun c n => Has (j.cellNodes2 c) n) (fun c f => HasFst (j.cellGetFaces2 c) f)
        (fun c e => Has (j.cellGetEdges2 sdim c) e) (WedgeOf k) (CornerOf k) := by
  obtain ⟨hl, hf, -⟩ := Partition.byIndexSpace_partition (j.m.cellIds2 j.bg).owned.length numTiles hnt
  obtain ⟨k, M, e, _, hk, ok⟩ := tiles_of_parts2 j r h hp hr sdim layers numTiles hnt _ hl (by rw [hf])
  exact ⟨k, M, e, hk, ok⟩

/-! ### the hypotheses are met -/

/-- rank 1, two tiles, one halo layer: the owned cell goes to the first tile, the second is empty (C16) -/
example : (rankMesh.buildTiles3 reqAll 1 2).map (fun x => x.2.cell) = some [0, -1] ∧
    (rankMesh.buildTiles3 reqAll 1 2).map (fun x => x.2.node) = some [0, 0, 0, 0, -1] ∧
    (rankMesh.buildTiles3 reqAll 1 2).map (fun x => x.2.tiles.map fun t => [t.cells.owned, t.cells.ghost, t.nodes.all]) =
      some [[[0], [1], [2, 3, 1, 0, 4]], [[], [], []]] := by decide +kernel

example : ∃ k M, rankMesh.buildTiles3 reqAll 1 2 = some (k, M) ∧ Once (fun i e => ∃ t, M.tiles[i]? = some t ∧ e ∈ t.cells.owned) M.masterOfCell 0 := by
  obtain ⟨k, M, h, _, ok⟩ := tiles_of_mesh3 rankMesh reqAll rankMesh_made.1 rank_polygons.2.1 rank_regions.2.1 1 2 (by decide)
  exact ⟨k, M, h, ok.cells 0 (by decide +kernel)⟩

/-- the boundary ghost can be in a halo but has no master tile -/
example : ∃ k M, sample3.buildTiles3 reqAll 1 1 = some (k, M) ∧ M.masterOfCell 1 = some (-1) := by
  obtain ⟨k, M, h, _, ok⟩ := tiles_of_mesh3 sample3 reqAll sample3_made sample3_ok.2 sample3_ok.1 1 1 (by decide)
  exact ⟨k, M, h, (ok.others 1 (by decide +kernel)).1⟩

example : ∃ k M, sample2.buildTiles2 2 reqAll 2 3 = some (k, M) ∧ M.tiles.length = 3 := by
  obtain ⟨k, M, h, _, ok⟩ := tiles_of_mesh2 sample2 reqAll sample2_made sample2_ok.1 sample2_ok.2 2 2 3 (by decide)
  exact ⟨k, M, h, ok.count⟩

end Jali.Mstk
