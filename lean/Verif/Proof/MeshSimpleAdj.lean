import Verif.Proof.MeshSimpleIndex
import Verif.Proof.Blocks
/-! What the arrays of the structured 3D mesh contain. -/
namespace Jali.Simple
open Spec

/-- all positions of a lattice in loop order -/
def triples (a b c : Nat) : List Pos := loop3 a b c fun i j k => [⟨i, j, k⟩]

theorem mem_triples {a b c : Nat} {p : Pos} : p ∈ triples a b c ↔ p.In a b c := by
  obtain ⟨i, j, k⟩ := p
  simp only [triples, mem_loop3, List.mem_singleton, Pos.mk.injEq, Pos.In]
  constructor
  · rintro ⟨_, _, _, h1, h2, h3, rfl, rfl, rfl⟩; exact ⟨h1, h2, h3⟩
  · rintro ⟨h1, h2, h3⟩; exact ⟨_, _, _, h1, h2, h3, rfl, rfl, rfl⟩

theorem flatMap_congr' {α β : Type} (l : List α) {f g : α → List β} (h : ∀ a, f a = g a) :
    l.flatMap f = l.flatMap g := by
  rw [funext h]

theorem loop3_eq {α : Type} (a b c : Nat) (body : Nat → Nat → Nat → List α) :
    loop3 a b c body = (triples a b c).flatMap fun p => body p.i p.j p.k := by
  simp only [loop3, triples, List.flatMap_assoc, List.flatMap_cons, List.flatMap_nil, List.append_nil]

theorem nodup_triples (a b c : Nat) : (triples a b c).Nodup := by
  simp only [triples, loop3]
  rw [List.nodup_flatMap]
  refine ⟨fun k _ => ?_, ?_⟩
  · rw [List.nodup_flatMap]
    refine ⟨fun j _ => ?_, ?_⟩
    · rw [List.nodup_flatMap]
      refine ⟨fun i _ => by simp, ?_⟩
      refine List.Pairwise.imp ?_ (List.nodup_range (n := a))
      intro x y hxy
      simp only [Function.onFun, List.disjoint_singleton, List.mem_singleton, Pos.mk.injEq]
      tauto
    · refine List.Pairwise.imp ?_ (List.nodup_range (n := b))
      intro x y hxy p hp hq
      simp only [List.mem_flatMap, List.mem_singleton] at hp hq
      obtain ⟨_, _, rfl⟩ := hp
      obtain ⟨_, _, h⟩ := hq
      simp only [Pos.mk.injEq] at h
      exact hxy h.2.1
  · refine List.Pairwise.imp ?_ (List.nodup_range (n := c))
    intro x y hxy p hp hq
    simp only [List.mem_flatMap, List.mem_singleton] at hp hq
    obtain ⟨_, _, _, _, rfl⟩ := hp
    obtain ⟨_, _, _, _, h⟩ := hq
    simp only [Pos.mk.injEq] at h
    exact hxy h.2.2

variable (d : Dims)

/-- all cells -/
abbrev cells : List Pos := triples d.nx d.ny d.nz

theorem cellToNodeWrites_eq : cellToNodeWrites d =
    (cells d).flatMap fun p => blockAt 8 (cellIdx d p) ((hexCorners p).map (nodeIdx d)) := by
  rw [cellToNodeWrites, loop3_eq]; rfl

theorem hexCorners_in {p q : Pos} (hp : CellIn d p) (hq : q ∈ hexCorners p) : NodeIn d q := by
  obtain ⟨h1, h2, h3⟩ := hp
  simp only [hexCorners, List.mem_cons, List.not_mem_nil, or_false] at hq
  rcases hq with rfl | rfl | rfl | rfl | rfl | rfl | rfl | rfl <;> refine ⟨?_, ?_, ?_⟩ <;>
    dsimp only <;> omega

theorem hexCorners_nodup (p : Pos) : (hexCorners p).Nodup := by
  simp [hexCorners]

theorem mem_hexCorners {p q : Pos} : q ∈ hexCorners p ↔
    (q.i = p.i ∨ q.i = p.i + 1) ∧ (q.j = p.j ∨ q.j = p.j + 1) ∧ (q.k = p.k ∨ q.k = p.k + 1) := by
  obtain ⟨i, j, k⟩ := p; obtain ⟨i', j', k'⟩ := q
  simp only [hexCorners, List.mem_cons, List.not_mem_nil, or_false, Pos.mk.injEq]
  constructor
  · rintro (h | h | h | h | h | h | h | h) <;> (obtain ⟨rfl, rfl, rfl⟩ := h; simp)
  · rintro ⟨rfl | rfl, rfl | rfl, rfl | rfl⟩ <;> simp

theorem cellGetNodes_eq {p : Pos} (hp : CellIn d p) :
    cellGetNodes d (cellIdx d p) = (hexCorners p).map (nodeIdx d) := by
  simp only [cellGetNodes, cellToNode, cellToNodeWrites_eq]
  exact read_block (cells d) (cellIdx d) (fun p => (hexCorners p).map (nodeIdx d)) 8
    (fun _ _ => rfl)
    (fun a ha b hb h => cellIdx_inj d (mem_triples.1 ha) (mem_triples.1 hb) h) _ p (mem_triples.2 hp)

theorem map_nodup_on {α β : Type} {l : List α} {f : α → β} (hl : l.Nodup)
    (hf : ∀ a ∈ l, ∀ b ∈ l, f a = f b → a = b) : (l.map f).Nodup :=
  List.Nodup.map_on (fun a ha b hb h => hf a ha b hb h) hl

theorem cornerIds_nodup {p : Pos} (hp : CellIn d p) : ((hexCorners p).map (nodeIdx d)).Nodup :=
  map_nodup_on (hexCorners_nodup p) fun _ ha _ hb h =>
    nodeIdx_inj d (hexCorners_in d hp ha) (hexCorners_in d hp hb) h

theorem mem_cornerIds {p q : Pos} (hp : CellIn d p) (hq : NodeIn d q) :
    nodeIdx d q ∈ (hexCorners p).map (nodeIdx d) ↔ q ∈ hexCorners p := by
  simp only [List.mem_map]
  constructor
  · rintro ⟨r, hr, h⟩
    rw [← nodeIdx_inj d (hexCorners_in d hp hr) hq h]; exact hr
  · intro h; exact ⟨q, h, rfl⟩

/-! ### nodes to cells -/

theorem nodeToCellOps_eq : nodeToCellOps d =
    (cells d).flatMap fun p =>
      ((hexCorners p).map (nodeIdx d)).map fun n => (n, cellIdx d p) := by
  rw [nodeToCellOps, loop3_eq]; rfl

theorem valsFor_nodeToCell (n : Nat) : valsFor (nodeToCellOps d) n =
    ((cells d).filter fun p => n ∈ (hexCorners p).map (nodeIdx d)).map (cellIdx d) := by
  rw [nodeToCellOps_eq]
  exact valsFor_items (cells d) (fun p => (hexCorners p).map (nodeIdx d)) (cellIdx d) n
    (fun p hp => cornerIds_nodup d (mem_triples.1 hp))

/-- cells around a node, candidates -/
def around (q : Pos) : List Pos :=
  [⟨q.i, q.j, q.k⟩, ⟨q.i - 1, q.j, q.k⟩, ⟨q.i, q.j - 1, q.k⟩, ⟨q.i - 1, q.j - 1, q.k⟩,
   ⟨q.i, q.j, q.k - 1⟩, ⟨q.i - 1, q.j, q.k - 1⟩, ⟨q.i, q.j - 1, q.k - 1⟩, ⟨q.i - 1, q.j - 1, q.k - 1⟩]

theorem mem_around {p q : Pos} (h : q ∈ hexCorners p) : p ∈ around q := by
  rw [mem_hexCorners] at h
  obtain ⟨i, j, k⟩ := p; obtain ⟨i', j', k'⟩ := q
  simp only at h
  obtain ⟨rfl | rfl, rfl | rfl, rfl | rfl⟩ := h <;> simp [around]

theorem nodeToCell_count (n : Nat) : (valsFor (nodeToCellOps d) n).length ≤ 8 := by
  rw [valsFor_nodeToCell, List.length_map]
  by_cases hn : n < numNodes d
  · obtain ⟨q, hq, rfl⟩ := nodeIdx_surj d hn
    have : ((cells d).filter fun p => nodeIdx d q ∈ (hexCorners p).map (nodeIdx d)) ⊆ around q := by
      intro p hp
      simp only [List.mem_filter, decide_eq_true_eq] at hp
      exact mem_around ((mem_cornerIds d (mem_triples.1 hp.1) hq).1 hp.2)
    exact length_le_of_nodup_subset ((nodup_triples _ _ _).filter _) this
  · rw [List.filter_eq_nil_iff.2]
    · simp
    · intro p hp h
      simp only [decide_eq_true_eq, List.mem_map] at h
      obtain ⟨r, hr, rfl⟩ := h
      exact hn (nodeIdx_lt d (hexCorners_in d (mem_triples.1 hp) hr))

theorem nodeGetCells_eq (n : Nat) : nodeGetCells d n =
    ((cells d).filter fun p => n ∈ (hexCorners p).map (nodeIdx d)).map (cellIdx d) := by
  rw [nodeGetCells, nodeToCell, slotRead_runAppends, valsFor_nodeToCell]
  intro k; have := nodeToCell_count d k; omega

theorem mem_nodeGetCells {q p : Pos} (hq : NodeIn d q) (hp : CellIn d p) :
    cellIdx d p ∈ nodeGetCells d (nodeIdx d q) ↔ q ∈ hexCorners p := by
  rw [nodeGetCells_eq]
  simp only [List.mem_map, List.mem_filter, decide_eq_true_eq]
  constructor
  · rintro ⟨r, ⟨hr, n, hn, e⟩, h⟩
    have := cellIdx_inj d (mem_triples.1 hr) hp h
    subst this
    rw [← nodeIdx_inj d (hexCorners_in d hp hn) hq e]; exact hn
  · intro h; exact ⟨p, ⟨mem_triples.2 hp, q, h, rfl⟩, rfl⟩

theorem nodeGetCells_nodup (n : Nat) : (nodeGetCells d n).Nodup := by
  rw [nodeGetCells_eq]
  refine map_nodup_on ((nodup_triples _ _ _).filter _) ?_
  intro a ha b hb h
  simp only [List.mem_filter] at ha hb
  exact cellIdx_inj d (mem_triples.1 ha.1) (mem_triples.1 hb.1) h

theorem nodeGetCells_valid {n c : Nat} (h : c ∈ nodeGetCells d n) : c < numCells d := by
  rw [nodeGetCells_eq] at h
  simp only [List.mem_map, List.mem_filter] at h
  obtain ⟨p, ⟨hp, _⟩, rfl⟩ := h
  exact cellIdx_lt d (mem_triples.1 hp)

/-! ### cells to faces -/

/-- faces of a cell in the order of the code -/
def cellFaces (p : Pos) : List FacePos :=
  [⟨.xz, ⟨p.i, p.j, p.k⟩⟩, ⟨.yz, ⟨p.i + 1, p.j, p.k⟩⟩, ⟨.xz, ⟨p.i, p.j + 1, p.k⟩⟩,
   ⟨.yz, ⟨p.i, p.j, p.k⟩⟩, ⟨.xy, ⟨p.i, p.j, p.k⟩⟩, ⟨.xy, ⟨p.i, p.j, p.k + 1⟩⟩]

def dirs : List Int := [1, 1, -1, -1, -1, 1]

theorem cellFaces_in {p : Pos} {f : FacePos} (hp : CellIn d p) (hf : f ∈ cellFaces p) : FaceIn d f := by
  obtain ⟨h1, h2, h3⟩ := hp
  simp only [cellFaces, List.mem_cons, List.not_mem_nil, or_false] at hf
  rcases hf with rfl | rfl | rfl | rfl | rfl | rfl <;> refine ⟨?_, ?_, ?_⟩ <;>
    dsimp only <;> omega

theorem cellFaces_nodup (p : Pos) : (cellFaces p).Nodup := by simp [cellFaces]

theorem cellGetFaces_eq {p : Pos} (hp : CellIn d p) :
    cellGetFaces d (cellIdx d p) = (cellFaces p).map (faceIdx d) := by
  have e : cellToFaceWrites d =
      (cells d).flatMap fun p => blockAt 6 (cellIdx d p) ((cellFaces p).map (faceIdx d)) := by
    rw [cellToFaceWrites, loop3_eq]; rfl
  simp only [cellGetFaces, cellToFace, e]
  exact read_block (cells d) (cellIdx d) (fun p => (cellFaces p).map (faceIdx d)) 6
    (fun _ _ => rfl)
    (fun a ha b hb h => cellIdx_inj d (mem_triples.1 ha) (mem_triples.1 hb) h) _ p (mem_triples.2 hp)

theorem cellGetFaceDirs_eq {p : Pos} (hp : CellIn d p) :
    cellGetFaceDirs d (cellIdx d p) = dirs := by
  have e : cellToFaceDirsWrites d =
      (cells d).flatMap fun p => blockAt 6 (cellIdx d p) dirs := by
    rw [cellToFaceDirsWrites, loop3_eq]; rfl
  simp only [cellGetFaceDirs, cellToFaceDirs, e]
  exact read_block (cells d) (cellIdx d) (fun _ => dirs) 6
    (fun _ _ => rfl)
    (fun a ha b hb h => cellIdx_inj d (mem_triples.1 ha) (mem_triples.1 hb) h) _ p (mem_triples.2 hp)

theorem faceIds_nodup {p : Pos} (hp : CellIn d p) : ((cellFaces p).map (faceIdx d)).Nodup :=
  map_nodup_on (cellFaces_nodup p) fun _ ha _ hb h =>
    faceIdx_inj d (cellFaces_in d hp ha) (cellFaces_in d hp hb) h

theorem mem_cellGetFaces {p : Pos} {f : FacePos} (hp : CellIn d p) (hf : FaceIn d f) :
    faceIdx d f ∈ cellGetFaces d (cellIdx d p) ↔ f ∈ cellFaces p := by
  rw [cellGetFaces_eq d hp]
  simp only [List.mem_map]
  constructor
  · rintro ⟨r, hr, h⟩
    rw [← faceIdx_inj d (cellFaces_in d hp hr) hf h]; exact hr
  · intro h; exact ⟨f, h, rfl⟩

/-! ### faces to cells -/

/-- cell on side `sl` of a face -/
def faceCellAt (f : FacePos) (sl : Nat) : Option Pos :=
  let ⟨o, ⟨i, j, k⟩⟩ := f
  match o, sl with
  | .xy, 0 => if k < d.nz then some ⟨i, j, k⟩ else none
  | .xy, _ => if 0 < k then some ⟨i, j, k - 1⟩ else none
  | .xz, 0 => if 0 < j then some ⟨i, j - 1, k⟩ else none
  | .xz, _ => if j < d.ny then some ⟨i, j, k⟩ else none
  | .yz, 0 => if i < d.nx then some ⟨i, j, k⟩ else none
  | .yz, _ => if 0 < i then some ⟨i - 1, j, k⟩ else none

theorem mem_faceToCellWrites {a : Nat} {x : Int} : (a, x) ∈ faceToCellWrites d ↔
    ∃ f, FaceIn d f ∧ ∃ sl, sl < 2 ∧ a = 2 * faceIdx d f + sl ∧
      ∃ p, faceCellAt d f sl = some p ∧ CellIn d p ∧ x = (cellIdx d p : Int) := by
  simp only [faceToCellWrites, mem_loop3, List.mem_cons, List.not_mem_nil, or_false, Prod.mk.injEq]
  constructor
  · rintro ⟨i, j, k, hi, hj, hk, h⟩
    rcases h with ⟨rfl, rfl⟩ | ⟨rfl, rfl⟩ | ⟨rfl, rfl⟩ | ⟨rfl, rfl⟩ | ⟨rfl, rfl⟩ | ⟨rfl, rfl⟩
    · exact ⟨⟨.xz, ⟨i, j, k⟩⟩, ⟨hi, by dsimp only; omega, hk⟩, 1, by omega, rfl, ⟨i, j, k⟩,
        by simp [faceCellAt, hj], ⟨hi, hj, hk⟩, rfl⟩
    · exact ⟨⟨.yz, ⟨i + 1, j, k⟩⟩, ⟨by dsimp only; omega, hj, hk⟩, 1, by omega, rfl, ⟨i, j, k⟩,
        by simp [faceCellAt], ⟨hi, hj, hk⟩, rfl⟩
    · exact ⟨⟨.xz, ⟨i, j + 1, k⟩⟩, ⟨hi, by dsimp only; omega, hk⟩, 0, by omega, rfl, ⟨i, j, k⟩,
        by simp [faceCellAt], ⟨hi, hj, hk⟩, rfl⟩
    · exact ⟨⟨.yz, ⟨i, j, k⟩⟩, ⟨by dsimp only; omega, hj, hk⟩, 0, by omega, rfl, ⟨i, j, k⟩,
        by simp [faceCellAt, hi], ⟨hi, hj, hk⟩, rfl⟩
    · exact ⟨⟨.xy, ⟨i, j, k⟩⟩, ⟨hi, hj, by dsimp only; omega⟩, 0, by omega, rfl, ⟨i, j, k⟩,
        by simp [faceCellAt, hk], ⟨hi, hj, hk⟩, rfl⟩
    · exact ⟨⟨.xy, ⟨i, j, k + 1⟩⟩, ⟨hi, hj, by dsimp only; omega⟩, 1, by omega, rfl, ⟨i, j, k⟩,
        by simp [faceCellAt], ⟨hi, hj, hk⟩, rfl⟩
  · rintro ⟨⟨o, ⟨i, j, k⟩⟩, hf, sl, hsl, rfl, p, hp, ⟨h1, h2, h3⟩, rfl⟩
    have hsl : sl = 0 ∨ sl = 1 := by omega
    cases o <;> rcases hsl with rfl | rfl <;> simp only [faceCellAt] at hp <;> split at hp <;>
      simp only [Option.some.injEq, reduceCtorEq] at hp
    all_goals subst hp
    · exact ⟨i, j, k, h1, h2, h3, by right; right; right; right; left; exact ⟨rfl, rfl⟩⟩
    · refine ⟨i, j, k - 1, h1, h2, h3, ?_⟩
      obtain ⟨m, rfl⟩ : ∃ m, k = m + 1 := ⟨k - 1, by omega⟩
      right; right; right; right; right; exact ⟨rfl, rfl⟩
    · refine ⟨i, j - 1, k, h1, h2, h3, ?_⟩
      obtain ⟨m, rfl⟩ : ∃ m, j = m + 1 := ⟨j - 1, by omega⟩
      right; right; left; exact ⟨rfl, rfl⟩
    · exact ⟨i, j, k, h1, h2, h3, by left; exact ⟨rfl, rfl⟩⟩
    · exact ⟨i, j, k, h1, h2, h3, by right; right; right; left; exact ⟨rfl, rfl⟩⟩
    · refine ⟨i - 1, j, k, h1, h2, h3, ?_⟩
      obtain ⟨m, rfl⟩ : ∃ m, i = m + 1 := ⟨i - 1, by omega⟩
      right; left; exact ⟨rfl, rfl⟩

theorem faceCellAt_in {f : FacePos} {sl : Nat} {p : Pos} (hf : FaceIn d f)
    (h : faceCellAt d f sl = some p) : CellIn d p := by
  obtain ⟨o, ⟨i, j, k⟩⟩ := f
  cases o
  · obtain ⟨h1, h2, h3⟩ : Pos.In ⟨i, j, k⟩ d.nx d.ny (d.nz + 1) := hf
    simp only at h1 h2 h3
    rcases sl with _ | sl <;>
      simp only [faceCellAt, Option.ite_none_right_eq_some, Option.some.injEq] at h <;>
      obtain ⟨h4, rfl⟩ := h <;>
      exact ⟨by dsimp only; omega, by dsimp only; omega, by dsimp only; omega⟩
  · obtain ⟨h1, h2, h3⟩ : Pos.In ⟨i, j, k⟩ d.nx (d.ny + 1) d.nz := hf
    simp only at h1 h2 h3
    rcases sl with _ | sl <;>
      simp only [faceCellAt, Option.ite_none_right_eq_some, Option.some.injEq] at h <;>
      obtain ⟨h4, rfl⟩ := h <;>
      exact ⟨by dsimp only; omega, by dsimp only; omega, by dsimp only; omega⟩
  · obtain ⟨h1, h2, h3⟩ : Pos.In ⟨i, j, k⟩ (d.nx + 1) d.ny d.nz := hf
    simp only at h1 h2 h3
    rcases sl with _ | sl <;>
      simp only [faceCellAt, Option.ite_none_right_eq_some, Option.some.injEq] at h <;>
      obtain ⟨h4, rfl⟩ := h <;>
      exact ⟨by dsimp only; omega, by dsimp only; omega, by dsimp only; omega⟩

theorem faceToCell_functional : Functional (faceToCellWrites d) := by
  intro a x y hx hy
  rw [mem_faceToCellWrites] at hx hy
  obtain ⟨f, hf, sl, hsl, rfl, p, hp, _, rfl⟩ := hx
  obtain ⟨f', hf', sl', hsl', e, p', hp', _, rfl⟩ := hy
  obtain ⟨h1, rfl⟩ := stride_inj hsl hsl' e
  have := faceIdx_inj d hf hf' h1
  subst this
  rw [hp] at hp'; cases hp'; rfl

theorem faceToCell_eq {f : FacePos} (hf : FaceIn d f) {sl : Nat} (hsl : sl < 2) :
    faceToCell d (2 * faceIdx d f + sl) =
      match faceCellAt d f sl with
      | some p => (cellIdx d p : Int)
      | none => -1 := by
  unfold faceToCell
  cases h : faceCellAt d f sl with
  | some p =>
    apply runWrites_mem _ (faceToCell_functional d)
    rw [mem_faceToCellWrites]
    exact ⟨f, hf, sl, hsl, rfl, p, h, faceCellAt_in d hf h, rfl⟩
  | none =>
    apply runWrites_not_mem
    intro x hx
    rw [mem_faceToCellWrites] at hx
    obtain ⟨f', hf', sl', hsl', e, p', hp', _, _⟩ := hx
    obtain ⟨h1, rfl⟩ := stride_inj hsl hsl' e
    have := faceIdx_inj d hf hf' h1
    subst this
    rw [h] at hp'; cases hp'

theorem faceGetCells_eq {f : FacePos} (hf : FaceIn d f) : faceGetCells d (faceIdx d f) =
    ((faceCellAt d f 0).toList ++ (faceCellAt d f 1).toList).map fun p => (cellIdx d p : Int) := by
  have h0 := faceToCell_eq d hf (sl := 0) (by omega)
  have h1 := faceToCell_eq d hf (sl := 1) (by omega)
  rw [Nat.add_zero] at h0
  simp only [faceGetCells, h0, h1]
  cases faceCellAt d f 0 <;> cases faceCellAt d f 1 <;> simp

theorem mem_cells_iff {p : Pos} {f : FacePos} (hp : CellIn d p) (hf : FaceIn d f) :
    p ∈ (faceCellAt d f 0).toList ++ (faceCellAt d f 1).toList ↔ f ∈ cellFaces p := by
  obtain ⟨o, ⟨i, j, k⟩⟩ := f
  obtain ⟨i', j', k'⟩ := p
  obtain ⟨a1, a2, a3⟩ := hp
  simp only at a1 a2 a3
  cases o
  · obtain ⟨h1, h2, h3⟩ : Pos.In ⟨i, j, k⟩ d.nx d.ny (d.nz + 1) := hf
    simp only at h1 h2 h3
    simp only [faceCellAt, cellFaces]
    split <;> split <;> simp <;> omega
  · obtain ⟨h1, h2, h3⟩ : Pos.In ⟨i, j, k⟩ d.nx (d.ny + 1) d.nz := hf
    simp only at h1 h2 h3
    simp only [faceCellAt, cellFaces]
    split <;> split <;> simp <;> omega
  · obtain ⟨h1, h2, h3⟩ : Pos.In ⟨i, j, k⟩ (d.nx + 1) d.ny d.nz := hf
    simp only at h1 h2 h3
    simp only [faceCellAt, cellFaces]
    split <;> split <;> simp <;> omega

/-! ### faces to nodes -/

/-- corners of a face in the order of the code -/
def faceCorners (f : FacePos) : List Pos :=
  let ⟨o, ⟨i, j, k⟩⟩ := f
  match o with
  | .xy => [⟨i, j, k⟩, ⟨i + 1, j, k⟩, ⟨i + 1, j + 1, k⟩, ⟨i, j + 1, k⟩]
  | .xz => [⟨i, j, k⟩, ⟨i + 1, j, k⟩, ⟨i + 1, j, k + 1⟩, ⟨i, j, k + 1⟩]
  | .yz => [⟨i, j, k⟩, ⟨i, j + 1, k⟩, ⟨i, j + 1, k + 1⟩, ⟨i, j, k + 1⟩]

theorem mem_faceCorners {f : FacePos} {q : Pos} : q ∈ faceCorners f ↔ IsFaceCorner f q := by
  obtain ⟨o, ⟨i, j, k⟩⟩ := f; obtain ⟨i', j', k'⟩ := q
  cases o <;> simp only [faceCorners, IsFaceCorner, List.mem_cons, List.not_mem_nil, or_false,
    Pos.mk.injEq] <;> omega

theorem faceCorners_nodup (f : FacePos) : (faceCorners f).Nodup := by
  obtain ⟨o, ⟨i, j, k⟩⟩ := f
  cases o <;> simp [faceCorners]

theorem faceCorners_in {f : FacePos} {q : Pos} (hf : FaceIn d f) (hq : q ∈ faceCorners f) :
    NodeIn d q := by
  obtain ⟨o, ⟨i, j, k⟩⟩ := f; obtain ⟨i', j', k'⟩ := q
  rw [mem_faceCorners] at hq
  simp only [IsFaceCorner] at hq
  cases o
  · obtain ⟨h1, h2, h3⟩ : Pos.In ⟨i, j, k⟩ d.nx d.ny (d.nz + 1) := hf
    simp only at h1 h2 h3 hq
    refine ⟨?_, ?_, ?_⟩ <;> dsimp only <;> omega
  · obtain ⟨h1, h2, h3⟩ : Pos.In ⟨i, j, k⟩ d.nx (d.ny + 1) d.nz := hf
    simp only at h1 h2 h3 hq
    refine ⟨?_, ?_, ?_⟩ <;> dsimp only <;> omega
  · obtain ⟨h1, h2, h3⟩ : Pos.In ⟨i, j, k⟩ (d.nx + 1) d.ny d.nz := hf
    simp only at h1 h2 h3 hq
    refine ⟨?_, ?_, ?_⟩ <;> dsimp only <;> omega

/-- all faces in loop order -/
def faces : List FacePos :=
  ((triples d.nx d.ny (d.nz + 1)).map fun p => ⟨.xy, p⟩) ++
  ((triples d.nx (d.ny + 1) d.nz).map fun p => ⟨.xz, p⟩) ++
  ((triples (d.nx + 1) d.ny d.nz).map fun p => ⟨.yz, p⟩)

theorem mem_faces {f : FacePos} : f ∈ faces d ↔ FaceIn d f := by
  obtain ⟨o, p⟩ := f
  simp only [faces, List.mem_append, List.mem_map, mem_triples, FaceIn, FacePos.In,
    FacePos.mk.injEq]
  cases o <;> simp

theorem nodup_faces : (faces d).Nodup := by
  simp only [faces]
  rw [List.nodup_append, List.nodup_append]
  refine ⟨⟨?_, ?_, ?_⟩, ?_, ?_⟩
  · exact map_nodup_on (nodup_triples _ _ _) (by simp)
  · exact map_nodup_on (nodup_triples _ _ _) (by simp)
  · intro a ha b hb; simp only [List.mem_map] at ha hb
    obtain ⟨_, _, rfl⟩ := ha; obtain ⟨_, _, rfl⟩ := hb; simp
  · exact map_nodup_on (nodup_triples _ _ _) (by simp)
  · intro a ha b hb; simp only [List.mem_map, List.mem_append] at ha hb
    obtain ⟨_, _, rfl⟩ := hb
    rcases ha with ⟨_, _, rfl⟩ | ⟨_, _, rfl⟩ <;> simp

theorem faceToNodeWrites_eq : faceToNodeWrites d =
    (faces d).flatMap fun f => blockAt 4 (faceIdx d f) ((faceCorners f).map (nodeIdx d)) := by
  simp only [faceToNodeWrites, loop3_eq, faces, List.flatMap_append, List.flatMap_map]
  rfl

theorem faceGetNodes_eq {f : FacePos} (hf : FaceIn d f) :
    faceGetNodes d (faceIdx d f) = (faceCorners f).map (nodeIdx d) := by
  simp only [faceGetNodes, faceToNode, faceToNodeWrites_eq]
  exact read_block (faces d) (faceIdx d) (fun p => (faceCorners p).map (nodeIdx d)) 4
    (fun f _ => by obtain ⟨o, p⟩ := f; cases o <;> rfl)
    (fun a ha b hb h => faceIdx_inj d ((mem_faces d).1 ha) ((mem_faces d).1 hb) h) _ f
    ((mem_faces d).2 hf)

theorem faceCornerIds_nodup {f : FacePos} (hf : FaceIn d f) :
    ((faceCorners f).map (nodeIdx d)).Nodup :=
  map_nodup_on (faceCorners_nodup f) fun _ ha _ hb h =>
    nodeIdx_inj d (faceCorners_in d hf ha) (faceCorners_in d hf hb) h

theorem mem_faceCornerIds {f : FacePos} {q : Pos} (hf : FaceIn d f) (hq : NodeIn d q) :
    nodeIdx d q ∈ (faceCorners f).map (nodeIdx d) ↔ q ∈ faceCorners f := by
  simp only [List.mem_map]
  constructor
  · rintro ⟨r, hr, h⟩
    rw [← nodeIdx_inj d (faceCorners_in d hf hr) hq h]; exact hr
  · intro h; exact ⟨q, h, rfl⟩

/-! ### nodes to faces -/

/-- the value the code stores for a face in `node_to_face_` -/
def storedFace (f : FacePos) : Nat := xyFaceIndex d f.p.i f.p.j f.p.k

theorem nodeToFaceOps_eq : nodeToFaceOps d =
    (faces d).flatMap fun f =>
      ((faceCorners f).map (nodeIdx d)).map fun n => (n, storedFace d f) := by
  simp only [nodeToFaceOps, loop3_eq, faces, List.flatMap_append, List.flatMap_map]
  rfl

theorem valsFor_nodeToFace (n : Nat) : valsFor (nodeToFaceOps d) n =
    ((faces d).filter fun f => n ∈ (faceCorners f).map (nodeIdx d)).map (storedFace d) := by
  rw [nodeToFaceOps_eq]
  exact valsFor_items (faces d) (fun p => (faceCorners p).map (nodeIdx d)) (storedFace d) n
    (fun p hp => faceCornerIds_nodup d ((mem_faces d).1 hp))

/-- faces around a node, candidates -/
def facesAround (q : Pos) : List FacePos :=
  [⟨.xy, ⟨q.i, q.j, q.k⟩⟩, ⟨.xy, ⟨q.i - 1, q.j, q.k⟩⟩, ⟨.xy, ⟨q.i, q.j - 1, q.k⟩⟩,
   ⟨.xy, ⟨q.i - 1, q.j - 1, q.k⟩⟩,
   ⟨.xz, ⟨q.i, q.j, q.k⟩⟩, ⟨.xz, ⟨q.i - 1, q.j, q.k⟩⟩, ⟨.xz, ⟨q.i, q.j, q.k - 1⟩⟩,
   ⟨.xz, ⟨q.i - 1, q.j, q.k - 1⟩⟩,
   ⟨.yz, ⟨q.i, q.j, q.k⟩⟩, ⟨.yz, ⟨q.i, q.j - 1, q.k⟩⟩, ⟨.yz, ⟨q.i, q.j, q.k - 1⟩⟩,
   ⟨.yz, ⟨q.i, q.j - 1, q.k - 1⟩⟩]

theorem mem_facesAround {f : FacePos} {q : Pos} (h : q ∈ faceCorners f) : f ∈ facesAround q := by
  rw [mem_faceCorners] at h
  obtain ⟨o, ⟨i, j, k⟩⟩ := f; obtain ⟨i', j', k'⟩ := q
  cases o <;> simp only [IsFaceCorner] at h
  · obtain ⟨rfl | rfl, rfl | rfl, rfl⟩ := h <;> simp [facesAround]
  · obtain ⟨rfl | rfl, rfl, rfl | rfl⟩ := h <;> simp [facesAround]
  · obtain ⟨rfl, rfl | rfl, rfl | rfl⟩ := h <;> simp [facesAround]

theorem nodeToFace_count (n : Nat) : (valsFor (nodeToFaceOps d) n).length ≤ 12 := by
  rw [valsFor_nodeToFace, List.length_map]
  by_cases hn : n < numNodes d
  · obtain ⟨q, hq, rfl⟩ := nodeIdx_surj d hn
    have : ((faces d).filter fun p => nodeIdx d q ∈ (faceCorners p).map (nodeIdx d)) ⊆
        facesAround q := by
      intro p hp
      simp only [List.mem_filter, decide_eq_true_eq] at hp
      exact mem_facesAround ((mem_faceCornerIds d ((mem_faces d).1 hp.1) hq).1 hp.2)
    exact length_le_of_nodup_subset ((nodup_faces d).filter _) this
  · rw [List.filter_eq_nil_iff.2]
    · simp
    · intro p hp h
      simp only [decide_eq_true_eq, List.mem_map] at h
      obtain ⟨r, hr, rfl⟩ := h
      exact hn (nodeIdx_lt d (faceCorners_in d ((mem_faces d).1 hp) hr))

theorem nodeGetFaces_eq (n : Nat) : nodeGetFaces d n =
    ((faces d).filter fun f => n ∈ (faceCorners f).map (nodeIdx d)).map (storedFace d) := by
  rw [nodeGetFaces, nodeToFace, slotRead_runAppends, valsFor_nodeToFace]
  intro k; have := nodeToFace_count d k; omega

end Jali.Simple
