import Verif.Proof.MeshSimpleAdj
import Mathlib.Tactic.Positivity
import Mathlib.Algebra.Order.Field.Rat
import Mathlib.Tactic.FieldSimp
/-! Neighbour queries, coordinates, storage bounds of the structured 3D mesh. -/
namespace Jali.Simple
open Spec

variable (d : Dims)

/-! ### face neighbours -/

/-- neighbours through the faces in order -/
def nbrs (p : Pos) : List Pos :=
  (if 0 < p.j then [⟨p.i, p.j - 1, p.k⟩] else []) ++
  (if p.i + 1 < d.nx then [⟨p.i + 1, p.j, p.k⟩] else []) ++
  (if p.j + 1 < d.ny then [⟨p.i, p.j + 1, p.k⟩] else []) ++
  (if 0 < p.i then [⟨p.i - 1, p.j, p.k⟩] else []) ++
  (if 0 < p.k then [⟨p.i, p.j, p.k - 1⟩] else []) ++
  (if p.k + 1 < d.nz then [⟨p.i, p.j, p.k + 1⟩] else [])

/-- one step of the loop -/
def adjStep (c f : Nat) : List Int :=
    if faceToCell d (2 * f) ≠ -1 ∧ faceToCell d (2 * f) ≠ (c : Int) then [faceToCell d (2 * f)]
    else if faceToCell d (2 * f + 1) ≠ -1 ∧ faceToCell d (2 * f + 1) ≠ (c : Int) then
      [faceToCell d (2 * f + 1)]
    else []

theorem cellGetFaceAdjCells_steps (c : Nat) :
    cellGetFaceAdjCells d c = (cellGetFaces d c).flatMap (adjStep d c) := by
  simp only [cellGetFaceAdjCells, cellGetFaces, List.flatMap_map]
  rfl

theorem adjStep_eq {p : Pos} {f : FacePos} (hp : CellIn d p) (hf : FaceIn d f) :
    adjStep d (cellIdx d p) (faceIdx d f) =
      (((faceCellAt d f 0).toList.filter (· ≠ p) ++ (faceCellAt d f 1).toList.filter (· ≠ p)).take 1).map
        fun q => (cellIdx d q : Int) := by
  have h0 := faceToCell_eq d hf (sl := 0) (by omega)
  have h1 := faceToCell_eq d hf (sl := 1) (by omega)
  rw [Nat.add_zero] at h0
  have key : ∀ q, CellIn d q → ((cellIdx d q : Int) = (cellIdx d p : Int) ↔ q = p) := by
    intro q hq
    constructor
    · intro h; exact cellIdx_inj d hq hp (by exact_mod_cast h)
    · rintro rfl; rfl
  simp only [adjStep, h0, h1]
  cases e0 : faceCellAt d f 0 with
  | none =>
    cases e1 : faceCellAt d f 1 with
    | none => simp
    | some q =>
      have := key q (faceCellAt_in d hf e1)
      by_cases hq : q = p
      · simp [hq]
      · have h2 := this.not.2 hq; simp [hq]; omega
  | some r =>
    have kr := key r (faceCellAt_in d hf e0)
    by_cases hr : r = p
    · cases e1 : faceCellAt d f 1 with
      | none => simp [hr]
      | some q =>
        have := key q (faceCellAt_in d hf e1)
        by_cases hq : q = p
        · simp [hr, hq]
        · have h2 := this.not.2 hq; simp [hr, hq]; omega
    · have h2 := kr.not.2 hr; simp [hr]; omega

theorem cellGetFaceAdjCells_eq {p : Pos} (hp : CellIn d p) :
    cellGetFaceAdjCells d (cellIdx d p) = (nbrs d p).map fun q => (cellIdx d q : Int) := by
  rw [cellGetFaceAdjCells_steps, cellGetFaces_eq d hp, List.flatMap_map]
  have hin : ∀ f ∈ cellFaces p, FaceIn d f := fun f hf => cellFaces_in d hp hf
  obtain ⟨i, j, k⟩ := p
  obtain ⟨h1, h2, h3⟩ := hp
  simp only at h1 h2 h3
  simp only [cellFaces, List.forall_mem_cons] at hin
  obtain ⟨f1, f2, f3, f4, f5, f6, -⟩ := hin
  have hp : CellIn d ⟨i, j, k⟩ := ⟨h1, h2, h3⟩
  simp only [cellFaces, List.flatMap_cons, List.flatMap_nil, adjStep_eq d hp f1, adjStep_eq d hp f2,
    adjStep_eq d hp f3, adjStep_eq d hp f4, adjStep_eq d hp f5, adjStep_eq d hp f6, nbrs, List.map_append,
    List.append_nil]
  have e1 : (((faceCellAt d ⟨.xz, ⟨i, j, k⟩⟩ 0).toList.filter (· ≠ ⟨i, j, k⟩) ++
      (faceCellAt d ⟨.xz, ⟨i, j, k⟩⟩ 1).toList.filter (· ≠ ⟨i, j, k⟩)).take 1) =
      (if 0 < j then [⟨i, j - 1, k⟩] else []) := by
    simp only [faceCellAt, h2, if_true]
    by_cases h : 0 < j
    · have : ¬ (j - 1 = j) := by omega
      simp [h, this]
    · simp [h]
  have e2 : (((faceCellAt d ⟨.yz, ⟨i + 1, j, k⟩⟩ 0).toList.filter (· ≠ ⟨i, j, k⟩) ++
      (faceCellAt d ⟨.yz, ⟨i + 1, j, k⟩⟩ 1).toList.filter (· ≠ ⟨i, j, k⟩)).take 1) =
      (if i + 1 < d.nx then [⟨i + 1, j, k⟩] else []) := by
    simp only [faceCellAt]
    by_cases h : i + 1 < d.nx
    · simp [h]
    · simp [h]
  have e3 : (((faceCellAt d ⟨.xz, ⟨i, j + 1, k⟩⟩ 0).toList.filter (· ≠ ⟨i, j, k⟩) ++
      (faceCellAt d ⟨.xz, ⟨i, j + 1, k⟩⟩ 1).toList.filter (· ≠ ⟨i, j, k⟩)).take 1) =
      (if j + 1 < d.ny then [⟨i, j + 1, k⟩] else []) := by
    simp only [faceCellAt]
    by_cases h : j + 1 < d.ny
    · simp [h]
    · simp [h]
  have e4 : (((faceCellAt d ⟨.yz, ⟨i, j, k⟩⟩ 0).toList.filter (· ≠ ⟨i, j, k⟩) ++
      (faceCellAt d ⟨.yz, ⟨i, j, k⟩⟩ 1).toList.filter (· ≠ ⟨i, j, k⟩)).take 1) =
      (if 0 < i then [⟨i - 1, j, k⟩] else []) := by
    simp only [faceCellAt, h1, if_true]
    by_cases h : 0 < i
    · have : ¬ (i - 1 = i) := by omega
      simp [h, this]
    · simp [h]
  have e5 : (((faceCellAt d ⟨.xy, ⟨i, j, k⟩⟩ 0).toList.filter (· ≠ ⟨i, j, k⟩) ++
      (faceCellAt d ⟨.xy, ⟨i, j, k⟩⟩ 1).toList.filter (· ≠ ⟨i, j, k⟩)).take 1) =
      (if 0 < k then [⟨i, j, k - 1⟩] else []) := by
    simp only [faceCellAt, h3, if_true]
    by_cases h : 0 < k
    · have : ¬ (k - 1 = k) := by omega
      simp [h, this]
    · simp [h]
  have e6 : (((faceCellAt d ⟨.xy, ⟨i, j, k + 1⟩⟩ 0).toList.filter (· ≠ ⟨i, j, k⟩) ++
      (faceCellAt d ⟨.xy, ⟨i, j, k + 1⟩⟩ 1).toList.filter (· ≠ ⟨i, j, k⟩)).take 1) =
      (if k + 1 < d.nz then [⟨i, j, k + 1⟩] else []) := by
    simp only [faceCellAt]
    by_cases h : k + 1 < d.nz
    · simp [h]
    · simp [h]
  rw [e1, e2, e3, e4, e5, e6]
  simp only [List.append_assoc]

theorem mem_nbrs {p q : Pos} (hp : CellIn d p) : q ∈ nbrs d p ↔
    CellIn d q ∧ q ≠ p ∧ ∃ f, f ∈ cellFaces p ∧ f ∈ cellFaces q := by
  obtain ⟨i, j, k⟩ := p
  obtain ⟨i', j', k'⟩ := q
  obtain ⟨h1, h2, h3⟩ := hp
  simp only at h1 h2 h3
  have mem_ite : ∀ (c : Prop) [Decidable c] (x y : Pos), x ∈ (if c then [y] else []) ↔ c ∧ x = y := by
    intro c _ x y; split <;> simp [*]
  simp only [nbrs, List.mem_append, mem_ite, Pos.mk.injEq, CellIn, Pos.In, ne_eq]
  constructor
  · rintro (((((⟨h, rfl, rfl, rfl⟩ | ⟨h, rfl, rfl, rfl⟩) | ⟨h, rfl, rfl, rfl⟩) | ⟨h, rfl, rfl, rfl⟩) |
      ⟨h, rfl, rfl, rfl⟩) | ⟨h, rfl, rfl, rfl⟩)
    · refine ⟨by omega, by omega, ⟨.xz, ⟨i', j, k'⟩⟩, by simp [cellFaces], ?_⟩
      have : j = j - 1 + 1 := by omega
      simp [cellFaces, ← this]
    · exact ⟨by omega, by omega, ⟨.yz, ⟨i + 1, j', k'⟩⟩, by simp [cellFaces], by simp [cellFaces]⟩
    · exact ⟨by omega, by omega, ⟨.xz, ⟨i', j + 1, k'⟩⟩, by simp [cellFaces], by simp [cellFaces]⟩
    · refine ⟨by omega, by omega, ⟨.yz, ⟨i, j', k'⟩⟩, by simp [cellFaces], ?_⟩
      have : i = i - 1 + 1 := by omega
      simp [cellFaces, ← this]
    · refine ⟨by omega, by omega, ⟨.xy, ⟨i', j', k⟩⟩, by simp [cellFaces], ?_⟩
      have : k = k - 1 + 1 := by omega
      simp [cellFaces, ← this]
    · exact ⟨by omega, by omega, ⟨.xy, ⟨i', j', k + 1⟩⟩, by simp [cellFaces], by simp [cellFaces]⟩
  · rintro ⟨hq, hne, ⟨o, ⟨a, b, c⟩⟩, hf, hg⟩
    simp only [cellFaces, List.mem_cons, List.not_mem_nil, or_false, FacePos.mk.injEq, Pos.mk.injEq] at hf hg
    cases o <;> simp only [reduceCtorEq, false_and, or_false, false_or, true_and] at hf hg <;>
      rcases hf with ⟨rfl, rfl, rfl⟩ | ⟨rfl, rfl, rfl⟩ <;> rcases hg with hg | hg <;>
      obtain ⟨g1, g2, g3⟩ := hg
    · omega
    · left; right; omega
    · right; omega
    · omega
    · omega
    · left; left; left; left; left; omega
    · left; left; left; right; omega
    · omega
    · omega
    · left; left; left; left; right; omega
    · left; left; right; omega
    · omega

theorem nbrs_nodup (p : Pos) : (nbrs d p).Nodup := by
  obtain ⟨i, j, k⟩ := p
  simp only [nbrs]
  split <;> split <;> split <;> split <;> split <;> split <;> simp <;> omega

/-! ### node neighbours -/

theorem mem_addAdj {c x y : Nat} {acc : List Nat} :
    x ∈ addAdj c acc y ↔ x ∈ acc ∨ (x = y ∧ y ≠ c) := by
  unfold addAdj
  split
  · simp_all
  · split
    · constructor
      · exact Or.inl
      · rintro (h | ⟨rfl, _⟩) <;> assumption
    · simp; tauto

theorem nodup_addAdj {c y : Nat} {acc : List Nat} (h : acc.Nodup) : (addAdj c acc y).Nodup := by
  unfold addAdj
  split
  · exact h
  · split
    · exact h
    · rw [List.nodup_append]
      refine ⟨h, by simp, ?_⟩
      intro a ha b hb
      simp only [List.mem_singleton] at hb
      subst hb; rintro rfl; contradiction

theorem fold_addAdj (c : Nat) (l acc : List Nat) :
    (∀ x, x ∈ l.foldl (addAdj c) acc ↔ x ∈ acc ∨ (x ∈ l ∧ x ≠ c)) ∧
    (acc.Nodup → (l.foldl (addAdj c) acc).Nodup) := by
  induction l generalizing acc with
  | nil => simp
  | cons a l ih =>
    obtain ⟨h1, h2⟩ := ih (addAdj c acc a)
    refine ⟨fun x => ?_, fun h => h2 (nodup_addAdj h)⟩
    simp only [List.foldl_cons, h1, mem_addAdj, List.mem_cons]
    constructor
    · rintro ((h | ⟨rfl, h⟩) | ⟨h, h'⟩)
      · exact Or.inl h
      · exact Or.inr ⟨Or.inl rfl, h⟩
      · exact Or.inr ⟨Or.inr h, h'⟩
    · rintro (h | ⟨rfl | h, h'⟩)
      · exact Or.inl (Or.inl h)
      · exact Or.inl (Or.inr ⟨rfl, h'⟩)
      · exact Or.inr ⟨h, h'⟩

theorem fold_nodes (c : Nat) (ns : List Nat) (g : Nat → List Nat) (acc : List Nat) :
    (∀ x, x ∈ ns.foldl (fun acc n => (g n).foldl (addAdj c) acc) acc ↔
      x ∈ acc ∨ ((∃ n ∈ ns, x ∈ g n) ∧ x ≠ c)) ∧
    (acc.Nodup → (ns.foldl (fun acc n => (g n).foldl (addAdj c) acc) acc).Nodup) := by
  induction ns generalizing acc with
  | nil => simp
  | cons a l ih =>
    obtain ⟨h1, h2⟩ := ih ((g a).foldl (addAdj c) acc)
    obtain ⟨h3, h4⟩ := fold_addAdj c (g a) acc
    refine ⟨fun x => ?_, fun h => h2 (h4 h)⟩
    simp only [List.foldl_cons, h1, h3, List.mem_cons]
    constructor
    · rintro ((h | ⟨h, h'⟩) | ⟨⟨n, hn, h⟩, h'⟩)
      · exact Or.inl h
      · exact Or.inr ⟨⟨a, Or.inl rfl, h⟩, h'⟩
      · exact Or.inr ⟨⟨n, Or.inr hn, h⟩, h'⟩
    · rintro (h | ⟨⟨n, rfl | hn, h⟩, h'⟩)
      · exact Or.inl (Or.inl h)
      · exact Or.inl (Or.inr ⟨h, h'⟩)
      · exact Or.inr ⟨⟨n, hn, h⟩, h'⟩

theorem cellGetNodeAdjCells_fold (c : Nat) : cellGetNodeAdjCells d c =
    (cellGetNodes d c).foldl (fun acc n => (nodeGetCells d n).foldl (addAdj c) acc) [] := by
  simp only [cellGetNodeAdjCells, cellGetNodes, List.foldl_map]
  rfl

/-! ### coordinates -/

theorem coordWrites_eq (b : Box) : coordWrites d b =
    (triples (d.nx + 1) (d.ny + 1) (d.nz + 1)).flatMap fun p =>
      blockAt 3 (nodeIdx d p) (latticePoint d b p).list := by
  simp only [coordWrites, loop3_eq]; rfl

theorem nodeGetCoordinates_eq (b : Box) {p : Pos} (hp : NodeIn d p) :
    nodeGetCoordinates 3 (coordinates d b) (nodeIdx d p) = (latticePoint d b p).list := by
  simp only [nodeGetCoordinates, coordinates, coordWrites_eq]
  exact read_block (triples (d.nx + 1) (d.ny + 1) (d.nz + 1)) (nodeIdx d)
    (fun p => (latticePoint d b p).list) 3 (fun _ _ => rfl)
    (fun a ha b hb h => nodeIdx_inj d (mem_triples.1 ha) (mem_triples.1 hb) h) _ p (mem_triples.2 hp)

theorem get_set_coordinates (sd : Nat) (coords : Nat → Rat) (n m : Nat) (p : Nat → Rat) :
    nodeGetCoordinates sd (nodeSetCoordinates sd coords m p) n =
      if m = n then (List.range sd).map p else nodeGetCoordinates sd coords n := by
  have hf : Functional ((List.range sd).map fun i => (sd * m + i, p i)) := by
    intro a x y hx hy
    simp only [List.mem_map, List.mem_range, Prod.mk.injEq] at hx hy
    obtain ⟨i, hi, rfl, rfl⟩ := hx
    obtain ⟨j, hj, e, rfl⟩ := hy
    have : i = j := by omega
    rw [this]
  simp only [nodeGetCoordinates, nodeSetCoordinates]
  split
  · next h =>
    subst h
    apply List.map_congr_left
    intro i hi
    apply runWrites_mem _ hf
    simp only [List.mem_map, List.mem_range] at hi ⊢
    exact ⟨i, hi, rfl⟩
  · next h =>
    apply List.map_congr_left
    intro i hi
    apply runWrites_not_mem
    intro x hx
    simp only [List.mem_map, List.mem_range, Prod.mk.injEq] at hx hi
    obtain ⟨j, hj, e, _⟩ := hx
    exact h (stride_inj hj hi e).1

/-! ### storage bounds -/

theorem block_addr_lt {α : Type} {s key m : Nat} {vals : List α} {a : Nat} {x : α}
    (hl : vals.length = s) (hk : key < m) (h : (a, x) ∈ blockAt s key vals) : a < s * m := by
  rw [mem_blockAt] at h
  obtain ⟨r, hr, rfl, _⟩ := h
  exact lt_mul_of_digits (by omega) hk

theorem runAppends_counter {stride : Nat} (ops pre post : List (Nat × Nat)) (k x : Nat)
    (hcap : ∀ k, (valsFor ops k).length < stride) (h : ops = pre ++ (k, x) :: post) :
    runAppends stride (fun _ => 0) pre (stride * k) + 1 < stride := by
  have hc : ∀ k, (valsFor pre k).length < stride := by
    intro k'
    have := hcap k'
    rw [h, valsFor_append, List.length_append] at this
    omega
  rw [(runAppends_represents pre hc k).1]
  have := hcap k
  rw [h, valsFor_append, List.length_append] at this
  have h2 : 1 ≤ (valsFor ((k, x) :: post) k).length := by simp [valsFor]
  omega

end Jali.Simple
