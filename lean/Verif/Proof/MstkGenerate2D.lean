import Verif.Spec.MstkGenerate2D
import Verif.Proof.MstkGenerate
/-! Lemmas on the generation of regular quadrilateral meshes. -/
namespace Jali.MstkGen
open Spec

section
variable {K : Type} [Field K]

/-! ### Loop -/

theorem mem_loopIdx2 {na nb : Nat} {p : Nat × Nat} : p ∈ loopIdx2 na nb ↔ p.1 < na ∧ p.2 < nb := by
  obtain ⟨a, b⟩ := p
  simp only [loopIdx2, List.mem_flatMap, List.mem_range, List.mem_map, Prod.mk.injEq]
  constructor
  · rintro ⟨a', ha, b', hb, rfl, rfl⟩
    exact ⟨ha, hb⟩
  · rintro ⟨ha, hb⟩
    exact ⟨a, ha, b, hb, rfl, rfl⟩

/-- lexicographic order of loop indices -/
def Lex (p q : Nat × Nat) : Prop := p.1 < q.1 ∨ (p.1 = q.1 ∧ p.2 < q.2)

theorem lex_loopIdx2 (na nb : Nat) : (loopIdx2 na nb).Pairwise Lex := by
  unfold loopIdx2
  rw [List.pairwise_flatMap]
  constructor
  · intro a _
    rw [List.pairwise_map]
    exact List.pairwise_lt_range.imp fun h => .inr ⟨rfl, h⟩
  · refine List.pairwise_lt_range.imp fun {a a'} h => ?_
    intro p hp q hq
    simp only [List.mem_map] at hp hq
    obtain ⟨_, _, rfl⟩ := hp
    obtain ⟨_, _, rfl⟩ := hq
    exact .inl h

theorem nodup_loopIdx2 (na nb : Nat) : (loopIdx2 na nb).Nodup :=
  (lex_loopIdx2 na nb).imp fun {p q} h e => by subst e; rcases h with h | h <;> omega

/-! ### Vertices -/

theorem at2_mkVerts2 (d : Dom2 K) (b : Blk2) {i j : Nat} (hi : i ≤ b.nx) (hj : j ≤ b.ny) :
    at2 (mkVerts2 d b) i j = some (mkVert2 d b i j) := by
  unfold at2 mkVerts2
  simp only [List.getElem?_map, List.getElem?_range (show i < b.nx + 1 by omega),
    Option.map_some, Option.bind_eq_bind, Option.bind_some, List.getElem?_range (show j < b.ny + 1 by omega)]

theorem mem_mkVerts2 (d : Dom2 K) (b : Blk2) {v : Vert2 K} : v ∈ (mkVerts2 d b).flatten ↔
    ∃ i j, i ≤ b.nx ∧ j ≤ b.ny ∧ v = mkVert2 d b i j := by
  simp only [mkVerts2, List.mem_flatten, List.mem_map, List.mem_range]
  constructor
  · rintro ⟨l, ⟨i, hi, rfl⟩, hv⟩
    simp only [List.mem_map, List.mem_range] at hv
    obtain ⟨j, hj, rfl⟩ := hv
    exact ⟨i, j, by omega, by omega, rfl⟩
  · rintro ⟨i, j, hi, hj, rfl⟩
    exact ⟨_, ⟨i, by omega, rfl⟩, by simp only [List.mem_map, List.mem_range]; exact ⟨j, by omega, rfl⟩⟩

theorem nodup_mkVerts2 (d : Dom2 K) (b : Blk2) : (mkVerts2 d b).flatten.Nodup := by
  have : (mkVerts2 d b).flatten = (loopIdx2 (b.nx + 1) (b.ny + 1)).map fun p => mkVert2 d b p.1 p.2 := by
    unfold mkVerts2 loopIdx2
    simp only [← List.flatMap_def, List.map_flatMap, List.map_map, Function.comp_def]
  rw [this]
  exact (nodup_loopIdx2 _ _).map (fun p q h => congrArg Vert2.ptr h)

/-! ### Edges -/

/-- the four edges a cell can create -/
def bot (d : Dom2 K) (b : Blk2) (i j : Nat) : Edge2 K :=
  ⟨mkVert2 d b i j, mkVert2 d b (i + 1) j, if decide (b.j0 + j = 0) then 1 else 2, if decide (b.j0 + j = 0) then 1 else 1,
    (b.i0 + i) * d.NY + (b.i0 + i) * (d.NY + 1) + d.NY + (b.j0 + j) + 1⟩
def rgt (d : Dom2 K) (b : Blk2) (i j : Nat) : Edge2 K :=
  ⟨mkVert2 d b (i + 1) j, mkVert2 d b (i + 1) (j + 1), if decide (b.i0 + i = d.NX - 1) then 1 else 2,
    if decide (b.i0 + i = d.NX - 1) then 2 else 1,
    (b.i0 + i) * d.NY + (b.i0 + i) * (d.NY + 1) + d.NY + (d.NY + 1) + (b.j0 + j) + 1⟩
def top (d : Dom2 K) (b : Blk2) (i j : Nat) : Edge2 K :=
  ⟨mkVert2 d b (i + 1) (j + 1), mkVert2 d b i (j + 1), if decide (b.j0 + j = d.NY - 1) then 1 else 2,
    if decide (b.j0 + j = d.NY - 1) then 3 else 1,
    (b.i0 + i) * d.NY + (b.i0 + i) * (d.NY + 1) + d.NY + (b.j0 + j) + 1 + 1⟩
def lft (d : Dom2 K) (b : Blk2) (i j : Nat) : Edge2 K :=
  ⟨mkVert2 d b i (j + 1), mkVert2 d b i j, if decide (b.i0 + i = 0) then 1 else 2, if decide (b.i0 + i = 0) then 4 else 1,
    (b.i0 + i) * d.NY + (b.i0 + i) * (d.NY + 1) + (b.j0 + j) + 1⟩

/-- horizontal edge at local position `(i, j)` -/
def hE (d : Dom2 K) (b : Blk2) (i : Nat) : Nat → Edge2 K
  | 0 => bot d b i 0
  | j + 1 => top d b i j
/-- vertical edge at local position `(i, j)` -/
def vE (d : Dom2 K) (b : Blk2) : Nat → Nat → Edge2 K
  | 0, j => lft d b 0 j
  | i + 1, j => rgt d b i j

/-- what cell `(i, j)` creates -/
def newEdges (d : Dom2 K) (b : Blk2) (p : Nat × Nat) : List (Edge2 K) :=
  (if p.2 = 0 then [bot d b p.1 p.2] else []) ++ [rgt d b p.1 p.2] ++ [top d b p.1 p.2] ++
    (if p.1 = 0 then [lft d b p.1 p.2] else [])

/-- the face of cell `(i, j)` -/
def mkFace (d : Dom2 K) (b : Blk2) (p : Nat × Nat) : Face2 K :=
  ⟨[(hE d b p.1 p.2, decide (p.2 = 0)), (vE d b (p.1 + 1) p.2, true), (hE d b p.1 (p.2 + 1), true),
    (vE d b p.1 p.2, decide (p.1 = 0))], 2, 1, (b.i0 + p.1) * d.NY + (b.j0 + p.2) + 1⟩

theorem commonEdge_none {es : List (Edge2 K)} {v0 v1 : Vert2 K}
    (h : ∀ e ∈ es, ¬ ((e.v0.ptr = v0.ptr ∧ e.v1.ptr = v1.ptr) ∨ (e.v0.ptr = v1.ptr ∧ e.v1.ptr = v0.ptr))) :
    commonEdge es v0 v1 = none := by
  unfold commonEdge
  rw [List.find?_eq_none]
  intro e he
  have := h e he
  simp only [Bool.or_eq_true, Bool.and_eq_true, beq_iff_eq]
  exact this

theorem commonEdge_some {es : List (Edge2 K)} {v0 v1 : Vert2 K} {e : Edge2 K} (he : e ∈ es)
    (hj : (e.v0.ptr = v0.ptr ∧ e.v1.ptr = v1.ptr) ∨ (e.v0.ptr = v1.ptr ∧ e.v1.ptr = v0.ptr))
    (h : ∀ e' ∈ es, (e'.v0.ptr = v0.ptr ∧ e'.v1.ptr = v1.ptr) ∨ (e'.v0.ptr = v1.ptr ∧ e'.v1.ptr = v0.ptr) → e' = e) :
    commonEdge es v0 v1 = some e := by
  have hs : (commonEdge es v0 v1).isSome := by
    unfold commonEdge
    rw [List.find?_isSome]
    exact ⟨e, he, by simp only [Bool.or_eq_true, Bool.and_eq_true, beq_iff_eq]; exact hj⟩
  obtain ⟨e', he'⟩ := Option.isSome_iff_exists.1 hs
  have h1 := List.mem_of_find?_eq_some he'
  have h2 := List.find?_some he'
  simp only [Bool.or_eq_true, Bool.and_eq_true, beq_iff_eq] at h2
  rw [he', h e' h1 h2]

theorem mem_newEdges {d : Dom2 K} {b : Blk2} {p : Nat × Nat} {e : Edge2 K} : e ∈ newEdges d b p ↔
    (p.2 = 0 ∧ e = bot d b p.1 p.2) ∨ e = rgt d b p.1 p.2 ∨ e = top d b p.1 p.2 ∨ (p.1 = 0 ∧ e = lft d b p.1 p.2) := by
  unfold newEdges
  by_cases h1 : p.2 = 0 <;> by_cases h2 : p.1 = 0 <;> simp [h1, h2, or_assoc]

theorem ptr_mk (d : Dom2 K) (b : Blk2) (i j : Nat) : (mkVert2 d b i j).ptr = (i, j) := rfl

/-- one cell of the loop -/
theorem cell2_step (d : Dom2 K) (b : Blk2) {i j : Nat} (hi : i < b.nx) (hj : j < b.ny) (done : List (Nat × Nat))
    (fs : List (Face2 K)) (hn : (i, j) ∉ done) (hd : 0 < j → (i, j - 1) ∈ done) (hl : 0 < i → (i - 1, j) ∈ done) :
    cell2 d b (mkVerts2 d b) (done.flatMap (newEdges d b), fs) i j =
      some ((done ++ [(i, j)]).flatMap (newEdges d b), fs ++ [mkFace d b (i, j)]) := by
  unfold cell2
  rw [at2_mkVerts2 d b (by omega) (by omega), at2_mkVerts2 d b (by omega) (by omega),
    at2_mkVerts2 d b (by omega) (by omega), at2_mkVerts2 d b (by omega) (by omega)]
  simp only [Option.bind_eq_bind, Option.bind_some, Option.pure_def]
  generalize hes : done.flatMap (newEdges d b) = es
  have hmem : ∀ e, e ∈ es ↔ ∃ p ∈ done, e ∈ newEdges d b p := by
    intro e; rw [← hes, List.mem_flatMap]
  -- bottom
  have s0 : edgeFor es (mkVert2 d b i j) (mkVert2 d b (i + 1) j) (decide (b.j0 + j = 0)) 1
      ((b.i0 + i) * d.NY + (b.i0 + i) * (d.NY + 1) + d.NY + (b.j0 + j)) =
      ((hE d b i j, decide (j = 0)), es ++ (if j = 0 then [bot d b i j] else [])) := by
    unfold edgeFor
    rcases Nat.eq_zero_or_pos j with rfl | hj0
    · rw [commonEdge_none]
      · simp [hE, bot]
      · intro e he
        obtain ⟨⟨i', j'⟩, hp, he⟩ := (hmem e).1 he
        rw [mem_newEdges] at he
        have hne : ¬ (i' = i ∧ j' = 0) := by rintro ⟨rfl, rfl⟩; exact hn hp
        rcases he with ⟨h, rfl⟩ | rfl | rfl | ⟨h, rfl⟩ <;>
          simp only [bot, rgt, top, lft, ptr_mk, Prod.mk.injEq] <;> dsimp only at * <;> omega
    · obtain ⟨k, rfl⟩ : ∃ k, j = k + 1 := ⟨j - 1, by omega⟩
      have hin : (i, k) ∈ done := hd hj0
      rw [commonEdge_some (e := top d b i k)]
      · simp [hE, top, ptr_mk]
      · exact (hmem _).2 ⟨_, hin, mem_newEdges.2 (.inr (.inr (.inl rfl)))⟩
      · simp [top, ptr_mk]
      · intro e he hj
        obtain ⟨⟨i', j'⟩, hp, he⟩ := (hmem e).1 he
        rw [mem_newEdges] at he
        rcases he with ⟨h, rfl⟩ | rfl | rfl | ⟨h, rfl⟩ <;>
          simp only [bot, rgt, top, lft, ptr_mk, Prod.mk.injEq] at hj <;> dsimp only at *
        · omega
        · omega
        · obtain ⟨rfl, rfl⟩ : i' = i ∧ j' = k := by omega
          rfl
        · omega
  rw [s0]
  dsimp only
  -- right
  have s1 : edgeFor (es ++ (if j = 0 then [bot d b i j] else [])) (mkVert2 d b (i + 1) j) (mkVert2 d b (i + 1) (j + 1))
      (decide (b.i0 + i = d.NX - 1)) 2
      ((b.i0 + i) * d.NY + (b.i0 + i) * (d.NY + 1) + d.NY + (d.NY + 1) + (b.j0 + j)) =
      ((vE d b (i + 1) j, true), es ++ (if j = 0 then [bot d b i j] else []) ++ [rgt d b i j]) := by
    unfold edgeFor
    rw [commonEdge_none]
    · rfl
    · intro e he
      rw [List.mem_append] at he
      rcases he with he | he
      · obtain ⟨⟨i', j'⟩, hp, he⟩ := (hmem e).1 he
        rw [mem_newEdges] at he
        have hne : ¬ (i' = i ∧ j' = j) := by rintro ⟨rfl, rfl⟩; exact hn hp
        rcases he with ⟨h, rfl⟩ | rfl | rfl | ⟨h, rfl⟩ <;>
          simp only [bot, rgt, top, lft, ptr_mk, Prod.mk.injEq] <;> dsimp only at * <;> omega
      · split at he
        · rw [List.mem_singleton] at he
          subst he
          simp only [bot, ptr_mk, Prod.mk.injEq]
          omega
        · simp at he
  rw [s1]
  dsimp only
  -- top
  have s2 : edgeFor (es ++ (if j = 0 then [bot d b i j] else []) ++ [rgt d b i j]) (mkVert2 d b (i + 1) (j + 1))
      (mkVert2 d b i (j + 1)) (decide (b.j0 + j = d.NY - 1)) 3
      ((b.i0 + i) * d.NY + (b.i0 + i) * (d.NY + 1) + d.NY + (b.j0 + j) + 1) =
      ((hE d b i (j + 1), true), es ++ (if j = 0 then [bot d b i j] else []) ++ [rgt d b i j] ++ [top d b i j]) := by
    unfold edgeFor
    rw [commonEdge_none]
    · rfl
    · intro e he
      rw [List.mem_append, List.mem_append] at he
      rcases he with (he | he) | he
      · obtain ⟨⟨i', j'⟩, hp, he⟩ := (hmem e).1 he
        rw [mem_newEdges] at he
        have hne : ¬ (i' = i ∧ j' = j) := by rintro ⟨rfl, rfl⟩; exact hn hp
        rcases he with ⟨h, rfl⟩ | rfl | rfl | ⟨h, rfl⟩ <;>
          simp only [bot, rgt, top, lft, ptr_mk, Prod.mk.injEq] <;> dsimp only at * <;> omega
      · split at he
        · rw [List.mem_singleton] at he
          subst he
          simp only [bot, ptr_mk, Prod.mk.injEq]
          omega
        · simp at he
      · rw [List.mem_singleton] at he
        subst he
        simp only [rgt, ptr_mk, Prod.mk.injEq]
        omega
  rw [s2]
  dsimp only
  -- left
  have s3 : edgeFor (es ++ (if j = 0 then [bot d b i j] else []) ++ [rgt d b i j] ++ [top d b i j]) (mkVert2 d b i (j + 1))
      (mkVert2 d b i j) (decide (b.i0 + i = 0)) 4 ((b.i0 + i) * d.NY + (b.i0 + i) * (d.NY + 1) + (b.j0 + j)) =
      ((vE d b i j, decide (i = 0)), es ++ newEdges d b (i, j)) := by
    have hcat : ∀ l, es ++ (if j = 0 then [bot d b i j] else []) ++ [rgt d b i j] ++ [top d b i j] ++ l =
        es ++ ((if j = 0 then [bot d b i j] else []) ++ [rgt d b i j] ++ [top d b i j] ++ l) := by
      intro l; simp only [List.append_assoc]
    have hown : ∀ e, e ∈ (if j = 0 then [bot d b i j] else []) ++ [rgt d b i j] ++ [top d b i j] →
        ¬ ((e.v0.ptr = (i, j + 1) ∧ e.v1.ptr = (i, j)) ∨ (e.v0.ptr = (i, j) ∧ e.v1.ptr = (i, j + 1))) := by
      intro e he
      rw [List.mem_append, List.mem_append] at he
      rcases he with (he | he) | he
      · split at he
        · rw [List.mem_singleton] at he
          subst he
          simp only [bot, ptr_mk, Prod.mk.injEq]
          omega
        · simp at he
      · rw [List.mem_singleton] at he
        subst he
        simp only [rgt, ptr_mk, Prod.mk.injEq]
        omega
      · rw [List.mem_singleton] at he
        subst he
        simp only [top, ptr_mk, Prod.mk.injEq]
        omega
    unfold edgeFor
    rcases Nat.eq_zero_or_pos i with rfl | hi0
    · rw [commonEdge_none]
      · simp [vE, lft, newEdges]
      · intro e he
        rw [List.append_assoc, List.append_assoc, List.mem_append, ← List.append_assoc] at he
        rcases he with he | he
        · obtain ⟨⟨i', j'⟩, hp, he⟩ := (hmem e).1 he
          rw [mem_newEdges] at he
          have hne : ¬ (i' = 0 ∧ j' = j) := by rintro ⟨rfl, rfl⟩; exact hn hp
          rcases he with ⟨h, rfl⟩ | rfl | rfl | ⟨h, rfl⟩ <;>
            simp only [bot, rgt, top, lft, ptr_mk, Prod.mk.injEq] <;> dsimp only at * <;> omega
        · exact hown e he
    · obtain ⟨k, rfl⟩ : ∃ k, i = k + 1 := ⟨i - 1, by omega⟩
      have hin : (k, j) ∈ done := hl hi0
      rw [commonEdge_some (e := rgt d b k j)]
      · simp [vE, rgt, ptr_mk, newEdges]
      · rw [List.mem_append, List.mem_append, List.mem_append]
        exact .inl (.inl (.inl ((hmem _).2 ⟨_, hin, mem_newEdges.2 (.inr (.inl rfl))⟩)))
      · simp [rgt, ptr_mk]
      · intro e he hj
        rw [List.append_assoc, List.append_assoc, List.mem_append, ← List.append_assoc] at he
        rcases he with he | he
        · obtain ⟨⟨i', j'⟩, hp, he⟩ := (hmem e).1 he
          rw [mem_newEdges] at he
          rcases he with ⟨h, rfl⟩ | rfl | rfl | ⟨h, rfl⟩ <;>
            simp only [bot, rgt, top, lft, ptr_mk, Prod.mk.injEq] at hj <;> dsimp only at *
          · omega
          · obtain ⟨rfl, rfl⟩ : i' = k ∧ j' = j := by omega
            rfl
          · omega
          · omega
        · exact absurd hj (hown e he)
  rw [s3]
  simp only [List.flatMap_append, List.flatMap_cons, List.flatMap_nil, List.append_nil, hes]
  rfl

/-- the whole loop -/
theorem cells2 (d : Dom2 K) (b : Blk2) : ∀ (rest done : List (Nat × Nat)), loopIdx2 b.nx b.ny = done ++ rest →
    rest.foldlM (fun st p => cell2 d b (mkVerts2 d b) st p.1 p.2) (done.flatMap (newEdges d b), done.map (mkFace d b)) =
      some ((done ++ rest).flatMap (newEdges d b), (done ++ rest).map (mkFace d b))
  | [], done, _ => by simp
  | (i, j) :: rest, done, h => by
    have hlex := lex_loopIdx2 b.nx b.ny
    have hnd := nodup_loopIdx2 b.nx b.ny
    have hall : ∀ p, p ∈ done ++ (i, j) :: rest ↔ p.1 < b.nx ∧ p.2 < b.ny := by
      intro p; rw [← h]; exact mem_loopIdx2
    have hij := (hall (i, j)).1 (by simp)
    rw [h] at hlex hnd
    have hafter : ∀ q ∈ rest, Lex (i, j) q := (List.pairwise_cons.1 (List.pairwise_append.1 hlex).2.1).1
    have hbefore : ∀ q : Nat × Nat, q.1 < b.nx → q.2 < b.ny → Lex q (i, j) → q ∈ done := by
      intro q h1 h2 hq
      have := (hall q).2 ⟨h1, h2⟩
      simp only [List.mem_append, List.mem_cons] at this
      rcases this with hm | rfl | hm
      · exact hm
      · rcases hq with hq | hq <;> omega
      · have := hafter q hm
        simp only [Lex] at hq this
        omega
    have hn : (i, j) ∉ done := fun hm => (List.nodup_append.1 hnd).2.2 _ hm _ (by simp) rfl
    rw [List.foldlM_cons, cell2_step d b hij.1 hij.2 done _ hn
      (fun h0 => hbefore _ hij.1 (by dsimp only at hij ⊢; omega) (.inr ⟨rfl, by dsimp only; omega⟩))
      (fun h0 => hbefore _ (by dsimp only at hij ⊢; omega) hij.2 (.inl (by dsimp only; omega)))]
    have := cells2 d b rest (done ++ [(i, j)]) (by simp [h])
    simp only [List.append_assoc, List.singleton_append, List.map_append, List.map_cons, List.map_nil] at this
    simpa using this

/-- explicit form of the mesh -/
def genOf2 (d : Dom2 K) (b : Blk2) : RegMesh2 K where
  verts := (mkVerts2 d b).flatten
  edges := (loopIdx2 b.nx b.ny).flatMap (newEdges d b)
  faces := (loopIdx2 b.nx b.ny).map (mkFace d b)

theorem generate2_fill (d : Dom2 K) (b : Blk2) : generate2 d b = some (genOf2 d (fillBlk2 d b)) := by
  unfold generate2
  dsimp only
  have := cells2 d (fillBlk2 d b) (loopIdx2 (fillBlk2 d b).nx (fillBlk2 d b).ny) [] rfl
  simp only [List.flatMap_nil, List.map_nil, List.nil_append] at this
  rw [this]
  rfl

theorem generate2_eq (d : Dom2 K) {b : Blk2} (hx : 0 < b.nx) (hy : 0 < b.ny) : generate2 d b = some (genOf2 d b) := by
  rw [generate2_fill]
  unfold fillBlk2
  rw [if_neg (by omega), if_neg (by omega)]

theorem generate2Serial_eq (d : Dom2 K) : generate2Serial d = some (genOf2 d ⟨0, 0, d.NX, d.NY⟩) := by
  unfold generate2Serial
  rw [generate2_fill]
  rfl

theorem mem_edges2 (d : Dom2 K) (b : Blk2) (hx : 0 < b.nx) (hy : 0 < b.ny) {e : Edge2 K} : e ∈ (genOf2 d b).edges ↔
    (∃ i j, i < b.nx ∧ j ≤ b.ny ∧ e = hE d b i j) ∨ (∃ i j, i ≤ b.nx ∧ j < b.ny ∧ e = vE d b i j) := by
  show e ∈ (loopIdx2 b.nx b.ny).flatMap (newEdges d b) ↔ _
  rw [List.mem_flatMap]
  constructor
  · rintro ⟨⟨i, j⟩, hp, he⟩
    rw [mem_loopIdx2] at hp
    rw [mem_newEdges] at he
    dsimp only at hp he
    rcases he with ⟨rfl, rfl⟩ | rfl | rfl | ⟨rfl, rfl⟩
    · exact .inl ⟨i, 0, hp.1, by omega, rfl⟩
    · exact .inr ⟨i + 1, j, by omega, hp.2, rfl⟩
    · exact .inl ⟨i, j + 1, hp.1, by omega, rfl⟩
    · exact .inr ⟨0, j, by omega, hp.2, rfl⟩
  · rintro (⟨i, j, hi, hj, rfl⟩ | ⟨i, j, hi, hj, rfl⟩)
    · match j with
      | 0 => exact ⟨(i, 0), mem_loopIdx2.2 ⟨hi, hy⟩, mem_newEdges.2 (.inl ⟨rfl, rfl⟩)⟩
      | j + 1 => exact ⟨(i, j), mem_loopIdx2.2 ⟨hi, by dsimp only; omega⟩, mem_newEdges.2 (.inr (.inr (.inl rfl)))⟩
    · match i with
      | 0 => exact ⟨(0, j), mem_loopIdx2.2 ⟨hx, hj⟩, mem_newEdges.2 (.inr (.inr (.inr ⟨rfl, rfl⟩)))⟩
      | i + 1 => exact ⟨(i, j), mem_loopIdx2.2 ⟨by dsimp only; omega, hj⟩, mem_newEdges.2 (.inr (.inl rfl))⟩

theorem nodup_edges2 (d : Dom2 K) (b : Blk2) : (genOf2 d b).edges.Nodup := by
  show ((loopIdx2 b.nx b.ny).flatMap (newEdges d b)).Nodup
  have hp : ∀ {e e' : Edge2 K}, e = e' → e.v0.ptr = e'.v0.ptr ∧ e.v1.ptr = e'.v1.ptr := by
    rintro e _ rfl; exact ⟨rfl, rfl⟩
  rw [List.nodup_flatMap]
  constructor
  · rintro ⟨i, j⟩ _
    unfold newEdges
    have ne : ∀ {e e' : Edge2 K}, ¬ (e.v0.ptr = e'.v0.ptr ∧ e.v1.ptr = e'.v1.ptr) → e ≠ e' := fun h e => h (hp e)
    by_cases h1 : j = 0 <;> by_cases h2 : i = 0 <;>
    simp only [h1, h2, if_true, if_false, List.nil_append, List.append_nil, List.cons_append, List.nodup_cons, List.mem_cons,
      List.not_mem_nil, or_false, not_or, List.nodup_nil, not_false_eq_true, and_true] <;>
    (try refine ⟨⟨?_, ?_, ?_⟩, ⟨?_, ?_⟩, ?_⟩) <;> (try refine ⟨⟨?_, ?_⟩, ?_⟩) <;>
    (apply ne; simp only [bot, rgt, top, lft, ptr_mk, Prod.mk.injEq]; omega)
  · refine (lex_loopIdx2 b.nx b.ny).imp fun {p q} hlt => ?_
    obtain ⟨i, j⟩ := p
    obtain ⟨i', j'⟩ := q
    simp only [Lex] at hlt
    intro e he he'
    rw [mem_newEdges] at he he'
    dsimp only at he he'
    rcases he with ⟨h, rfl⟩ | rfl | rfl | ⟨h, rfl⟩ <;> rcases he' with ⟨h', e⟩ | e | e | ⟨h', e⟩ <;>
    (have := hp e; simp only [bot, rgt, top, lft, ptr_mk, Prod.mk.injEq] at this; omega)

/-! ### Edges by global position -/

/-- id of a horizontal edge -/
theorem hE_id (d : Dom2 K) (b : Blk2) (i j : Nat) :
    (hE d b i j).id = (b.i0 + i) * (2 * d.NY + 1) + (d.NY + (b.j0 + j)) + 1 := by
  have : ∀ a, a * (2 * d.NY + 1) = a * d.NY + a * (d.NY + 1) := fun a => by ring
  rw [this]
  match j with
  | 0 => simp only [hE, bot]; omega
  | j + 1 => simp only [hE, top]; omega

/-- id of a vertical edge -/
theorem vE_id (d : Dom2 K) (b : Blk2) (i j : Nat) :
    (vE d b i j).id = (b.i0 + i) * (2 * d.NY + 1) + (b.j0 + j) + 1 := by
  have : ∀ a, a * (2 * d.NY + 1) = a * d.NY + a * (d.NY + 1) := fun a => by ring
  match i with
  | 0 => rw [this]; simp only [vE, lft]
  | i + 1 =>
    have h2 : (b.i0 + (i + 1)) * (2 * d.NY + 1) = (b.i0 + i) * d.NY + (b.i0 + i) * (d.NY + 1) + (2 * d.NY + 1) := by ring
    rw [h2]
    simp only [vE, rgt]; omega

end

section
variable {K : Type} [Field K] [LinearOrder K] [IsStrictOrderedRing K]

theorem pos2_mk (d : Dom2 K) (hd : GoodDom2 d) (b : Blk2) (i j : Nat) :
    pos2 (mkVert2 d b i j) = gpt2 d (b.i0 + i) (b.j0 + j) := by
  simp only [pos2, mkVert2, gpt2, gridCoord_eq _ _ hd.nx, gridCoord_eq _ _ hd.ny]

theorem gpt2_inj (d : Dom2 K) (hd : GoodDom2 d) {i j i' j' : Nat} (e : gpt2 d i j = gpt2 d i' j') : i = i' ∧ j = j' := by
  simp only [gpt2, Prod.mk.injEq] at e
  exact ⟨gridPt_inj hd.x hd.nx e.1, gridPt_inj hd.y hd.ny e.2⟩

theorem hE_joins (d : Dom2 K) (hd : GoodDom2 d) (b : Blk2) (i j : Nat) :
    Joins (hE d b i j) (gpt2 d (b.i0 + i) (b.j0 + j)) (gpt2 d (b.i0 + i + 1) (b.j0 + j)) := by
  match j with
  | 0 => exact .inl ⟨pos2_mk d hd b _ _, pos2_mk d hd b _ _⟩
  | j + 1 => exact .inr ⟨pos2_mk d hd b _ _, pos2_mk d hd b _ _⟩

theorem vE_joins (d : Dom2 K) (hd : GoodDom2 d) (b : Blk2) (i j : Nat) :
    Joins (vE d b i j) (gpt2 d (b.i0 + i) (b.j0 + j)) (gpt2 d (b.i0 + i) (b.j0 + j + 1)) := by
  match i with
  | 0 => exact .inr ⟨pos2_mk d hd b _ _, pos2_mk d hd b _ _⟩
  | i + 1 => exact .inl ⟨pos2_mk d hd b _ _, pos2_mk d hd b _ _⟩

theorem joins_unique {e : Edge2 K} {p q p' q' : K × K} (h : Joins e p q) (h' : Joins e p' q') :
    (p = p' ∧ q = q') ∨ (p = q' ∧ q = p') := by
  rcases h with ⟨rfl, rfl⟩ | ⟨rfl, rfl⟩ <;> rcases h' with ⟨rfl, rfl⟩ | ⟨rfl, rfl⟩
  · exact .inl ⟨rfl, rfl⟩
  · exact .inr ⟨rfl, rfl⟩
  · exact .inr ⟨rfl, rfl⟩
  · exact .inl ⟨rfl, rfl⟩

end
end Jali.MstkGen
