import Verif.Proof.MstkGenerate2D
import Verif.Props.MstkGenerate2
import Verif.Props.BlockPartition
/-! Property theorems C99–C102: generation of regular quadrilateral meshes on several ranks. -/
namespace Jali.MstkGen
open Spec

section
variable {K : Type} [Field K] [LinearOrder K] [IsStrictOrderedRing K]

/-- a domain used in the examples -/
def exDom2 : Dom2 ℚ := ⟨0, 0, 1, 2, 3, 2⟩
theorem exDom2_good : GoodDom2 exDom2 := ⟨by norm_num [exDom2], by norm_num [exDom2], by decide, by decide⟩
/-- a block used in the examples -/
def exBlk2 : Blk2 := ⟨1, 0, 2, 2⟩
theorem exBlk2_good : GoodBlk2 exDom2 exBlk2 := ⟨by decide, by decide, by decide, by decide⟩

/-- **C99 (entities).** The mesh of a block has exactly one vertex at each grid point, exactly one edge between neighbouring grid
points and no others, and one quadrilateral per elementary rectangle; the edges of a quadrilateral, traversed in their
directions, run counterclockwise around it from its lower left corner. -/
theorem generate2_entities (d : Dom2 K) (hd : GoodDom2 d) (b : Blk2) (hb : GoodBlk2 d b) :
    ∃ m, generate2 d b = some m ∧
    ((m.verts.map pos2).Nodup ∧ ∀ p, p ∈ m.verts.map pos2 ↔
      ∃ i j, b.i0 ≤ i ∧ i ≤ b.i0 + b.nx ∧ b.j0 ≤ j ∧ j ≤ b.j0 + b.ny ∧ p = gpt2 d i j) ∧
    (m.edges.Nodup ∧ (∀ e ∈ m.edges, e.v0 ∈ m.verts ∧ e.v1 ∈ m.verts ∧ ∃ p q, Neighbours d b p q ∧ Joins e p q) ∧
      ∀ p q, Neighbours d b p q → ∃ e ∈ m.edges, Joins e p q ∧ ∀ e' ∈ m.edges, Joins e' p q → e' = e) ∧
    ((m.faces.map fun f => f.es.map fun e => pos2 (start e)).Nodup ∧
      (∀ l, l ∈ (m.faces.map fun f => f.es.map fun e => pos2 (start e)) ↔
        ∃ i j, b.i0 ≤ i ∧ i < b.i0 + b.nx ∧ b.j0 ≤ j ∧ j < b.j0 + b.ny ∧
          l = [gpt2 d i j, gpt2 d (i + 1) j, gpt2 d (i + 1) (j + 1), gpt2 d i (j + 1)]) ∧
      ∀ f ∈ m.faces, (∀ e ∈ f.es, e.1 ∈ m.edges) ∧ f.es.map finish = (f.es.map start).rotate 1) := by
  refine ⟨genOf2 d b, generate2_eq d hb.nx hb.ny, ⟨?_, ?_⟩, ⟨nodup_edges2 d b, ?_, ?_⟩, ?_, ?_, ?_⟩
  · refine (nodup_mkVerts2 d b).map_on ?_
    intro v hv v' hv' h
    obtain ⟨i, j, _, _, rfl⟩ := (mem_mkVerts2 d b).1 hv
    obtain ⟨i', j', _, _, rfl⟩ := (mem_mkVerts2 d b).1 hv'
    rw [pos2_mk d hd, pos2_mk d hd] at h
    obtain ⟨h1, h2⟩ := gpt2_inj d hd h
    obtain rfl : i = i' := by omega
    obtain rfl : j = j' := by omega
    rfl
  · intro p
    rw [List.mem_map]
    constructor
    · rintro ⟨v, hv, rfl⟩
      obtain ⟨i, j, _, _, rfl⟩ := (mem_mkVerts2 d b).1 hv
      exact ⟨b.i0 + i, b.j0 + j, by omega, by omega, by omega, by omega, pos2_mk d hd b i j⟩
    · rintro ⟨i, j, h1, h2, h3, h4, rfl⟩
      refine ⟨mkVert2 d b (i - b.i0) (j - b.j0), (mem_mkVerts2 d b).2 ⟨_, _, by omega, by omega, rfl⟩, ?_⟩
      rw [pos2_mk d hd, Nat.add_sub_cancel' h1, Nat.add_sub_cancel' h3]
  · have hmk : ∀ i j, i ≤ b.nx → j ≤ b.ny → mkVert2 d b i j ∈ (genOf2 d b).verts :=
      fun i j hi hj => (mem_mkVerts2 d b).2 ⟨i, j, hi, hj, rfl⟩
    intro e he
    rcases (mem_edges2 d b hb.nx hb.ny).1 he with ⟨i, j, hi, hj, rfl⟩ | ⟨i, j, hi, hj, rfl⟩
    · have hvs : (hE d b i j).v0 ∈ (genOf2 d b).verts ∧ (hE d b i j).v1 ∈ (genOf2 d b).verts := by
        match j with
        | 0 => exact ⟨hmk _ _ (by omega) (by omega), hmk _ _ (by omega) (by omega)⟩
        | j + 1 => exact ⟨hmk _ _ (by omega) (by omega), hmk _ _ (by omega) (by omega)⟩
      exact ⟨hvs.1, hvs.2, _, _, .inl ⟨b.i0 + i, b.j0 + j, by omega, by omega, by omega, by omega, rfl, rfl⟩, hE_joins d hd b i j⟩
    · have hvs : (vE d b i j).v0 ∈ (genOf2 d b).verts ∧ (vE d b i j).v1 ∈ (genOf2 d b).verts := by
        match i with
        | 0 => exact ⟨hmk _ _ (by omega) (by omega), hmk _ _ (by omega) (by omega)⟩
        | i + 1 => exact ⟨hmk _ _ (by omega) (by omega), hmk _ _ (by omega) (by omega)⟩
      exact ⟨hvs.1, hvs.2, _, _, .inr ⟨b.i0 + i, b.j0 + j, by omega, by omega, by omega, by omega, rfl, rfl⟩, vE_joins d hd b i j⟩
  · have hu : ∀ i j i' j' : Nat, i < b.nx → i' < b.nx → Joins (hE d b i' j') (gpt2 d (b.i0 + i) (b.j0 + j)) (gpt2 d (b.i0 + i + 1) (b.j0 + j)) →
        i' = i ∧ j' = j := by
      intro i j i' j' _ _ h
      rcases joins_unique h (hE_joins d hd b i' j') with ⟨h1, h2⟩ | ⟨h1, h2⟩ <;>
      (have a := gpt2_inj d hd h1; have b := gpt2_inj d hd h2; omega)
    rintro p q (⟨i, j, h1, h2, h3, h4, rfl, rfl⟩ | ⟨i, j, h1, h2, h3, h4, rfl, rfl⟩)
    · obtain ⟨k, rfl⟩ := Nat.exists_eq_add_of_le h1
      obtain ⟨l, rfl⟩ := Nat.exists_eq_add_of_le h3
      refine ⟨hE d b k l, (mem_edges2 d b hb.nx hb.ny).2 (.inl ⟨k, l, by omega, by omega, rfl⟩), hE_joins d hd b k l, ?_⟩
      intro e' he' hj
      rcases (mem_edges2 d b hb.nx hb.ny).1 he' with ⟨i', j', hi', hj', rfl⟩ | ⟨i', j', hi', hj', rfl⟩
      · obtain ⟨rfl, rfl⟩ := hu k l i' j' (by omega) hi' hj
        rfl
      · rcases joins_unique hj (vE_joins d hd b i' j') with ⟨h1, h2⟩ | ⟨h1, h2⟩ <;>
        (have a := gpt2_inj d hd h1; have b := gpt2_inj d hd h2; omega)
    · obtain ⟨k, rfl⟩ := Nat.exists_eq_add_of_le h1
      obtain ⟨l, rfl⟩ := Nat.exists_eq_add_of_le h3
      refine ⟨vE d b k l, (mem_edges2 d b hb.nx hb.ny).2 (.inr ⟨k, l, by omega, by omega, rfl⟩), vE_joins d hd b k l, ?_⟩
      intro e' he' hj
      rcases (mem_edges2 d b hb.nx hb.ny).1 he' with ⟨i', j', hi', hj', rfl⟩ | ⟨i', j', hi', hj', rfl⟩
      · rcases joins_unique hj (hE_joins d hd b i' j') with ⟨h1, h2⟩ | ⟨h1, h2⟩ <;>
        (have a := gpt2_inj d hd h1; have b := gpt2_inj d hd h2; omega)
      · have : i' = k ∧ j' = l := by
          rcases joins_unique hj (vE_joins d hd b i' j') with ⟨h1, h2⟩ | ⟨h1, h2⟩ <;>
          (have a := gpt2_inj d hd h1; have b := gpt2_inj d hd h2; omega)
        obtain ⟨rfl, rfl⟩ := this
        rfl
  all_goals
    have hstart : ∀ p, (mkFace d b p).es.map start =
        [mkVert2 d b p.1 p.2, mkVert2 d b (p.1 + 1) p.2, mkVert2 d b (p.1 + 1) (p.2 + 1), mkVert2 d b p.1 (p.2 + 1)] := by
      rintro ⟨i, j⟩
      rcases i with _ | i <;> rcases j with _ | j <;> simp [mkFace, start, hE, vE, bot, rgt, top, lft]
    have hfin : ∀ p, (mkFace d b p).es.map finish =
        [mkVert2 d b (p.1 + 1) p.2, mkVert2 d b (p.1 + 1) (p.2 + 1), mkVert2 d b p.1 (p.2 + 1), mkVert2 d b p.1 p.2] := by
      rintro ⟨i, j⟩
      rcases i with _ | i <;> rcases j with _ | j <;> simp [mkFace, finish, hE, vE, bot, rgt, top, lft]
    have hpos : ∀ p : Nat × Nat, ((mkFace d b p).es.map fun e => pos2 (start e)) =
        [gpt2 d (b.i0 + p.1) (b.j0 + p.2), gpt2 d (b.i0 + p.1 + 1) (b.j0 + p.2),
          gpt2 d (b.i0 + p.1 + 1) (b.j0 + p.2 + 1), gpt2 d (b.i0 + p.1) (b.j0 + p.2 + 1)] := by
      intro p
      have : ((mkFace d b p).es.map fun e => pos2 (start e)) = ((mkFace d b p).es.map start).map pos2 := by
        rw [List.map_map]; rfl
      rw [this, hstart]
      simp only [List.map_cons, List.map_nil, pos2_mk d hd]
      rfl
  · show (((loopIdx2 b.nx b.ny).map (mkFace d b)).map _).Nodup
    rw [List.map_map]
    refine (nodup_loopIdx2 _ _).map ?_
    intro p q h
    simp only [Function.comp, hpos, List.cons.injEq] at h
    obtain ⟨h1, h2⟩ := gpt2_inj d hd h.1
    exact Prod.ext (by omega) (by omega)
  · intro l
    show l ∈ ((loopIdx2 b.nx b.ny).map (mkFace d b)).map _ ↔ _
    rw [List.map_map, List.mem_map]
    constructor
    · rintro ⟨p, hp, rfl⟩
      rw [mem_loopIdx2] at hp
      exact ⟨b.i0 + p.1, b.j0 + p.2, by omega, by omega, by omega, by omega, hpos p⟩
    · rintro ⟨i, j, h1, h2, h3, h4, rfl⟩
      obtain ⟨k, rfl⟩ := Nat.exists_eq_add_of_le h1
      obtain ⟨l, rfl⟩ := Nat.exists_eq_add_of_le h3
      exact ⟨(k, l), mem_loopIdx2.2 ⟨by dsimp only; omega, by dsimp only; omega⟩, hpos (k, l)⟩
  · intro f hf
    obtain ⟨p, hp, rfl⟩ := List.mem_map.1 (show f ∈ (loopIdx2 b.nx b.ny).map (mkFace d b) from hf)
    rw [mem_loopIdx2] at hp
    refine ⟨?_, by rw [hstart, hfin]; rfl⟩
    intro e he
    simp only [mkFace, List.mem_cons, List.not_mem_nil, or_false] at he
    rw [mem_edges2 d b hb.nx hb.ny]
    rcases he with rfl | rfl | rfl | rfl
    · exact .inl ⟨p.1, p.2, hp.1, by omega, rfl⟩
    · exact .inr ⟨p.1 + 1, p.2, by omega, hp.2, rfl⟩
    · exact .inl ⟨p.1, p.2 + 1, hp.1, by omega, rfl⟩
    · exact .inr ⟨p.1, p.2, by omega, hp.2, rfl⟩

example : ∃ m, generate2 exDom2 exBlk2 = some m ∧ m.verts.length = 9 ∧ m.edges.length = 12 ∧ m.faces.length = 4 := by
  refine ⟨_, generate2_eq exDom2 (by decide) (by decide), ?_⟩
  decide +kernel

/-- **C100 (shared edges).** Within the mesh of a block two different cells that share an edge traverse it in opposite directions, and
no cell uses an edge twice. -/
theorem shared_edge_opposite (d : Dom2 K) (hd : GoodDom2 d) (b : Blk2) (hb : GoodBlk2 d b) (m : RegMesh2 K)
    (hm : generate2 d b = some m) :
    (∀ f ∈ m.faces, ∀ f' ∈ m.faces, f ≠ f' → ∀ (e : Edge2 K) (s s' : Bool), (e, s) ∈ f.es → (e, s') ∈ f'.es → s' = !s) ∧
    (∀ f ∈ m.faces, (f.es.map Prod.fst).Nodup) := by
  rw [generate2_eq d hb.nx hb.ny] at hm
  cases hm
  have hp : ∀ {e e' : Edge2 K}, e = e' → e.v0.ptr = e'.v0.ptr ∧ e.v1.ptr = e'.v1.ptr := by
    rintro e _ rfl; exact ⟨rfl, rfl⟩
  constructor
  · intro f hf f' hf' hne e s s' he he'
    obtain ⟨⟨i, j⟩, hpq, rfl⟩ := List.mem_map.1 (show f ∈ (loopIdx2 b.nx b.ny).map (mkFace d b) from hf)
    obtain ⟨⟨i', j'⟩, hpq', rfl⟩ := List.mem_map.1 (show f' ∈ (loopIdx2 b.nx b.ny).map (mkFace d b) from hf')
    have hne' : ¬ (i = i' ∧ j = j') := by rintro ⟨rfl, rfl⟩; exact hne rfl
    simp only [mkFace, List.mem_cons, List.not_mem_nil, or_false, Prod.mk.injEq] at he he'
    rcases i with _ | i <;> rcases j with _ | j <;> rcases i' with _ | i' <;> rcases j' with _ | j' <;>
    rcases he with ⟨rfl, rfl⟩ | ⟨rfl, rfl⟩ | ⟨rfl, rfl⟩ | ⟨rfl, rfl⟩ <;>
    rcases he' with ⟨e', rfl⟩ | ⟨e', rfl⟩ | ⟨e', rfl⟩ | ⟨e', rfl⟩ <;>
    (have h := hp e'; simp only [hE, vE, bot, rgt, top, lft, ptr_mk, Prod.mk.injEq] at h) <;>
    first
      | omega
      | simp
  · intro f hf
    obtain ⟨⟨i, j⟩, hpq, rfl⟩ := List.mem_map.1 (show f ∈ (loopIdx2 b.nx b.ny).map (mkFace d b) from hf)
    have ne : ∀ {e e' : Edge2 K}, ¬ (e.v0.ptr = e'.v0.ptr ∧ e.v1.ptr = e'.v1.ptr) → e ≠ e' := fun h e => h (hp e)
    simp only [mkFace, List.map_cons, List.map_nil, List.nodup_cons, List.mem_cons, List.not_mem_nil, or_false, not_or,
      List.nodup_nil, not_false_eq_true, and_true]
    rcases i with _ | i <;> rcases j with _ | j <;>
    (refine ⟨⟨?_, ?_, ?_⟩, ⟨?_, ?_⟩, ?_⟩ <;>
     (apply ne; simp only [hE, vE, bot, rgt, top, lft, ptr_mk, Prod.mk.injEq]; omega))

example : ∃ m, generate2 exDom2 exBlk2 = some m ∧ ∃ f ∈ m.faces, ∃ f' ∈ m.faces, f ≠ f' ∧
    ∃ e, (e, true) ∈ f.es ∧ (e, false) ∈ f'.es := by
  refine ⟨_, generate2_eq exDom2 (by decide) (by decide), mkFace exDom2 exBlk2 (0, 0), by decide +kernel,
    mkFace exDom2 exBlk2 (0, 1), by decide +kernel, by decide +kernel, hE exDom2 exBlk2 0 1, by decide +kernel,
    by decide +kernel⟩

/-- classification of a horizontal edge -/
theorem hE_class (d : Dom2 K) (b : Blk2) (hb : GoodBlk2 d b) {i j : Nat} (hj : j ≤ b.ny) :
    ((hE d b i j).gdim, (hE d b i j).gent) =
      if b.j0 + j = 0 then (1, 1) else if b.j0 + j = d.NY then (1, 3) else (2, 1) := by
  have h1 := hb.ny
  have h2 := hb.iy
  match j with
  | 0 =>
    simp only [hE, bot, decide_eq_true_eq]
    by_cases h : b.j0 + 0 = 0
    · simp only [h, if_true]
    · rw [if_neg h, if_neg h, if_neg h, if_neg (by omega)]
  | j + 1 =>
    simp only [hE, top, decide_eq_true_eq]
    rw [if_neg (show ¬ b.j0 + (j + 1) = 0 by omega)]
    by_cases h : b.j0 + j = d.NY - 1
    · rw [if_pos h, if_pos h, if_pos (by omega)]
    · rw [if_neg h, if_neg h, if_neg (by omega)]

/-- classification of a vertical edge -/
theorem vE_class (d : Dom2 K) (b : Blk2) (hb : GoodBlk2 d b) {i j : Nat} (hi : i ≤ b.nx) :
    ((vE d b i j).gdim, (vE d b i j).gent) =
      if b.i0 + i = 0 then (1, 4) else if b.i0 + i = d.NX then (1, 2) else (2, 1) := by
  have h1 := hb.nx
  have h2 := hb.ix
  match i with
  | 0 =>
    simp only [vE, lft, decide_eq_true_eq]
    by_cases h : b.i0 + 0 = 0
    · simp only [h, if_true]
    · rw [if_neg h, if_neg h, if_neg h, if_neg (by omega)]
  | i + 1 =>
    simp only [vE, rgt, decide_eq_true_eq]
    rw [if_neg (show ¬ b.i0 + (i + 1) = 0 by omega)]
    by_cases h : b.i0 + i = d.NX - 1
    · rw [if_pos h, if_pos h, if_pos (by omega)]
    · rw [if_neg h, if_neg h, if_neg (by omega)]

theorem v2id_inj (d : Dom2 K) (b b' : Blk2) {i j i' j' : Nat} (hj : b.j0 + j ≤ d.NY) (hj' : b'.j0 + j' ≤ d.NY)
    (e : (mkVert2 d b i j).id = (mkVert2 d b' i' j').id) : b.i0 + i = b'.i0 + i' ∧ b.j0 + j = b'.j0 + j' := by
  simp only [mkVert2] at e
  exact radix_inj (S := d.NY + 1) (by omega) (by omega) (by omega)

/-- everything that is set on a vertex except which array element of its rank holds it -/
def data2 (v : Vert2 K) : K × K × Nat × Nat × Nat := (v.x, v.y, v.gdim, v.gent, v.id)

theorem data2_eq (d : Dom2 K) (b b' : Blk2) {i j i' j' : Nat} (h1 : b.i0 + i = b'.i0 + i') (h2 : b.j0 + j = b'.j0 + j') :
    data2 (mkVert2 d b i j) = data2 (mkVert2 d b' i' j') := by
  simp only [data2, mkVert2, h1, h2]

/-- **C101 (ids, part that holds).** On whatever blocks two entities are generated, they get the same global id exactly if they are
the same geometric entity, and then have the same coordinates and classification. Missing: the direction of an edge, see
`edge_direction_differs`. -/
theorem ids2_agree_partial (d : Dom2 K) (hd : GoodDom2 d) (b b' : Blk2) (hb : GoodBlk2 d b) (hb' : GoodBlk2 d b')
    (m m' : RegMesh2 K) (hm : generate2 d b = some m) (hm' : generate2 d b' = some m') :
    (∀ v ∈ m.verts, ∀ v' ∈ m'.verts, (v.id = v'.id ↔ pos2 v = pos2 v') ∧ (v.id = v'.id → data2 v = data2 v')) ∧
    (∀ e ∈ m.edges, ∀ e' ∈ m'.edges, (e.id = e'.id ↔ Joins e (pos2 e'.v0) (pos2 e'.v1)) ∧
      (e.id = e'.id → e.gdim = e'.gdim ∧ e.gent = e'.gent)) ∧
    (∀ f ∈ m.faces, ∀ f' ∈ m'.faces,
      f.id = f'.id ↔ (f.es.map fun e => pos2 (start e)) = f'.es.map fun e => pos2 (start e)) := by
  obtain ⟨m0, e0, -, ⟨-, hE0, -⟩, -, hF0, -⟩ := generate2_entities d hd b hb
  rw [hm] at e0; cases e0
  rw [generate2_eq d hb.nx hb.ny] at hm
  rw [generate2_eq d hb'.nx hb'.ny] at hm'
  cases hm
  cases hm'
  have hy := hb.iy
  have hy' := hb'.iy
  have hx := hb.ix
  have hx' := hb'.ix
  refine ⟨?_, ?_, ?_⟩
  · intro v hv v' hv'
    obtain ⟨i, j, _, _, rfl⟩ := (mem_mkVerts2 d b).1 hv
    obtain ⟨i', j', _, _, rfl⟩ := (mem_mkVerts2 d b').1 hv'
    have key := v2id_inj (i := i) (i' := i') d b b' (show b.j0 + j ≤ d.NY by omega) (show b'.j0 + j' ≤ d.NY by omega)
    refine ⟨⟨fun h => ?_, fun h => ?_⟩, fun h => ?_⟩
    · rw [pos2_mk d hd, pos2_mk d hd, (key h).1, (key h).2]
    · rw [pos2_mk d hd, pos2_mk d hd] at h
      obtain ⟨h1, h2⟩ := gpt2_inj d hd h
      simp only [mkVert2, h1, h2]
    · exact data2_eq d b b' (key h).1 (key h).2
  · intro e he e' he'
    have sym : ∀ {p q}, Joins e' p q → (Joins e (pos2 e'.v0) (pos2 e'.v1) ↔ Joins e p q) := by
      rintro p q (⟨rfl, rfl⟩ | ⟨rfl, rfl⟩)
      · exact Iff.rfl
      · exact or_comm
    rcases (mem_edges2 d b hb.nx hb.ny).1 he with ⟨i, j, hi, hj, rfl⟩ | ⟨i, j, hi, hj, rfl⟩ <;>
    rcases (mem_edges2 d b' hb'.nx hb'.ny).1 he' with ⟨i', j', hi', hj', rfl⟩ | ⟨i', j', hi', hj', rfl⟩
    · rw [sym (hE_joins d hd b' i' j'), hE_id, hE_id]
      have key : (b.i0 + i) * (2 * d.NY + 1) + (d.NY + (b.j0 + j)) + 1 = (b'.i0 + i') * (2 * d.NY + 1) + (d.NY + (b'.j0 + j')) + 1 →
          b.i0 + i = b'.i0 + i' ∧ b.j0 + j = b'.j0 + j' := fun h => by
        have := radix_inj (S := 2 * d.NY + 1) (r := d.NY + (b.j0 + j)) (r' := d.NY + (b'.j0 + j')) (i := b.i0 + i) (i' := b'.i0 + i')
          (by omega) (by omega) (by omega)
        omega
      refine ⟨⟨fun h => ?_, fun h => ?_⟩, fun h => ?_⟩
      · obtain ⟨h1, h2⟩ := key h
        have := hE_joins d hd b i j
        rwa [h1, h2] at this
      · rcases joins_unique h (hE_joins d hd b i j) with ⟨h1, h2⟩ | ⟨h1, h2⟩
        · obtain ⟨a1, a2⟩ := gpt2_inj d hd h1
          rw [a1, a2]
        · have a := gpt2_inj d hd h1; have b := gpt2_inj d hd h2; omega
      · obtain ⟨h1, h2⟩ := key h
        have c1 := hE_class d b hb (i := i) hj
        have c2 := hE_class d b' hb' (i := i') hj'
        rw [h2] at c1
        exact Prod.mk.injEq _ _ _ _ ▸ (c1.trans c2.symm)
    · rw [sym (vE_joins d hd b' i' j'), hE_id, vE_id]
      have key : ¬ ((b.i0 + i) * (2 * d.NY + 1) + (d.NY + (b.j0 + j)) + 1 = (b'.i0 + i') * (2 * d.NY + 1) + (b'.j0 + j') + 1) := fun h => by
        have := radix_inj (S := 2 * d.NY + 1) (r := d.NY + (b.j0 + j)) (r' := b'.j0 + j') (i := b.i0 + i) (i' := b'.i0 + i')
          (by omega) (by omega) (by omega)
        omega
      refine ⟨⟨fun h => absurd h key, fun h => ?_⟩, fun h => absurd h key⟩
      rcases joins_unique h (hE_joins d hd b i j) with ⟨h1, h2⟩ | ⟨h1, h2⟩ <;>
      (have a := gpt2_inj d hd h1; have b := gpt2_inj d hd h2; omega)
    · rw [sym (hE_joins d hd b' i' j'), hE_id, vE_id]
      have key : ¬ ((b.i0 + i) * (2 * d.NY + 1) + (b.j0 + j) + 1 = (b'.i0 + i') * (2 * d.NY + 1) + (d.NY + (b'.j0 + j')) + 1) := fun h => by
        have := radix_inj (S := 2 * d.NY + 1) (r := b.j0 + j) (r' := d.NY + (b'.j0 + j')) (i := b.i0 + i) (i' := b'.i0 + i')
          (by omega) (by omega) (by omega)
        omega
      refine ⟨⟨fun h => absurd h key, fun h => ?_⟩, fun h => absurd h key⟩
      rcases joins_unique h (vE_joins d hd b i j) with ⟨h1, h2⟩ | ⟨h1, h2⟩ <;>
      (have a := gpt2_inj d hd h1; have b := gpt2_inj d hd h2; omega)
    · rw [sym (vE_joins d hd b' i' j'), vE_id, vE_id]
      have key : (b.i0 + i) * (2 * d.NY + 1) + (b.j0 + j) + 1 = (b'.i0 + i') * (2 * d.NY + 1) + (b'.j0 + j') + 1 →
          b.i0 + i = b'.i0 + i' ∧ b.j0 + j = b'.j0 + j' := fun h =>
        radix_inj (S := 2 * d.NY + 1) (r := b.j0 + j) (r' := b'.j0 + j') (i := b.i0 + i) (i' := b'.i0 + i')
          (by omega) (by omega) (by omega)
      refine ⟨⟨fun h => ?_, fun h => ?_⟩, fun h => ?_⟩
      · obtain ⟨h1, h2⟩ := key h
        have := vE_joins d hd b i j
        rwa [h1, h2] at this
      · rcases joins_unique h (vE_joins d hd b i j) with ⟨h1, h2⟩ | ⟨h1, h2⟩
        · obtain ⟨a1, a2⟩ := gpt2_inj d hd h1
          rw [a1, a2]
        · have a := gpt2_inj d hd h1; have b := gpt2_inj d hd h2; omega
      · obtain ⟨h1, h2⟩ := key h
        have c1 := vE_class d b hb (j := j) hi
        have c2 := vE_class d b' hb' (j := j') hi'
        rw [h1] at c1
        exact Prod.mk.injEq _ _ _ _ ▸ (c1.trans c2.symm)
  · intro f hf f' hf'
    have hstart : ∀ (c : Blk2) (p : Nat × Nat), ((mkFace d c p).es.map fun e => pos2 (start e)) =
        [gpt2 d (c.i0 + p.1) (c.j0 + p.2), gpt2 d (c.i0 + (p.1 + 1)) (c.j0 + p.2),
          gpt2 d (c.i0 + (p.1 + 1)) (c.j0 + (p.2 + 1)), gpt2 d (c.i0 + p.1) (c.j0 + (p.2 + 1))] := by
      rintro c ⟨i, j⟩
      rcases i with _ | i <;> rcases j with _ | j <;> simp [mkFace, start, hE, vE, bot, rgt, top, lft, pos2_mk d hd]
    obtain ⟨p, hp, rfl⟩ := List.mem_map.1 (show f ∈ (loopIdx2 b.nx b.ny).map (mkFace d b) from hf)
    obtain ⟨p', hp', rfl⟩ := List.mem_map.1 (show f' ∈ (loopIdx2 b'.nx b'.ny).map (mkFace d b') from hf')
    rw [mem_loopIdx2] at hp hp'
    rw [hstart, hstart]
    constructor
    · intro h
      have h' : (b.i0 + p.1) * d.NY + (b.j0 + p.2) + 1 = (b'.i0 + p'.1) * d.NY + (b'.j0 + p'.2) + 1 := h
      obtain ⟨h1, h2⟩ := radix_inj (S := d.NY) (r := b.j0 + p.2) (r' := b'.j0 + p'.2) (by omega) (by omega) (Nat.succ.inj h')
      simp only [← Nat.add_assoc, h1, h2]
    · intro h
      rw [List.cons.injEq] at h
      obtain ⟨h1, h2⟩ := gpt2_inj d hd h.1
      simp only [mkFace, h1, h2]

/-- **C101 (negation).** The edge between two blocks is directed differently by the two ranks that generate it: the two
records with the same id have their end points swapped. -/
theorem edge_direction_differs : ∃ (d : Dom2 ℚ) (b b' : Blk2) (m m' : RegMesh2 ℚ), GoodDom2 d ∧ GoodBlk2 d b ∧ GoodBlk2 d b' ∧
    generate2 d b = some m ∧ generate2 d b' = some m' ∧
    ∃ e ∈ m.edges, ∃ e' ∈ m'.edges, e.id = e'.id ∧ pos2 e.v0 = pos2 e'.v1 ∧ pos2 e.v1 = pos2 e'.v0 ∧ pos2 e.v0 ≠ pos2 e.v1 := by
  refine ⟨exDom2, ⟨0, 0, 1, 2⟩, exBlk2, _, _, exDom2_good, ⟨by decide, by decide, by decide, by decide⟩, exBlk2_good,
    generate2_eq _ (by decide) (by decide), generate2_eq _ (by decide) (by decide),
    vE exDom2 ⟨0, 0, 1, 2⟩ 1 0, by decide +kernel, vE exDom2 exBlk2 0 0, by decide +kernel, by decide +kernel, by decide +kernel,
    by decide +kernel, by decide +kernel⟩

example : ∃ m m', generate2 exDom2 exBlk2 = some m ∧ generate2 exDom2 ⟨0, 0, 1, 2⟩ = some m' ∧
    (∃ v ∈ m.verts, ∃ v' ∈ m'.verts, v.id = v'.id) ∧ ∀ v ∈ m.verts, ∀ v' ∈ m'.verts, (v.id = v'.id ↔ pos2 v = pos2 v') := by
  have hb : GoodBlk2 exDom2 ⟨0, 0, 1, 2⟩ := ⟨by decide, by decide, by decide, by decide⟩
  refine ⟨_, _, generate2_eq _ (by decide) (by decide), generate2_eq _ (by decide) (by decide), ?_, fun v hv v' hv' =>
    ((ids2_agree_partial exDom2 exDom2_good _ _ exBlk2_good hb _ _ (generate2_eq _ (by decide) (by decide))
      (generate2_eq _ (by decide) (by decide))).1 v hv v' hv').1⟩
  decide +kernel

/-- **C101 (numbering).** Over the whole mesh the ids of each kind are `1 .. n`, each used once. -/
theorem ids2_number_grid (d : Dom2 K) (hd : GoodDom2 d) : ∃ m, generate2Serial d = some m ∧
    Numbers (m.verts.map Vert2.id) (nVerts2 d) ∧ Numbers (m.edges.map Edge2.id) (nEdges2 d) ∧
    Numbers (m.faces.map Face2.id) (nCells2 d) := by
  refine ⟨_, generate2Serial_eq d, ?_, ?_, ?_⟩
  · refine ⟨(nodup_mkVerts2 d _).map_on ?_, fun n => ?_⟩
    · intro v hv v' hv' h
      obtain ⟨i, j, hi, hj, rfl⟩ := (mem_mkVerts2 d _).1 hv
      obtain ⟨i', j', hi', hj', rfl⟩ := (mem_mkVerts2 d _).1 hv'
      dsimp only at hi hj hi' hj'
      have := v2id_inj d _ _ (by dsimp only; omega) (by dsimp only; omega) h
      dsimp only at this
      obtain rfl : i = i' := by omega
      obtain rfl : j = j' := by omega
      rfl
    · simp only [List.mem_map]
      constructor
      · rintro ⟨v, hv, rfl⟩
        obtain ⟨i, j, hi, hj, rfl⟩ := (mem_mkVerts2 d _).1 hv
        dsimp only at hi hj
        have := radix_lt (show i < d.NX + 1 by omega) (show j < d.NY + 1 by omega)
        simp only [mkVert2, nVerts2, Nat.zero_add]
        omega
      · rintro ⟨h1, h2⟩
        obtain ⟨i, j, hi, hj, e⟩ := unradix (show n - 1 < (d.NX + 1) * (d.NY + 1) by simp only [nVerts2] at h2; omega)
        refine ⟨mkVert2 d ⟨0, 0, d.NX, d.NY⟩ i j, (mem_mkVerts2 d _).2 ⟨i, j, by dsimp only; omega, by dsimp only; omega, rfl⟩, ?_⟩
        simp only [mkVert2, Nat.zero_add]
        omega
  · have htot : nEdges2 d = d.NX * (2 * d.NY + 1) + d.NY := by unfold nEdges2; ring
    refine ⟨(nodup_edges2 d _).map_on ?_, fun n => ?_⟩
    · intro e he e' he' h
      rcases (mem_edges2 d _ hd.nx hd.ny).1 he with ⟨i, j, hi, hj, rfl⟩ | ⟨i, j, hi, hj, rfl⟩ <;>
      rcases (mem_edges2 d _ hd.nx hd.ny).1 he' with ⟨i', j', hi', hj', rfl⟩ | ⟨i', j', hi', hj', rfl⟩ <;>
      simp only [hE_id, vE_id, Nat.zero_add] at h hi hj hi' hj' <;>
      have := radix_inj (S := 2 * d.NY + 1) (by omega) (by omega) (Nat.succ.inj h)
      · obtain rfl : i = i' := by omega
        obtain rfl : j = j' := by omega
        rfl
      · omega
      · omega
      · obtain rfl : i = i' := by omega
        obtain rfl : j = j' := by omega
        rfl
    · simp only [List.mem_map]
      rw [htot]
      constructor
      · rintro ⟨e, he, rfl⟩
        rcases (mem_edges2 d _ hd.nx hd.ny).1 he with ⟨i, j, hi, hj, rfl⟩ | ⟨i, j, hi, hj, rfl⟩ <;>
        simp only [hE_id, vE_id, Nat.zero_add] at hi hj ⊢
        · have : (i + 1) * (2 * d.NY + 1) ≤ d.NX * (2 * d.NY + 1) := Nat.mul_le_mul_right _ (by omega)
          rw [Nat.succ_mul] at this
          omega
        · have : i * (2 * d.NY + 1) ≤ d.NX * (2 * d.NY + 1) := Nat.mul_le_mul_right _ (by omega)
          omega
      · rintro ⟨h1, h2⟩
        obtain ⟨i, r, hi, hr, e⟩ := unradix (show n - 1 < (d.NX + 1) * (2 * d.NY + 1) by rw [Nat.succ_mul]; omega)
        by_cases c : r < d.NY
        · refine ⟨vE d ⟨0, 0, d.NX, d.NY⟩ i r, (mem_edges2 d _ hd.nx hd.ny).2 (.inr ⟨i, r, by dsimp only; omega, c, rfl⟩), ?_⟩
          simp only [vE_id, Nat.zero_add]
          omega
        · have hlt : i < d.NX := by
            by_contra hc
            have : i = d.NX := by omega
            subst this
            omega
          refine ⟨hE d ⟨0, 0, d.NX, d.NY⟩ i (r - d.NY),
            (mem_edges2 d _ hd.nx hd.ny).2 (.inl ⟨i, r - d.NY, hlt, by dsimp only; omega, rfl⟩), ?_⟩
          simp only [hE_id, Nat.zero_add]
          omega
  · refine ⟨?_, fun n => ?_⟩
    · show (((loopIdx2 d.NX d.NY).map (mkFace d _)).map Face2.id).Nodup
      rw [List.map_map]
      refine (nodup_loopIdx2 _ _).map_on ?_
      intro p hp q hq h
      rw [mem_loopIdx2] at hp hq
      simp only [Function.comp, mkFace, Nat.zero_add] at h
      obtain ⟨h1, h2⟩ := radix_inj (S := d.NY) (by omega) (by omega) (Nat.succ.inj h)
      exact Prod.ext h1 h2
    · show n ∈ ((loopIdx2 d.NX d.NY).map (mkFace d _)).map Face2.id ↔ _
      rw [List.map_map, List.mem_map]
      constructor
      · rintro ⟨p, hp, rfl⟩
        rw [mem_loopIdx2] at hp
        have := radix_lt hp.1 hp.2
        simp only [Function.comp, mkFace, Nat.zero_add, nCells2]
        omega
      · rintro ⟨h1, h2⟩
        obtain ⟨i, j, hi, hj, e⟩ := unradix (show n - 1 < d.NX * d.NY by simp only [nCells2] at h2; omega)
        refine ⟨(i, j), mem_loopIdx2.2 ⟨hi, hj⟩, ?_⟩
        simp only [Function.comp, mkFace, Nat.zero_add]
        omega

example : ∃ m, generate2Serial exDom2 = some m ∧ Numbers (m.edges.map Edge2.id) 17 := by
  obtain ⟨m, hm, _, h, _⟩ := ids2_number_grid exDom2 exDom2_good
  exact ⟨m, hm, h⟩

/-- **C102 (classification).** Vertices and edges are classified on the corner, side or interior of the rectangle that contains them. -/
theorem classification2 (d : Dom2 K) (hd : GoodDom2 d) (b : Blk2) (hb : GoodBlk2 d b) (m : RegMesh2 K)
    (hm : generate2 d b = some m) :
    (∀ v ∈ m.verts, OnModel2 d v.gdim v.gent v.x v.y) ∧
    (∀ e ∈ m.edges, OnModel2 d e.gdim e.gent ((e.v0.x + e.v1.x) / 2) ((e.v0.y + e.v1.y) / 2)) ∧
    (∀ f ∈ m.faces, f.gdim = 2 ∧ f.gent = 1) := by
  rw [generate2_eq d hb.nx hb.ny] at hm
  cases hm
  have hx := hb.ix
  have hy := hb.iy
  have side0 : ∀ {n : Nat}, side 0 n = 0 := by intro n; simp [side]
  have sideN : ∀ {n : Nat}, 0 < n → side n n = 2 := by intro n h; simp [side, h.ne']
  have sideM : ∀ {i n : Nat}, i ≠ 0 → i ≠ n → i ≤ n → side i n = 1 := by
    intro i n h0 h1 h2
    unfold side
    rw [if_pos (by rw [Nat.mod_eq_of_lt (by omega)]; exact h0)]
  refine ⟨?_, ?_, ?_⟩
  · intro v hv
    obtain ⟨i, j, hi, hj, rfl⟩ := (mem_mkVerts2 d b).1 hv
    have ax := onAxis_side hd.x hd.nx (show b.i0 + i ≤ d.NX by omega)
    have ay := onAxis_side hd.y hd.ny (show b.j0 + j ≤ d.NY by omega)
    refine ⟨(posOf (side (b.i0 + i) d.NX), posOf (side (b.j0 + j) d.NY)), ?_, ax, ay⟩
    simp only [mkVert2]
    have bI : b.i0 + i ≤ d.NX := by omega
    have bJ : b.j0 + j ≤ d.NY := by omega
    generalize b.i0 + i = I at *
    generalize b.j0 + j = J at *
    have hnx := hd.nx
    have hny := hd.ny
    unfold vclass2
    by_cases h1 : I = 0
    · subst h1
      by_cases h3 : J = 0
      · subst h3; simp only [if_true, side0]; rfl
      · by_cases h4 : J = d.NY
        · simp only [if_true, if_neg h3, if_pos h4]
          rw [h4, side0, sideN hny]; rfl
        · simp only [if_true, if_neg h3, if_neg h4, side0, sideM h3 h4 (by omega)]; rfl
    · by_cases h2 : I = d.NX
      · by_cases h3 : J = 0
        · subst h3; simp only [if_neg h1, if_pos h2, if_true, side0]; rw [h2, sideN hnx]; rfl
        · by_cases h4 : J = d.NY
          · simp only [if_neg h1, if_pos h2, if_neg h3, if_pos h4]
            rw [h2, h4, sideN hnx, sideN hny]; rfl
          · simp only [if_neg h1, if_pos h2, if_neg h3, if_neg h4, sideM h3 h4 (by omega)]; rw [h2, sideN hnx]; rfl
      · by_cases h3 : J = 0
        · subst h3; simp only [if_neg h1, if_neg h2, if_true, side0, sideM h1 h2 (by omega)]; rfl
        · by_cases h4 : J = d.NY
          · simp only [if_neg h1, if_neg h2, if_neg h3, if_pos h4, sideM h1 h2 (by omega)]
            rw [h4, sideN hny]; rfl
          · simp only [if_neg h1, if_neg h2, if_neg h3, if_neg h4, sideM h3 h4 (by omega), sideM h1 h2 (by omega)]; rfl
  · intro e he
    rcases (mem_edges2 d b hb.nx hb.ny).1 he with ⟨i, j, hi, hj, rfl⟩ | ⟨i, j, hi, hj, rfl⟩
    · have ax := onAxis_mid hd.x hd.nx (show b.i0 + i < d.NX by omega)
      have ay := onAxis_side hd.y hd.ny (show b.j0 + j ≤ d.NY by omega)
      have cx : ((hE d b i j).v0.x + (hE d b i j).v1.x) / 2 =
          (gridCoord d.X0 d.X1 d.NX (b.i0 + i) + gridCoord d.X0 d.X1 d.NX (b.i0 + i + 1)) / 2 := by
        match j with
        | 0 => rfl
        | j + 1 => simp only [hE, top, mkVert2]; rw [add_comm]; rfl
      have cy : ((hE d b i j).v0.y + (hE d b i j).v1.y) / 2 = gridCoord d.Y0 d.Y1 d.NY (b.j0 + j) := by
        match j with
        | 0 => exact half2 _
        | j + 1 => exact half2 _
      have cl := hE_class d b hb (i := i) hj
      refine ⟨(.mid, posOf (side (b.j0 + j) d.NY)), ?_, by rw [cx]; exact ax, by rw [cy]; exact ay⟩
      rw [show modelEnt2 (hE d b i j).gdim (hE d b i j).gent = modelEnt2 (((hE d b i j).gdim, (hE d b i j).gent) : Nat × Nat).1
        (((hE d b i j).gdim, (hE d b i j).gent) : Nat × Nat).2 from rfl, cl]
      by_cases h1 : b.j0 + j = 0
      · rw [if_pos h1, h1, side0]; rfl
      · by_cases h2 : b.j0 + j = d.NY
        · rw [if_neg h1, if_pos h2, h2, sideN hd.ny]; rfl
        · rw [if_neg h1, if_neg h2, sideM h1 h2 (by omega)]; rfl
    · have ay := onAxis_mid hd.y hd.ny (show b.j0 + j < d.NY by omega)
      have ax := onAxis_side hd.x hd.nx (show b.i0 + i ≤ d.NX by omega)
      have cy : ((vE d b i j).v0.y + (vE d b i j).v1.y) / 2 =
          (gridCoord d.Y0 d.Y1 d.NY (b.j0 + j) + gridCoord d.Y0 d.Y1 d.NY (b.j0 + j + 1)) / 2 := by
        match i with
        | 0 => simp only [vE, lft, mkVert2]; rw [add_comm]; rfl
        | i + 1 => rfl
      have cx : ((vE d b i j).v0.x + (vE d b i j).v1.x) / 2 = gridCoord d.X0 d.X1 d.NX (b.i0 + i) := by
        match i with
        | 0 => exact half2 _
        | i + 1 => exact half2 _
      have cl := vE_class d b hb (j := j) hi
      refine ⟨(posOf (side (b.i0 + i) d.NX), .mid), ?_, by rw [cx]; exact ax, by rw [cy]; exact ay⟩
      rw [show modelEnt2 (vE d b i j).gdim (vE d b i j).gent = modelEnt2 (((vE d b i j).gdim, (vE d b i j).gent) : Nat × Nat).1
        (((vE d b i j).gdim, (vE d b i j).gent) : Nat × Nat).2 from rfl, cl]
      by_cases h1 : b.i0 + i = 0
      · rw [if_pos h1, h1, side0]; rfl
      · by_cases h2 : b.i0 + i = d.NX
        · rw [if_neg h1, if_pos h2, h2, sideN hd.nx]; rfl
        · rw [if_neg h1, if_neg h2, sideM h1 h2 (by omega)]; rfl
  · intro f hf
    obtain ⟨p, hp, rfl⟩ := List.mem_map.1 (show f ∈ (loopIdx2 b.nx b.ny).map (mkFace d b) from hf)
    exact ⟨rfl, rfl⟩

example : ∃ m, generate2 exDom2 exBlk2 = some m ∧ m.edges ≠ [] ∧
    ∀ e ∈ m.edges, OnModel2 exDom2 e.gdim e.gent ((e.v0.x + e.v1.x) / 2) ((e.v0.y + e.v1.y) / 2) := by
  refine ⟨_, generate2_eq exDom2 (by decide) (by decide), by decide +kernel,
    (classification2 exDom2 exDom2_good exBlk2 exBlk2_good _ (generate2_eq exDom2 (by decide) (by decide))).2.1⟩

/-- **C98 (two dimensions).** When the mesh is generated on `np` ranks, every rank succeeds, together they have the vertices, edges
and cells (by global id) of the mesh one rank would generate, and every cell is on exactly one rank. -/
theorem distributed2 (d : Dom2 K) (hd : GoodDom2 d) (np : Nat) (h1 : 1 ≤ np) (hnp : np ≤ nCells2 d) (fuel : Nat)
    (hf : np ≤ fuel) :
    ∃ ms : List (RegMesh2 K), ms.length = np ∧ (∀ r < np, rankMesh2 fuel d np r = ms[r]?) ∧
      (∀ n, (1 ≤ n ∧ n ≤ nVerts2 d) ↔ ∃ m ∈ ms, ∃ v ∈ m.verts, v.id = n) ∧
      (∀ n, (1 ≤ n ∧ n ≤ nEdges2 d) ↔ ∃ m ∈ ms, ∃ e ∈ m.edges, e.id = n) ∧
      (∀ n, (1 ≤ n ∧ n ≤ nCells2 d) ↔ ∃ m ∈ ms, ∃ f ∈ m.faces, f.id = n) ∧
      (∀ (r r' : Nat) (m m' : RegMesh2 K) (f f' : Face2 K), ms[r]? = some m → ms[r']? = some m' → f ∈ m.faces → f' ∈ m'.faces →
        f.id = f'.id → r = r') := by
  obtain ⟨w, hw, nv, ne, nf⟩ := ids2_number_grid d hd
  rw [generate2Serial_eq] at hw
  cases hw
  by_cases hone : np = 1
  · subst hone
    refine ⟨[genOf2 d ⟨0, 0, d.NX, d.NY⟩], rfl, ?_, ?_, ?_, ?_, ?_⟩
    · intro r hr
      have : r = 0 := by omega
      subst this
      unfold rankMesh2
      rw [if_pos rfl]
      exact generate2Serial_eq d
    · intro n; rw [← nv.2 n]; simp
    · intro n; rw [← ne.2 n]; simp
    · intro n; rw [← nf.2 n]; simp
    · intro r r' m m' f f' hr hr' _ _ _
      obtain ⟨a, _⟩ := List.getElem?_eq_some_iff.1 hr
      obtain ⟨a', _⟩ := List.getElem?_eq_some_iff.1 hr'
      simp only [List.length_cons, List.length_nil] at a a'
      omega
  · have hn : ∀ e : Fin 3, e.val < 2 → 0 < numCellsInDir2 d e := by
      intro e he
      match e with
      | 0 => exact hd.nx
      | 1 => exact hd.ny
    have hsz : np ≤ BlockPartition.Spec.gridSize 2 (numCellsInDir2 d) := hnp
    obtain ⟨bs, hlen, hbs⟩ := BlockPartition.blockPartition_returns_request 2 (numCellsInDir2 d) np (by omega) (by omega) hn h1 hsz
    have ht := BlockPartition.blockPartition_tiles 2 (numCellsInDir2 d) np (by omega) (by omega) hn h1 hsz fuel hf bs (hbs fuel hf)
    have hgood : ∀ B ∈ bs, GoodBlk2 d (blkOf2 B) := fun B hB =>
      ⟨ht.nonempty B hB 0 (by decide), ht.nonempty B hB 1 (by decide),
        ht.inside B hB 0 (by decide), ht.inside B hB 1 (by decide)⟩
    have hin : ∀ I J, I < d.NX → J < d.NY → BlockPartition.Spec.InGrid 2 (numCellsInDir2 d) ![I, J, 0] := by
      intro I J hI hJ e he
      match e with
      | 0 => exact hI
      | 1 => exact hJ
    have hcover : ∀ I J, I < d.NX → J < d.NY → ∃ B ∈ bs,
        (blkOf2 B).i0 ≤ I ∧ I < (blkOf2 B).i0 + (blkOf2 B).nx ∧ (blkOf2 B).j0 ≤ J ∧ J < (blkOf2 B).j0 + (blkOf2 B).ny := by
      intro I J hI hJ
      obtain ⟨i, hi, _⟩ := ht.cover _ (hin I J hI hJ)
      exact ⟨bs[i], List.getElem_mem _, (hi 0 (by decide)).1, (hi 0 (by decide)).2, (hi 1 (by decide)).1, (hi 1 (by decide)).2⟩
    have px := hd.nx
    have py := hd.ny
    have hd0 : GoodBlk2 d ⟨0, 0, d.NX, d.NY⟩ := ⟨hd.nx, hd.ny, by simp, by simp⟩
    refine ⟨bs.map fun B => genOf2 d (blkOf2 B), by rw [List.length_map, hlen], ?_, ?_, ?_, ?_, ?_⟩
    · intro r hr
      unfold rankMesh2
      rw [if_neg hone, hbs fuel hf]
      show (bs[r]?.bind _) = _
      rw [List.getElem?_map, List.getElem?_eq_getElem (by omega)]
      have := hgood bs[r] (List.getElem_mem _)
      exact generate2_eq d this.nx this.ny
    · intro n
      rw [← nv.2 n]
      simp only [List.mem_map, exists_exists_and_eq_and]
      constructor
      · rintro ⟨v, hv, rfl⟩
        obtain ⟨i, j, hi, hj, rfl⟩ := (mem_mkVerts2 d _).1 hv
        dsimp only at hi hj
        obtain ⟨B, hB, c1, c2, c3, c4⟩ := hcover (min i (d.NX - 1)) (min j (d.NY - 1)) (by omega) (by omega)
        refine ⟨B, hB, mkVert2 d (blkOf2 B) (i - (blkOf2 B).i0) (j - (blkOf2 B).j0),
          (mem_mkVerts2 d _).2 ⟨_, _, by omega, by omega, rfl⟩, ?_⟩
        have e1 : (blkOf2 B).i0 + (i - (blkOf2 B).i0) = i := by omega
        have e2 : (blkOf2 B).j0 + (j - (blkOf2 B).j0) = j := by omega
        simp only [mkVert2, e1, e2, Nat.zero_add]
      · rintro ⟨B, hB, v, hv, rfl⟩
        obtain ⟨i, j, hi, hj, rfl⟩ := (mem_mkVerts2 d _).1 hv
        have hg := hgood B hB
        have := hg.ix
        have := hg.iy
        refine ⟨mkVert2 d ⟨0, 0, d.NX, d.NY⟩ ((blkOf2 B).i0 + i) ((blkOf2 B).j0 + j),
          (mem_mkVerts2 d _).2 ⟨_, _, by dsimp only; omega, by dsimp only; omega, rfl⟩, ?_⟩
        simp only [mkVert2, Nat.zero_add]
    · intro n
      rw [← ne.2 n]
      simp only [List.mem_map, exists_exists_and_eq_and]
      constructor
      · rintro ⟨e, he, rfl⟩
        rcases (mem_edges2 d _ hd0.nx hd0.ny).1 he with ⟨i, j, hi, hj, rfl⟩ | ⟨i, j, hi, hj, rfl⟩ <;> dsimp only at hi hj <;>
        obtain ⟨B, hB, c1, c2, c3, c4⟩ := hcover (min i (d.NX - 1)) (min j (d.NY - 1)) (by omega) (by omega) <;>
        have hg := hgood B hB
        · refine ⟨B, hB, hE d (blkOf2 B) (i - (blkOf2 B).i0) (j - (blkOf2 B).j0),
            (mem_edges2 d _ hg.nx hg.ny).2 (.inl ⟨_, _, by omega, by omega, rfl⟩), ?_⟩
          rw [hE_id, hE_id, Nat.add_sub_cancel' (by omega), Nat.add_sub_cancel' (by omega)]
          simp only [Nat.zero_add]
        · refine ⟨B, hB, vE d (blkOf2 B) (i - (blkOf2 B).i0) (j - (blkOf2 B).j0),
            (mem_edges2 d _ hg.nx hg.ny).2 (.inr ⟨_, _, by omega, by omega, rfl⟩), ?_⟩
          rw [vE_id, vE_id, Nat.add_sub_cancel' (by omega), Nat.add_sub_cancel' (by omega)]
          simp only [Nat.zero_add]
      · rintro ⟨B, hB, e, he, rfl⟩
        have hg := hgood B hB
        have := hg.ix
        have := hg.iy
        rcases (mem_edges2 d _ hg.nx hg.ny).1 he with ⟨i, j, hi, hj, rfl⟩ | ⟨i, j, hi, hj, rfl⟩
        · refine ⟨hE d ⟨0, 0, d.NX, d.NY⟩ ((blkOf2 B).i0 + i) ((blkOf2 B).j0 + j),
            (mem_edges2 d _ hd0.nx hd0.ny).2 (.inl ⟨_, _, by dsimp only; omega, by dsimp only; omega, rfl⟩), ?_⟩
          rw [hE_id, hE_id]
          simp only [Nat.zero_add]
        · refine ⟨vE d ⟨0, 0, d.NX, d.NY⟩ ((blkOf2 B).i0 + i) ((blkOf2 B).j0 + j),
            (mem_edges2 d _ hd0.nx hd0.ny).2 (.inr ⟨_, _, by dsimp only; omega, by dsimp only; omega, rfl⟩), ?_⟩
          rw [vE_id, vE_id]
          simp only [Nat.zero_add]
    · intro n
      rw [← nf.2 n]
      have hmf : ∀ (c : Blk2) (n : Nat), (∃ f ∈ (genOf2 d c).faces, f.id = n) ↔
          ∃ i j, (i < c.nx ∧ j < c.ny) ∧ (mkFace d c (i, j)).id = n := by
        intro c n
        constructor
        · rintro ⟨f, hf, rfl⟩
          obtain ⟨⟨i, j⟩, hp, rfl⟩ := List.mem_map.1 hf
          exact ⟨i, j, mem_loopIdx2.1 hp, rfl⟩
        · rintro ⟨i, j, h, rfl⟩
          exact ⟨_, List.mem_map.2 ⟨(i, j), mem_loopIdx2.2 h, rfl⟩, rfl⟩
      rw [List.mem_map, hmf]
      simp only [List.mem_map, exists_exists_and_eq_and, hmf]
      constructor
      · rintro ⟨i, j, ⟨hi, hj⟩, rfl⟩
        obtain ⟨B, hB, c1, c2, c3, c4⟩ := hcover i j hi hj
        refine ⟨B, hB, i - (blkOf2 B).i0, j - (blkOf2 B).j0, ⟨by omega, by omega⟩, ?_⟩
        have e1 : (blkOf2 B).i0 + (i - (blkOf2 B).i0) = i := by omega
        have e2 : (blkOf2 B).j0 + (j - (blkOf2 B).j0) = j := by omega
        simp only [mkFace, e1, e2, Nat.zero_add]
      · rintro ⟨B, hB, i, j, ⟨hi, hj⟩, rfl⟩
        have hg := hgood B hB
        have := hg.ix
        have := hg.iy
        refine ⟨(blkOf2 B).i0 + i, (blkOf2 B).j0 + j, ⟨by omega, by omega⟩, ?_⟩
        simp only [mkFace, Nat.zero_add]
    · intro r r' m m' f f' hr hr' hfm hfm' hid
      rw [List.getElem?_map] at hr hr'
      obtain ⟨B, hB, rfl⟩ := Option.map_eq_some_iff.1 hr
      obtain ⟨B', hB', rfl⟩ := Option.map_eq_some_iff.1 hr'
      obtain ⟨hrl, rfl⟩ := List.getElem?_eq_some_iff.1 hB
      obtain ⟨hrl', rfl⟩ := List.getElem?_eq_some_iff.1 hB'
      have hg := hgood _ (List.getElem_mem hrl)
      have hg' := hgood _ (List.getElem_mem hrl')
      obtain ⟨⟨i, j⟩, hp, rfl⟩ := List.mem_map.1 hfm
      obtain ⟨⟨i', j'⟩, hp', rfl⟩ := List.mem_map.1 hfm'
      rw [mem_loopIdx2] at hp hp'
      have i1 := hg.ix
      have i2 := hg.iy
      have i3 := hg'.ix
      have i4 := hg'.iy
      dsimp only at hp hp'
      simp only [mkFace] at hid
      obtain ⟨e1, e2⟩ := radix_inj (S := d.NY) (by omega) (by omega) (Nat.succ.inj hid)
      obtain ⟨k, _, hu⟩ := ht.cover _ (hin ((blkOf2 bs[r]).i0 + i) ((blkOf2 bs[r]).j0 + j) (by omega) (by omega))
      have q1 := hu ⟨r, hrl⟩ (by
        intro e he
        match e with
        | 0 => exact ⟨Nat.le_add_right _ _, Nat.add_lt_add_left hp.1 _⟩
        | 1 => exact ⟨Nat.le_add_right _ _, Nat.add_lt_add_left hp.2 _⟩)
      have q2 := hu ⟨r', hrl'⟩ (by
        rw [e1, e2]
        intro e he
        match e with
        | 0 => exact ⟨Nat.le_add_right _ _, Nat.add_lt_add_left hp'.1 _⟩
        | 1 => exact ⟨Nat.le_add_right _ _, Nat.add_lt_add_left hp'.2 _⟩)
      exact congrArg Fin.val (q1.trans q2.symm)

example : ∃ ms : List (RegMesh2 ℚ), ms.length = 4 ∧ (∀ r < 4, rankMesh2 5 exDom2 4 r = ms[r]?) ∧
    ∀ n, (1 ≤ n ∧ n ≤ 6) ↔ ∃ m ∈ ms, ∃ f ∈ m.faces, f.id = n := by
  obtain ⟨ms, a, b, _, _, c, _⟩ := distributed2 exDom2 exDom2_good 4 (by decide) (by decide) 5 (by decide)
  exact ⟨ms, a, b, c⟩

end
end Jali.MstkGen
