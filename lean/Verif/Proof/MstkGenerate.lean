import Verif.Spec.MstkGenerate
import Mathlib.Tactic.Ring
import Mathlib.Tactic.FieldSimp
import Mathlib.Tactic.Linarith
import Mathlib.Tactic.LinearCombination
import Mathlib.Data.List.Nodup
import Mathlib.Algebra.Order.Field.Basic
/-! Lemmas on the generation of regular meshes. -/
namespace Jali.MstkGen
open Spec

/-! ### Loops -/

theorem mem_loopIdx {na nb nc : Nat} {p : Nat × Nat × Nat} :
    p ∈ loopIdx na nb nc ↔ p.1 < na ∧ p.2.1 < nb ∧ p.2.2 < nc := by
  obtain ⟨a, b, c⟩ := p
  simp only [loopIdx, List.mem_flatMap, List.mem_range, List.mem_map, Prod.mk.injEq]
  constructor
  · rintro ⟨a', ha, b', hb, c', hc, rfl, rfl, rfl⟩
    exact ⟨ha, hb, hc⟩
  · rintro ⟨ha, hb, hc⟩
    exact ⟨a, ha, b, hb, c, hc, rfl, rfl, rfl⟩

theorem nodup_loopIdx (na nb nc : Nat) : (loopIdx na nb nc).Nodup := by
  unfold loopIdx
  rw [List.nodup_flatMap]
  constructor
  · intro a _
    rw [List.nodup_flatMap]
    constructor
    · intro b _
      exact List.nodup_range.map (fun c c' h => by simpa using h)
    · refine List.Pairwise.imp_of_mem ?_ (List.nodup_range (n := nb))
      intro b b' _ _ hne
      simp only [Function.onFun, List.Disjoint, List.mem_map, List.mem_range]
      rintro p ⟨c, _, rfl⟩ ⟨c', _, h⟩
      simp only [Prod.mk.injEq] at h
      exact hne h.2.1.symm
  · refine List.Pairwise.imp_of_mem ?_ (List.nodup_range (n := na))
    intro a a' _ _ hne
    simp only [Function.onFun, List.Disjoint, List.mem_flatMap, List.mem_map, List.mem_range]
    rintro p ⟨b, _, c, _, rfl⟩ ⟨b', _, c', _, h⟩
    simp only [Prod.mk.injEq] at h
    exact hne h.1.symm

theorem mapM_some {α β : Type} {l : List α} {f : α → Option β} {g : α → β} (h : ∀ a ∈ l, f a = some (g a)) :
    l.mapM f = some (l.map g) := by
  induction l with
  | nil => rfl
  | cons a l ih =>
    rw [List.mapM_cons, h a (by simp), ih (fun x hx => h x (by simp [hx]))]
    rfl

/-! ### The vertices -/

section
variable {K : Type} [Field K]

/-- the vertex generated at a grid point -/
def V (d : Dom K) (I J L : Nat) : Vert K where
  x := gridCoord d.X0 d.X1 d.NX I
  y := gridCoord d.Y0 d.Y1 d.NY J
  z := gridCoord d.Z0 d.Z1 d.NZ L
  gdim := vgdim (side I d.NX) (side J d.NY) (side L d.NZ)
  gent := vgid (side I d.NX) (side J d.NY) (side L d.NZ)
  id := I * (d.NY + 1) * (d.NZ + 1) + J * (d.NZ + 1) + L + 1

theorem mkVert_eq (d : Dom K) (b : Blk) (i j k : Nat) : mkVert d b i j k = V d (b.i0 + i) (b.j0 + j) (b.k0 + k) := rfl

theorem at3_mkVerts (d : Dom K) (b : Blk) {i j k : Nat} (hi : i ≤ b.nx) (hj : j ≤ b.ny) (hk : k ≤ b.nz) :
    at3 (mkVerts d b) i j k = some (V d (b.i0 + i) (b.j0 + j) (b.k0 + k)) := by
  unfold at3 mkVerts
  simp only [List.getElem?_map, List.getElem?_range (show i < b.nx + 1 by omega),
    Option.map_some, Option.bind_eq_bind, Option.bind_some, List.getElem?_range (show j < b.ny + 1 by omega),
    List.getElem?_range (show k < b.nz + 1 by omega), mkVert_eq]

theorem flatten_of_flatMap {α β : Type} (l : List α) (f : α → List (List β)) :
    (l.flatMap f).flatten = l.flatMap fun a => (f a).flatten := by
  induction l with
  | nil => rfl
  | cons a l ih => simp [ih]

theorem flatten_mkVerts (d : Dom K) (b : Blk) :
    (mkVerts d b).flatten.flatten =
      (loopIdx (b.nx + 1) (b.ny + 1) (b.nz + 1)).map fun p => V d (b.i0 + p.1) (b.j0 + p.2.1) (b.k0 + p.2.2) := by
  unfold mkVerts loopIdx
  simp only [← List.flatMap_def, List.map_flatMap, List.map_map, flatten_of_flatMap, mkVert_eq, Function.comp_def,
    List.flatMap_map]

/-! ### Edges, faces, regions -/

/-- ids of edges: axis 0 = Z, 1 = Y, 2 = X -/
def eidZ (d : Dom K) (I J L : Nat) : Nat :=
  I * ((d.NY + 1) * d.NZ + d.NY * (d.NZ + 1) + (d.NY + 1) * (d.NZ + 1)) + J * d.NZ + L + 1
def eidY (d : Dom K) (I J L : Nat) : Nat :=
  I * ((d.NY + 1) * d.NZ + d.NY * (d.NZ + 1) + (d.NY + 1) * (d.NZ + 1)) + (d.NY + 1) * d.NZ + J * (d.NZ + 1) + L + 1
def eidX (d : Dom K) (I J L : Nat) : Nat :=
  I * ((d.NY + 1) * d.NZ + d.NY * (d.NZ + 1) + (d.NY + 1) * (d.NZ + 1)) + (d.NY + 1) * d.NZ + d.NY * (d.NZ + 1) +
    J * (d.NZ + 1) + L + 1

def EZ (d : Dom K) (I J L : Nat) : Edge K :=
  ⟨V d I J L, V d I J (L + 1), egdim (side I d.NX) (side J d.NY), egid2 (side I d.NX) (side J d.NY), eidZ d I J L⟩
def EY (d : Dom K) (I J L : Nat) : Edge K :=
  ⟨V d I J L, V d I (J + 1) L, egdim (side I d.NX) (side L d.NZ), egid1 (side I d.NX) (side L d.NZ), eidY d I J L⟩
def EX (d : Dom K) (I J L : Nat) : Edge K :=
  ⟨V d I J L, V d (I + 1) J L, egdim (side J d.NY) (side L d.NZ), egid0 (side J d.NY) (side L d.NZ), eidX d I J L⟩

def fidX (d : Dom K) (I J L : Nat) : Nat :=
  I * (d.NY * d.NZ + d.NY * (d.NZ + 1) + d.NZ * (d.NY + 1)) + J * d.NZ + L + 1
def fidY (d : Dom K) (I J L : Nat) : Nat :=
  I * (d.NY * d.NZ + d.NY * (d.NZ + 1) + d.NZ * (d.NY + 1)) + d.NY * d.NZ + J * d.NZ + L + 1
def fidZ (d : Dom K) (I J L : Nat) : Nat :=
  I * (d.NY * d.NZ + d.NY * (d.NZ + 1) + d.NZ * (d.NY + 1)) + d.NY * d.NZ + (d.NY + 1) * d.NZ + J * (d.NZ + 1) + L + 1

def FX (d : Dom K) (I J L : Nat) : Face K :=
  ⟨[V d I J L, V d I (J + 1) L, V d I (J + 1) (L + 1), V d I J (L + 1)], fgdim (side I d.NX), fgid0 (side I d.NX),
    fidX d I J L⟩
def FY (d : Dom K) (I J L : Nat) : Face K :=
  ⟨[V d I J L, V d (I + 1) J L, V d (I + 1) J (L + 1), V d I J (L + 1)], fgdim (side J d.NY), fgid1 (side J d.NY),
    fidY d I J L⟩
def FZ (d : Dom K) (I J L : Nat) : Face K :=
  ⟨[V d I J L, V d (I + 1) J L, V d (I + 1) (J + 1) L, V d I (J + 1) L], fgdim (side L d.NZ), fgid2 (side L d.NZ),
    fidZ d I J L⟩

def RG (d : Dom K) (I J L : Nat) : Region K :=
  ⟨[V d I J L, V d (I + 1) J L, V d (I + 1) (J + 1) L, V d I (J + 1) L,
    V d I J (L + 1), V d (I + 1) J (L + 1), V d (I + 1) (J + 1) (L + 1), V d I (J + 1) (L + 1)], 1,
    I * d.NY * d.NZ + J * d.NZ + L + 1⟩

/-- one loop nest shifted to the block -/
def shifted {β : Type} (b : Blk) (g : Nat → Nat → Nat → β) (p : Nat × Nat × Nat) : β :=
  g (b.i0 + p.1) (b.j0 + p.2.1) (b.k0 + p.2.2)

/-- explicit form of the mesh generated for the block -/
def genOf (d : Dom K) (b : Blk) : RegMesh K where
  verts := (loopIdx (b.nx + 1) (b.ny + 1) (b.nz + 1)).map (shifted b (V d))
  edges := (loopIdx (b.nx + 1) (b.ny + 1) b.nz).map (shifted b (EZ d)) ++
    (loopIdx (b.nx + 1) b.ny (b.nz + 1)).map (shifted b (EY d)) ++
    (loopIdx b.nx (b.nz + 1) (b.ny + 1)).map (fun p => shifted b (EX d) (p.1, p.2.2, p.2.1))
  faces := (loopIdx (b.nx + 1) b.ny b.nz).map (shifted b (FX d)) ++
    (loopIdx b.nx (b.ny + 1) b.nz).map (shifted b (FY d)) ++
    (loopIdx b.nx b.ny (b.nz + 1)).map (shifted b (FZ d))
  regions := (loopIdx b.nx b.ny b.nz).map (shifted b (RG d))

theorem fillBlk_id (d : Dom K) {b : Blk} (hx : 0 < b.nx) (hy : 0 < b.ny) (hz : 0 < b.nz) : fillBlk d b = b := by
  unfold fillBlk
  rw [if_neg (by omega), if_neg (by omega), if_neg (by omega)]

theorem generate_fill (d : Dom K) (hx : 0 < d.NX) (hy : 0 < d.NY) (hz : 0 < d.NZ) (b : Blk) :
    generate d b = some (genOf d (fillBlk d b)) := by
  unfold generate
  rw [if_neg (by omega)]
  dsimp only
  generalize fillBlk d b = b
  rw [mapM_some (g := shifted b (EZ d)), mapM_some (g := shifted b (EY d)),
    mapM_some (g := fun p => shifted b (EX d) (p.1, p.2.2, p.2.1)), mapM_some (g := shifted b (FX d)),
    mapM_some (g := shifted b (FY d)), mapM_some (g := shifted b (FZ d)), mapM_some (g := shifted b (RG d)),
    flatten_mkVerts]
  · rfl
  all_goals
    intro p hp
    rw [mem_loopIdx] at hp
    obtain ⟨i, j, k⟩ := p
    dsimp only at hp ⊢
    obtain ⟨h1, h2, h3⟩ := hp
  · unfold mkRegion
    rw [at3_mkVerts d b (by omega) (by omega) (by omega), at3_mkVerts d b (by omega) (by omega) (by omega),
      at3_mkVerts d b (by omega) (by omega) (by omega), at3_mkVerts d b (by omega) (by omega) (by omega),
      at3_mkVerts d b (by omega) (by omega) (by omega), at3_mkVerts d b (by omega) (by omega) (by omega),
      at3_mkVerts d b (by omega) (by omega) (by omega), at3_mkVerts d b (by omega) (by omega) (by omega)]
    rfl
  · unfold faceZ
    rw [at3_mkVerts d b (by omega) (by omega) (by omega), at3_mkVerts d b (by omega) (by omega) (by omega),
      at3_mkVerts d b (by omega) (by omega) (by omega), at3_mkVerts d b (by omega) (by omega) (by omega)]
    rfl
  · unfold faceY
    rw [at3_mkVerts d b (by omega) (by omega) (by omega), at3_mkVerts d b (by omega) (by omega) (by omega),
      at3_mkVerts d b (by omega) (by omega) (by omega), at3_mkVerts d b (by omega) (by omega) (by omega)]
    rfl
  · unfold faceX
    rw [at3_mkVerts d b (by omega) (by omega) (by omega), at3_mkVerts d b (by omega) (by omega) (by omega),
      at3_mkVerts d b (by omega) (by omega) (by omega), at3_mkVerts d b (by omega) (by omega) (by omega)]
    rfl
  · unfold edgeX
    rw [at3_mkVerts d b (by omega) (by omega) (by omega), at3_mkVerts d b (by omega) (by omega) (by omega)]
    rfl
  · unfold edgeY
    rw [at3_mkVerts d b (by omega) (by omega) (by omega), at3_mkVerts d b (by omega) (by omega) (by omega)]
    rfl
  · unfold edgeZ
    rw [at3_mkVerts d b (by omega) (by omega) (by omega), at3_mkVerts d b (by omega) (by omega) (by omega)]
    rfl

/-! ### Membership -/

theorem mem_map_shifted {β : Type} (b : Blk) (g : Nat → Nat → Nat → β) {na nb nc : Nat} {e : β} :
    e ∈ (loopIdx na nb nc).map (shifted b g) ↔
      ∃ I J L, b.i0 ≤ I ∧ I < b.i0 + na ∧ b.j0 ≤ J ∧ J < b.j0 + nb ∧ b.k0 ≤ L ∧ L < b.k0 + nc ∧ e = g I J L := by
  simp only [List.mem_map, mem_loopIdx]
  constructor
  · rintro ⟨⟨i, j, k⟩, ⟨h1, h2, h3⟩, rfl⟩
    dsimp only at h1 h2 h3
    exact ⟨b.i0 + i, b.j0 + j, b.k0 + k, by omega, by omega, by omega, by omega, by omega, by omega, rfl⟩
  · rintro ⟨I, J, L, h1, h2, h3, h4, h5, h6, rfl⟩
    refine ⟨(I - b.i0, J - b.j0, L - b.k0), ⟨by dsimp only; omega, by dsimp only; omega, by dsimp only; omega⟩, ?_⟩
    show g (b.i0 + (I - b.i0)) (b.j0 + (J - b.j0)) (b.k0 + (L - b.k0)) = _
    rw [Nat.add_sub_cancel' h1, Nat.add_sub_cancel' h3, Nat.add_sub_cancel' h5]

theorem mem_map_shifted' {β : Type} (b : Blk) (g : Nat → Nat → Nat → β) {na nb nc : Nat} {e : β} :
    e ∈ (loopIdx na nc nb).map (fun p => shifted b g (p.1, p.2.2, p.2.1)) ↔
      ∃ I J L, b.i0 ≤ I ∧ I < b.i0 + na ∧ b.j0 ≤ J ∧ J < b.j0 + nb ∧ b.k0 ≤ L ∧ L < b.k0 + nc ∧ e = g I J L := by
  rw [← mem_map_shifted b g]
  simp only [List.mem_map, mem_loopIdx]
  constructor
  · rintro ⟨⟨i, k, j⟩, ⟨h1, h2, h3⟩, rfl⟩
    exact ⟨(i, j, k), ⟨h1, h3, h2⟩, rfl⟩
  · rintro ⟨⟨i, j, k⟩, ⟨h1, h2, h3⟩, rfl⟩
    exact ⟨(i, k, j), ⟨h1, h3, h2⟩, rfl⟩

theorem mem_verts (d : Dom K) (b : Blk) {v : Vert K} : v ∈ (genOf d b).verts ↔
    ∃ I J L, b.i0 ≤ I ∧ I < b.i0 + (b.nx + 1) ∧ b.j0 ≤ J ∧ J < b.j0 + (b.ny + 1) ∧ b.k0 ≤ L ∧ L < b.k0 + (b.nz + 1) ∧
      v = V d I J L := mem_map_shifted b (V d)

/-- the three families of edges -/
inductive IsE (d : Dom K) (b : Blk) : Edge K → Prop
  | z {I J L : Nat} : b.i0 ≤ I → I < b.i0 + (b.nx + 1) → b.j0 ≤ J → J < b.j0 + (b.ny + 1) → b.k0 ≤ L → L < b.k0 + b.nz →
      IsE d b (EZ d I J L)
  | y {I J L : Nat} : b.i0 ≤ I → I < b.i0 + (b.nx + 1) → b.j0 ≤ J → J < b.j0 + b.ny → b.k0 ≤ L → L < b.k0 + (b.nz + 1) →
      IsE d b (EY d I J L)
  | x {I J L : Nat} : b.i0 ≤ I → I < b.i0 + b.nx → b.j0 ≤ J → J < b.j0 + (b.ny + 1) → b.k0 ≤ L → L < b.k0 + (b.nz + 1) →
      IsE d b (EX d I J L)

theorem mem_edges (d : Dom K) (b : Blk) {e : Edge K} : e ∈ (genOf d b).edges ↔ IsE d b e := by
  show e ∈ _ ++ _ ++ _ ↔ _
  rw [List.mem_append, List.mem_append, mem_map_shifted, mem_map_shifted, mem_map_shifted']
  constructor
  · rintro ((⟨I, J, L, h1, h2, h3, h4, h5, h6, rfl⟩ | ⟨I, J, L, h1, h2, h3, h4, h5, h6, rfl⟩) |
      ⟨I, J, L, h1, h2, h3, h4, h5, h6, rfl⟩)
    · exact .z h1 h2 h3 h4 h5 h6
    · exact .y h1 h2 h3 h4 h5 h6
    · exact .x h1 h2 h3 h4 h5 h6
  · rintro (⟨h1, h2, h3, h4, h5, h6⟩ | ⟨h1, h2, h3, h4, h5, h6⟩ | ⟨h1, h2, h3, h4, h5, h6⟩)
    · exact .inl (.inl ⟨_, _, _, h1, h2, h3, h4, h5, h6, rfl⟩)
    · exact .inl (.inr ⟨_, _, _, h1, h2, h3, h4, h5, h6, rfl⟩)
    · exact .inr ⟨_, _, _, h1, h2, h3, h4, h5, h6, rfl⟩

/-- the three families of faces -/
inductive IsF (d : Dom K) (b : Blk) : Face K → Prop
  | x {I J L : Nat} : b.i0 ≤ I → I < b.i0 + (b.nx + 1) → b.j0 ≤ J → J < b.j0 + b.ny → b.k0 ≤ L → L < b.k0 + b.nz →
      IsF d b (FX d I J L)
  | y {I J L : Nat} : b.i0 ≤ I → I < b.i0 + b.nx → b.j0 ≤ J → J < b.j0 + (b.ny + 1) → b.k0 ≤ L → L < b.k0 + b.nz →
      IsF d b (FY d I J L)
  | z {I J L : Nat} : b.i0 ≤ I → I < b.i0 + b.nx → b.j0 ≤ J → J < b.j0 + b.ny → b.k0 ≤ L → L < b.k0 + (b.nz + 1) →
      IsF d b (FZ d I J L)

theorem mem_faces (d : Dom K) (b : Blk) {f : Face K} : f ∈ (genOf d b).faces ↔ IsF d b f := by
  show f ∈ _ ++ _ ++ _ ↔ _
  rw [List.mem_append, List.mem_append, mem_map_shifted, mem_map_shifted, mem_map_shifted]
  constructor
  · rintro ((⟨I, J, L, h1, h2, h3, h4, h5, h6, rfl⟩ | ⟨I, J, L, h1, h2, h3, h4, h5, h6, rfl⟩) |
      ⟨I, J, L, h1, h2, h3, h4, h5, h6, rfl⟩)
    · exact .x h1 h2 h3 h4 h5 h6
    · exact .y h1 h2 h3 h4 h5 h6
    · exact .z h1 h2 h3 h4 h5 h6
  · rintro (⟨h1, h2, h3, h4, h5, h6⟩ | ⟨h1, h2, h3, h4, h5, h6⟩ | ⟨h1, h2, h3, h4, h5, h6⟩)
    · exact .inl (.inl ⟨_, _, _, h1, h2, h3, h4, h5, h6, rfl⟩)
    · exact .inl (.inr ⟨_, _, _, h1, h2, h3, h4, h5, h6, rfl⟩)
    · exact .inr ⟨_, _, _, h1, h2, h3, h4, h5, h6, rfl⟩

theorem mem_regions (d : Dom K) (b : Blk) {r : Region K} : r ∈ (genOf d b).regions ↔
    ∃ I J L, b.i0 ≤ I ∧ I < b.i0 + b.nx ∧ b.j0 ≤ J ∧ J < b.j0 + b.ny ∧ b.k0 ≤ L ∧ L < b.k0 + b.nz ∧
      r = RG d I J L := mem_map_shifted b (RG d)

end

/-! ### Numbering -/

theorem radix_inj {S i i' r r' : Nat} (h : r < S) (h' : r' < S) (e : i * S + r = i' * S + r') : i = i' ∧ r = r' := by
  have hS : 0 < S := by omega
  have h1 : (i * S + r) / S = i := by
    rw [Nat.mul_comm, Nat.mul_add_div hS, Nat.div_eq_of_lt h, Nat.add_zero]
  have h2 : (i' * S + r') / S = i' := by
    rw [Nat.mul_comm, Nat.mul_add_div hS, Nat.div_eq_of_lt h', Nat.add_zero]
  have : i = i' := by rw [← h1, ← h2, e]
  subst this
  exact ⟨rfl, by omega⟩

theorem radix_lt {A B j k : Nat} (hj : j < A) (hk : k < B) : j * B + k < A * B := by
  have : (j + 1) * B ≤ A * B := Nat.mul_le_mul_right B hj
  rw [Nat.succ_mul] at this
  omega

section
variable {K : Type} [Field K]

theorem vid_inj (d : Dom K) {I J L I' J' L' : Nat} (hJ : J ≤ d.NY) (hL : L ≤ d.NZ) (hJ' : J' ≤ d.NY) (hL' : L' ≤ d.NZ)
    (e : (V d I J L).id = (V d I' J' L').id) : I = I' ∧ J = J' ∧ L = L' := by
  simp only [V] at e
  have e' : I * ((d.NY + 1) * (d.NZ + 1)) + (J * (d.NZ + 1) + L) =
      I' * ((d.NY + 1) * (d.NZ + 1)) + (J' * (d.NZ + 1) + L') := by
    rw [← Nat.mul_assoc, ← Nat.mul_assoc]; omega
  obtain ⟨rfl, e2⟩ := radix_inj (radix_lt (by omega) (by omega)) (radix_lt (by omega) (by omega)) e'
  obtain ⟨rfl, rfl⟩ := radix_inj (by omega) (by omega) e2
  exact ⟨rfl, rfl, rfl⟩

theorem rid_inj (d : Dom K) {I J L I' J' L' : Nat} (hJ : J < d.NY) (hL : L < d.NZ) (hJ' : J' < d.NY) (hL' : L' < d.NZ)
    (e : (RG d I J L).id = (RG d I' J' L').id) : I = I' ∧ J = J' ∧ L = L' := by
  simp only [RG] at e
  have e' : I * (d.NY * d.NZ) + (J * d.NZ + L) = I' * (d.NY * d.NZ) + (J' * d.NZ + L') := by
    rw [← Nat.mul_assoc, ← Nat.mul_assoc]; omega
  obtain ⟨rfl, e2⟩ := radix_inj (radix_lt (by omega) (by omega)) (radix_lt (by omega) (by omega)) e'
  obtain ⟨rfl, rfl⟩ := radix_inj (by omega) (by omega) e2
  exact ⟨rfl, rfl, rfl⟩

/-- offset of an edge within its layer -/
theorem eid_layer (d : Dom K) (b : Blk) (hb : b.j0 + b.ny ≤ d.NY) (hz : b.k0 + b.nz ≤ d.NZ) {e : Edge K} (h : IsE d b e) :
    ∃ I r, r < (d.NY + 1) * d.NZ + d.NY * (d.NZ + 1) + (d.NY + 1) * (d.NZ + 1) ∧
      e.id = I * ((d.NY + 1) * d.NZ + d.NY * (d.NZ + 1) + (d.NY + 1) * (d.NZ + 1)) + r + 1 ∧
      ((∃ J L, J ≤ d.NY ∧ L < d.NZ ∧ e = EZ d I J L ∧ r = J * d.NZ + L) ∨
       (∃ J L, J < d.NY ∧ L ≤ d.NZ ∧ e = EY d I J L ∧ r = (d.NY + 1) * d.NZ + (J * (d.NZ + 1) + L)) ∨
       (∃ J L, J ≤ d.NY ∧ L ≤ d.NZ ∧ e = EX d I J L ∧
          r = (d.NY + 1) * d.NZ + d.NY * (d.NZ + 1) + (J * (d.NZ + 1) + L))) := by
  rcases h with @⟨I, J, L, h1, h2, h3, h4, h5, h6⟩ | @⟨I, J, L, h1, h2, h3, h4, h5, h6⟩ | @⟨I, J, L, h1, h2, h3, h4, h5, h6⟩
  · have := radix_lt (show J < d.NY + 1 by omega) (show L < d.NZ by omega)
    exact ⟨I, J * d.NZ + L, by omega, by simp only [EZ, eidZ]; omega, .inl ⟨J, L, by omega, by omega, rfl, rfl⟩⟩
  · have := radix_lt (show J < d.NY by omega) (show L < d.NZ + 1 by omega)
    exact ⟨I, (d.NY + 1) * d.NZ + (J * (d.NZ + 1) + L), by omega, by simp only [EY, eidY]; omega,
      .inr (.inl ⟨J, L, by omega, by omega, rfl, rfl⟩)⟩
  · have := radix_lt (show J < d.NY + 1 by omega) (show L < d.NZ + 1 by omega)
    exact ⟨I, (d.NY + 1) * d.NZ + d.NY * (d.NZ + 1) + (J * (d.NZ + 1) + L), by omega,
      by simp only [EX, eidX]; omega, .inr (.inr ⟨J, L, by omega, by omega, rfl, rfl⟩)⟩

theorem eid_inj (d : Dom K) (b b' : Blk) (hb : b.j0 + b.ny ≤ d.NY) (hz : b.k0 + b.nz ≤ d.NZ)
    (hb' : b'.j0 + b'.ny ≤ d.NY) (hz' : b'.k0 + b'.nz ≤ d.NZ) {e e' : Edge K} (h : IsE d b e) (h' : IsE d b' e')
    (he : e.id = e'.id) : e = e' := by
  obtain ⟨I, r, hr, hid, hc⟩ := eid_layer d b hb hz h
  obtain ⟨I', r', hr', hid', hc'⟩ := eid_layer d b' hb' hz' h'
  obtain ⟨rfl, rfl⟩ := radix_inj hr hr' (show I * _ + r = I' * _ + r' by omega)
  rcases hc with ⟨J, L, hJ, hL, rfl, rfl⟩ | ⟨J, L, hJ, hL, rfl, rfl⟩ | ⟨J, L, hJ, hL, rfl, rfl⟩
  · have := radix_lt (show J < d.NY + 1 by omega) hL
    rcases hc' with ⟨J', L', hJ', hL', rfl, e2⟩ | ⟨J', L', hJ', hL', rfl, e2⟩ | ⟨J', L', hJ', hL', rfl, e2⟩
    · obtain ⟨rfl, rfl⟩ := radix_inj hL hL' e2; rfl
    · omega
    · omega
  · have := radix_lt hJ (show L < d.NZ + 1 by omega)
    rcases hc' with ⟨J', L', hJ', hL', rfl, e2⟩ | ⟨J', L', hJ', hL', rfl, e2⟩ | ⟨J', L', hJ', hL', rfl, e2⟩
    · have := radix_lt (show J' < d.NY + 1 by omega) hL'; omega
    · obtain ⟨rfl, rfl⟩ := radix_inj (S := d.NZ + 1) (by omega) (by omega) (show J * _ + L = J' * _ + L' by omega); rfl
    · omega
  · rcases hc' with ⟨J', L', hJ', hL', rfl, e2⟩ | ⟨J', L', hJ', hL', rfl, e2⟩ | ⟨J', L', hJ', hL', rfl, e2⟩
    · have := radix_lt (show J' < d.NY + 1 by omega) hL'; omega
    · have := radix_lt hJ' (show L' < d.NZ + 1 by omega); omega
    · obtain ⟨rfl, rfl⟩ := radix_inj (S := d.NZ + 1) (by omega) (by omega) (show J * _ + L = J' * _ + L' by omega); rfl

/-- offset of a face within its layer -/
theorem fid_layer (d : Dom K) (b : Blk) (hb : b.j0 + b.ny ≤ d.NY) (hz : b.k0 + b.nz ≤ d.NZ) {f : Face K} (h : IsF d b f) :
    ∃ I r, r < d.NY * d.NZ + d.NY * (d.NZ + 1) + d.NZ * (d.NY + 1) ∧
      f.id = I * (d.NY * d.NZ + d.NY * (d.NZ + 1) + d.NZ * (d.NY + 1)) + r + 1 ∧
      ((∃ J L, J < d.NY ∧ L < d.NZ ∧ f = FX d I J L ∧ r = J * d.NZ + L) ∨
       (∃ J L, J ≤ d.NY ∧ L < d.NZ ∧ f = FY d I J L ∧ r = d.NY * d.NZ + (J * d.NZ + L)) ∨
       (∃ J L, J < d.NY ∧ L ≤ d.NZ ∧ f = FZ d I J L ∧ r = d.NY * d.NZ + (d.NY + 1) * d.NZ + (J * (d.NZ + 1) + L))) := by
  have hc : d.NZ * (d.NY + 1) = (d.NY + 1) * d.NZ := Nat.mul_comm _ _
  rcases h with @⟨I, J, L, h1, h2, h3, h4, h5, h6⟩ | @⟨I, J, L, h1, h2, h3, h4, h5, h6⟩ | @⟨I, J, L, h1, h2, h3, h4, h5, h6⟩
  · have := radix_lt (show J < d.NY by omega) (show L < d.NZ by omega)
    exact ⟨I, J * d.NZ + L, by omega, by simp only [FX, fidX]; omega, .inl ⟨J, L, by omega, by omega, rfl, rfl⟩⟩
  · have := radix_lt (show J < d.NY + 1 by omega) (show L < d.NZ by omega)
    exact ⟨I, d.NY * d.NZ + (J * d.NZ + L), by omega, by simp only [FY, fidY]; omega,
      .inr (.inl ⟨J, L, by omega, by omega, rfl, rfl⟩)⟩
  · have := radix_lt (show J < d.NY by omega) (show L < d.NZ + 1 by omega)
    exact ⟨I, d.NY * d.NZ + (d.NY + 1) * d.NZ + (J * (d.NZ + 1) + L), by omega,
      by simp only [FZ, fidZ]; omega, .inr (.inr ⟨J, L, by omega, by omega, rfl, rfl⟩)⟩

theorem fid_inj (d : Dom K) (b b' : Blk) (hb : b.j0 + b.ny ≤ d.NY) (hz : b.k0 + b.nz ≤ d.NZ)
    (hb' : b'.j0 + b'.ny ≤ d.NY) (hz' : b'.k0 + b'.nz ≤ d.NZ) {e e' : Face K} (h : IsF d b e) (h' : IsF d b' e')
    (he : e.id = e'.id) : e = e' := by
  obtain ⟨I, r, hr, hid, hc⟩ := fid_layer d b hb hz h
  obtain ⟨I', r', hr', hid', hc'⟩ := fid_layer d b' hb' hz' h'
  obtain ⟨rfl, rfl⟩ := radix_inj hr hr' (show I * _ + r = I' * _ + r' by omega)
  rcases hc with ⟨J, L, hJ, hL, rfl, rfl⟩ | ⟨J, L, hJ, hL, rfl, rfl⟩ | ⟨J, L, hJ, hL, rfl, rfl⟩
  · have := radix_lt hJ hL
    rcases hc' with ⟨J', L', hJ', hL', rfl, e2⟩ | ⟨J', L', hJ', hL', rfl, e2⟩ | ⟨J', L', hJ', hL', rfl, e2⟩
    · obtain ⟨rfl, rfl⟩ := radix_inj hL hL' e2; rfl
    · omega
    · omega
  · have := radix_lt (show J < d.NY + 1 by omega) hL
    rcases hc' with ⟨J', L', hJ', hL', rfl, e2⟩ | ⟨J', L', hJ', hL', rfl, e2⟩ | ⟨J', L', hJ', hL', rfl, e2⟩
    · have := radix_lt hJ' hL'; omega
    · obtain ⟨rfl, rfl⟩ := radix_inj hL hL' (show J * _ + L = J' * _ + L' by omega); rfl
    · omega
  · rcases hc' with ⟨J', L', hJ', hL', rfl, e2⟩ | ⟨J', L', hJ', hL', rfl, e2⟩ | ⟨J', L', hJ', hL', rfl, e2⟩
    · have := radix_lt hJ' hL'; omega
    · have := radix_lt (show J' < d.NY + 1 by omega) hL'; omega
    · obtain ⟨rfl, rfl⟩ := radix_inj (S := d.NZ + 1) (by omega) (by omega) (show J * _ + L = J' * _ + L' by omega); rfl

/-! ### No duplicates -/

theorem nodup_shifted {β : Type} (b : Blk) (g : Nat → Nat → Nat → β) (na nb nc : Nat)
    (h : ∀ I J L I' J' L', J < b.j0 + nb → L < b.k0 + nc → J' < b.j0 + nb → L' < b.k0 + nc →
      g I J L = g I' J' L' → I = I' ∧ J = J' ∧ L = L') :
    ((loopIdx na nb nc).map (shifted b g)).Nodup := by
  refine List.Nodup.map_on ?_ (nodup_loopIdx na nb nc)
  rintro ⟨i, j, k⟩ hp ⟨i', j', k'⟩ hp' e
  rw [mem_loopIdx] at hp hp'
  dsimp only at hp hp'
  obtain ⟨a, c, f⟩ := h (b.i0 + i) (b.j0 + j) (b.k0 + k) (b.i0 + i') (b.j0 + j') (b.k0 + k') (by omega) (by omega) (by omega) (by omega) e
  simp only [Prod.mk.injEq]
  omega

theorem nodup_shifted' {β : Type} (b : Blk) (g : Nat → Nat → Nat → β) (na nb nc : Nat)
    (h : ∀ I J L I' J' L', J < b.j0 + nb → L < b.k0 + nc → J' < b.j0 + nb → L' < b.k0 + nc →
      g I J L = g I' J' L' → I = I' ∧ J = J' ∧ L = L') :
    ((loopIdx na nc nb).map (fun p => shifted b g (p.1, p.2.2, p.2.1))).Nodup := by
  refine List.Nodup.map_on ?_ (nodup_loopIdx na nc nb)
  rintro ⟨i, k, j⟩ hp ⟨i', k', j'⟩ hp' e
  rw [mem_loopIdx] at hp hp'
  dsimp only at hp hp'
  obtain ⟨a, c, f⟩ := h (b.i0 + i) (b.j0 + j) (b.k0 + k) (b.i0 + i') (b.j0 + j') (b.k0 + k') (by omega) (by omega) (by omega) (by omega) e
  simp only [Prod.mk.injEq]
  omega

theorem edges_id_nodup (d : Dom K) (b : Blk) (hb : b.j0 + b.ny ≤ d.NY) (hz : b.k0 + b.nz ≤ d.NZ) :
    (genOf d b).edges.Nodup ∧ ((genOf d b).edges.map Edge.id).Nodup := by
  have hnd : (genOf d b).edges.Nodup := by
    show (_ ++ _ ++ _ : List (Edge K)).Nodup
    have hzl : ∀ e : Edge K, e ∈ (loopIdx (b.nx + 1) (b.ny + 1) b.nz).map (shifted b (EZ d)) →
        ∃ I J L, J ≤ d.NY ∧ L < d.NZ ∧ e = EZ d I J L := by
      intro e he
      rw [mem_map_shifted] at he
      obtain ⟨I, J, L, _, _, _, _, _, _, rfl⟩ := he
      exact ⟨I, J, L, by omega, by omega, rfl⟩
    have hyl : ∀ e : Edge K, e ∈ (loopIdx (b.nx + 1) b.ny (b.nz + 1)).map (shifted b (EY d)) →
        ∃ I J L, J < d.NY ∧ L ≤ d.NZ ∧ e = EY d I J L := by
      intro e he
      rw [mem_map_shifted] at he
      obtain ⟨I, J, L, _, _, _, _, _, _, rfl⟩ := he
      exact ⟨I, J, L, by omega, by omega, rfl⟩
    have hxl : ∀ e : Edge K, e ∈ (loopIdx b.nx (b.nz + 1) (b.ny + 1)).map (fun p => shifted b (EX d) (p.1, p.2.2, p.2.1)) →
        ∃ I J L, J ≤ d.NY ∧ L ≤ d.NZ ∧ e = EX d I J L := by
      intro e he
      rw [mem_map_shifted'] at he
      obtain ⟨I, J, L, _, _, _, _, _, _, rfl⟩ := he
      exact ⟨I, J, L, by omega, by omega, rfl⟩
    rw [List.nodup_append, List.nodup_append]
    refine ⟨⟨nodup_shifted b _ _ _ _ ?_, nodup_shifted b _ _ _ _ ?_, ?_⟩, nodup_shifted' b _ _ _ _ ?_, ?_⟩
    · intro I J L I' J' L' h1 h2 h3 h4 e
      exact vid_inj d (by omega) (by omega) (by omega) (by omega) (congrArg (fun e : Edge K => e.v0.id) e)
    · intro I J L I' J' L' h1 h2 h3 h4 e
      exact vid_inj d (by omega) (by omega) (by omega) (by omega) (congrArg (fun e : Edge K => e.v0.id) e)
    · rintro e he e' he' rfl
      obtain ⟨I, J, L, h1, h2, rfl⟩ := hzl e he
      obtain ⟨I', J', L', h1', h2', e2⟩ := hyl _ he'
      obtain ⟨rfl, rfl, rfl⟩ := vid_inj d (by omega) (by omega) (by omega) (by omega) (congrArg (fun e : Edge K => e.v0.id) e2)
      have := vid_inj d (by omega) (by omega) (by omega) (by omega) (congrArg (fun e : Edge K => e.v1.id) e2)
      omega
    · intro I J L I' J' L' h1 h2 h3 h4 e
      exact vid_inj d (by omega) (by omega) (by omega) (by omega) (congrArg (fun e : Edge K => e.v0.id) e)
    · rintro e he e' he' rfl
      obtain ⟨I', J', L', h1', h2', e2⟩ := hxl _ he'
      rw [List.mem_append] at he
      rcases he with he | he
      · obtain ⟨I, J, L, h1, h2, rfl⟩ := hzl e he
        obtain ⟨rfl, rfl, rfl⟩ := vid_inj d (by omega) (by omega) (by omega) (by omega) (congrArg (fun e : Edge K => e.v0.id) e2)
        have := vid_inj d (by omega) (by omega) (by omega) (by omega) (congrArg (fun e : Edge K => e.v1.id) e2)
        omega
      · obtain ⟨I, J, L, h1, h2, rfl⟩ := hyl e he
        obtain ⟨rfl, rfl, rfl⟩ := vid_inj d (by omega) (by omega) (by omega) (by omega) (congrArg (fun e : Edge K => e.v0.id) e2)
        have := vid_inj d (by omega) (by omega) (by omega) (by omega) (congrArg (fun e : Edge K => e.v1.id) e2)
        omega
  refine ⟨hnd, hnd.map_on ?_⟩
  intro e he e' he' h
  exact eid_inj d b b hb hz hb hz ((mem_edges d b).1 he) ((mem_edges d b).1 he') h

/-- second and third vertex of a face -/
def fv (f : Face K) (n : Nat) : Nat := (f.vs[n]?.map Vert.id).getD 0

theorem faces_id_nodup (d : Dom K) (b : Blk) (hb : b.j0 + b.ny ≤ d.NY) (hz : b.k0 + b.nz ≤ d.NZ) :
    (genOf d b).faces.Nodup ∧ ((genOf d b).faces.map Face.id).Nodup := by
  have hnd : (genOf d b).faces.Nodup := by
    show (_ ++ _ ++ _ : List (Face K)).Nodup
    have hxl : ∀ e : Face K, e ∈ (loopIdx (b.nx + 1) b.ny b.nz).map (shifted b (FX d)) →
        ∃ I J L, J < d.NY ∧ L < d.NZ ∧ e = FX d I J L := by
      intro e he
      rw [mem_map_shifted] at he
      obtain ⟨I, J, L, _, _, _, _, _, _, rfl⟩ := he
      exact ⟨I, J, L, by omega, by omega, rfl⟩
    have hyl : ∀ e : Face K, e ∈ (loopIdx b.nx (b.ny + 1) b.nz).map (shifted b (FY d)) →
        ∃ I J L, J ≤ d.NY ∧ L < d.NZ ∧ e = FY d I J L := by
      intro e he
      rw [mem_map_shifted] at he
      obtain ⟨I, J, L, _, _, _, _, _, _, rfl⟩ := he
      exact ⟨I, J, L, by omega, by omega, rfl⟩
    have hzl : ∀ e : Face K, e ∈ (loopIdx b.nx b.ny (b.nz + 1)).map (shifted b (FZ d)) →
        ∃ I J L, J < d.NY ∧ L ≤ d.NZ ∧ e = FZ d I J L := by
      intro e he
      rw [mem_map_shifted] at he
      obtain ⟨I, J, L, _, _, _, _, _, _, rfl⟩ := he
      exact ⟨I, J, L, by omega, by omega, rfl⟩
    rw [List.nodup_append, List.nodup_append]
    refine ⟨⟨nodup_shifted b _ _ _ _ ?_, nodup_shifted b _ _ _ _ ?_, ?_⟩, nodup_shifted b _ _ _ _ ?_, ?_⟩
    · intro I J L I' J' L' h1 h2 h3 h4 e
      exact vid_inj d (by omega) (by omega) (by omega) (by omega) (congrArg (fun e : Face K => fv e 0) e)
    · intro I J L I' J' L' h1 h2 h3 h4 e
      exact vid_inj d (by omega) (by omega) (by omega) (by omega) (congrArg (fun e : Face K => fv e 0) e)
    · rintro e he e' he' rfl
      obtain ⟨I, J, L, h1, h2, rfl⟩ := hxl e he
      obtain ⟨I', J', L', h1', h2', e2⟩ := hyl _ he'
      obtain ⟨rfl, rfl, rfl⟩ := vid_inj d (by omega) (by omega) (by omega) (by omega) (congrArg (fun e : Face K => fv e 0) e2)
      have := vid_inj d (by omega) (by omega) (by omega) (by omega) (congrArg (fun e : Face K => fv e 1) e2)
      omega
    · intro I J L I' J' L' h1 h2 h3 h4 e
      exact vid_inj d (by omega) (by omega) (by omega) (by omega) (congrArg (fun e : Face K => fv e 0) e)
    · rintro e he e' he' rfl
      obtain ⟨I', J', L', h1', h2', e2⟩ := hzl _ he'
      rw [List.mem_append] at he
      rcases he with he | he
      · obtain ⟨I, J, L, h1, h2, rfl⟩ := hxl e he
        obtain ⟨rfl, rfl, rfl⟩ := vid_inj d (by omega) (by omega) (by omega) (by omega) (congrArg (fun e : Face K => fv e 0) e2)
        have := vid_inj d (by omega) (by omega) (by omega) (by omega) (congrArg (fun e : Face K => fv e 1) e2)
        omega
      · obtain ⟨I, J, L, h1, h2, rfl⟩ := hyl e he
        obtain ⟨rfl, rfl, rfl⟩ := vid_inj d (by omega) (by omega) (by omega) (by omega) (congrArg (fun e : Face K => fv e 0) e2)
        have := vid_inj d (by omega) (by omega) (by omega) (by omega) (congrArg (fun e : Face K => fv e 3) e2)
        omega
  refine ⟨hnd, hnd.map_on ?_⟩
  intro e he e' he' h
  exact fid_inj d b b hb hz hb hz ((mem_faces d b).1 he) ((mem_faces d b).1 he') h

theorem verts_id_nodup (d : Dom K) (b : Blk) (hb : b.j0 + b.ny ≤ d.NY) (hz : b.k0 + b.nz ≤ d.NZ) :
    (genOf d b).verts.Nodup ∧ ((genOf d b).verts.map Vert.id).Nodup := by
  have hnd : (genOf d b).verts.Nodup := by
    refine nodup_shifted b _ _ _ _ ?_
    intro I J L I' J' L' h1 h2 h3 h4 e
    exact vid_inj d (by omega) (by omega) (by omega) (by omega) (congrArg Vert.id e)
  refine ⟨hnd, hnd.map_on ?_⟩
  intro v hv v' hv' h
  obtain ⟨I, J, L, _, _, _, _, _, _, rfl⟩ := (mem_verts d b).1 hv
  obtain ⟨I', J', L', _, _, _, _, _, _, rfl⟩ := (mem_verts d b).1 hv'
  obtain ⟨rfl, rfl, rfl⟩ := vid_inj d (by omega) (by omega) (by omega) (by omega) h
  rfl

theorem regions_id_nodup (d : Dom K) (b : Blk) (hb : b.j0 + b.ny ≤ d.NY) (hz : b.k0 + b.nz ≤ d.NZ) :
    (genOf d b).regions.Nodup ∧ ((genOf d b).regions.map Region.id).Nodup := by
  have hnd : (genOf d b).regions.Nodup := by
    refine nodup_shifted b _ _ _ _ ?_
    intro I J L I' J' L' h1 h2 h3 h4 e
    exact rid_inj d (by omega) (by omega) (by omega) (by omega) (congrArg Region.id e)
  refine ⟨hnd, hnd.map_on ?_⟩
  intro v hv v' hv' h
  obtain ⟨I, J, L, _, _, _, _, _, _, rfl⟩ := (mem_regions d b).1 hv
  obtain ⟨I', J', L', _, _, _, _, _, _, rfl⟩ := (mem_regions d b).1 hv'
  obtain ⟨rfl, rfl, rfl⟩ := rid_inj d (by omega) (by omega) (by omega) (by omega) h
  rfl

/-! ### The ids of the whole mesh are `1 .. n` -/

theorem unradix {A B r : Nat} (h : r < A * B) : ∃ J L, J < A ∧ L < B ∧ r = J * B + L := by
  have hB : 0 < B := by
    rcases Nat.eq_zero_or_pos B with rfl | h' <;> simp_all
  exact ⟨r / B, r % B, (Nat.div_lt_iff_lt_mul hB).2 h, Nat.mod_lt _ hB, (Nat.div_add_mod' r B).symm⟩

/-- the block that is the whole grid -/
def whole (d : Dom K) : Blk := ⟨0, 0, 0, d.NX, d.NY, d.NZ⟩

theorem verts_numbers (d : Dom K) : Numbers ((genOf d (whole d)).verts.map Vert.id) (nVerts d) := by
  refine ⟨(verts_id_nodup d (whole d) (by simp [whole]) (by simp [whole])).2, fun m => ?_⟩
  simp only [List.mem_map]
  constructor
  · rintro ⟨v, hv, rfl⟩
    obtain ⟨I, J, L, _, h1, _, h2, _, h3, rfl⟩ := (mem_verts d _).1 hv
    simp only [whole, Nat.zero_add] at h1 h2 h3
    have e1 := radix_lt h2 h3
    have e2 := radix_lt h1 e1
    simp only [V, nVerts]
    rw [Nat.mul_assoc (d.NX + 1), Nat.mul_assoc I]
    omega
  · rintro ⟨h1, h2⟩
    have h3 : m - 1 < (d.NX + 1) * ((d.NY + 1) * (d.NZ + 1)) := by
      rw [← Nat.mul_assoc]
      simp only [nVerts] at h2
      omega
    obtain ⟨I, r, hI, hr, e⟩ := unradix h3
    obtain ⟨J, L, hJ, hL, rfl⟩ := unradix hr
    refine ⟨V d I J L, (mem_verts d _).2 ⟨I, J, L, Nat.zero_le _, by simp only [whole]; omega, Nat.zero_le _,
      by simp only [whole]; omega, Nat.zero_le _, by simp only [whole]; omega, rfl⟩, ?_⟩
    simp only [V]
    rw [Nat.mul_assoc I]
    omega

theorem regions_numbers (d : Dom K) : Numbers ((genOf d (whole d)).regions.map Region.id) (nCells d) := by
  refine ⟨(regions_id_nodup d (whole d) (by simp [whole]) (by simp [whole])).2, fun m => ?_⟩
  simp only [List.mem_map]
  constructor
  · rintro ⟨v, hv, rfl⟩
    obtain ⟨I, J, L, _, h1, _, h2, _, h3, rfl⟩ := (mem_regions d _).1 hv
    simp only [whole, Nat.zero_add] at h1 h2 h3
    have e1 := radix_lt h2 h3
    have e2 := radix_lt h1 e1
    simp only [RG, nCells]
    rw [Nat.mul_assoc d.NX, Nat.mul_assoc I]
    omega
  · rintro ⟨h1, h2⟩
    have h3 : m - 1 < d.NX * (d.NY * d.NZ) := by
      rw [← Nat.mul_assoc]
      simp only [nCells] at h2
      omega
    obtain ⟨I, r, hI, hr, e⟩ := unradix h3
    obtain ⟨J, L, hJ, hL, rfl⟩ := unradix hr
    refine ⟨RG d I J L, (mem_regions d _).2 ⟨I, J, L, Nat.zero_le _, by simp only [whole]; omega, Nat.zero_le _,
      by simp only [whole]; omega, Nat.zero_le _, by simp only [whole]; omega, rfl⟩, ?_⟩
    simp only [RG]
    rw [Nat.mul_assoc I]
    omega

theorem edges_numbers (d : Dom K) : Numbers ((genOf d (whole d)).edges.map Edge.id) (nEdges d) := by
  refine ⟨(edges_id_nodup d (whole d) (by simp [whole]) (by simp [whole])).2, fun m => ?_⟩
  have htot : nEdges d = d.NX * ((d.NY + 1) * d.NZ + d.NY * (d.NZ + 1) + (d.NY + 1) * (d.NZ + 1)) +
      ((d.NY + 1) * d.NZ + d.NY * (d.NZ + 1)) := by
    unfold nEdges; ring
  simp only [List.mem_map]
  constructor
  · rintro ⟨e, he, rfl⟩
    rw [htot]
    generalize hS : (d.NY + 1) * d.NZ + d.NY * (d.NZ + 1) + (d.NY + 1) * (d.NZ + 1) = S
    rcases (mem_edges d _).1 he with @⟨I, J, L, _, h1, _, h2, _, h3⟩ | @⟨I, J, L, _, h1, _, h2, _, h3⟩ |
      @⟨I, J, L, _, h1, _, h2, _, h3⟩
    all_goals simp only [whole, Nat.zero_add] at h1 h2 h3
    · have e1 := radix_lt h2 h3
      have e2 : I * S ≤ d.NX * S := Nat.mul_le_mul_right S (by omega)
      simp only [EZ, eidZ, hS]
      omega
    · have e1 := radix_lt h2 h3
      have e2 : I * S ≤ d.NX * S := Nat.mul_le_mul_right S (by omega)
      simp only [EY, eidY, hS]
      omega
    · have e1 := radix_lt h2 h3
      have e2 : (I + 1) * S ≤ d.NX * S := Nat.mul_le_mul_right S (by omega)
      rw [Nat.succ_mul] at e2
      simp only [EX, eidX, hS]
      omega
  · rintro ⟨h1, h2⟩
    rw [htot] at h2
    have h3 : m - 1 < (d.NX + 1) * ((d.NY + 1) * d.NZ + d.NY * (d.NZ + 1) + (d.NY + 1) * (d.NZ + 1)) := by
      rw [Nat.succ_mul]; omega
    obtain ⟨I, r, hI, hr, e⟩ := unradix h3
    have hlast : r < (d.NY + 1) * d.NZ + d.NY * (d.NZ + 1) ∨ I < d.NX := by
      by_cases hIN : I < d.NX
      · exact .inr hIN
      · have : I = d.NX := by omega
        subst this
        left; omega
    by_cases c1 : r < (d.NY + 1) * d.NZ
    · obtain ⟨J, L, hJ, hL, rfl⟩ := unradix c1
      refine ⟨EZ d I J L, (mem_edges d _).2 (.z (Nat.zero_le _) (by simp only [whole]; omega) (Nat.zero_le _)
        (by simp only [whole]; omega) (Nat.zero_le _) (by simp only [whole]; omega)), ?_⟩
      simp only [EZ, eidZ]
      omega
    · by_cases c2 : r - (d.NY + 1) * d.NZ < d.NY * (d.NZ + 1)
      · obtain ⟨J, L, hJ, hL, er⟩ := unradix c2
        refine ⟨EY d I J L, (mem_edges d _).2 (.y (Nat.zero_le _) (by simp only [whole]; omega) (Nat.zero_le _)
          (by simp only [whole]; omega) (Nat.zero_le _) (by simp only [whole]; omega)), ?_⟩
        simp only [EY, eidY]
        omega
      · obtain ⟨J, L, hJ, hL, er⟩ := unradix
          (show r - ((d.NY + 1) * d.NZ + d.NY * (d.NZ + 1)) < (d.NY + 1) * (d.NZ + 1) by omega)
        refine ⟨EX d I J L, (mem_edges d _).2 (.x (Nat.zero_le _) (by simp only [whole]; omega) (Nat.zero_le _)
          (by simp only [whole]; omega) (Nat.zero_le _) (by simp only [whole]; omega)), ?_⟩
        simp only [EX, eidX]
        omega

theorem faces_numbers (d : Dom K) : Numbers ((genOf d (whole d)).faces.map Face.id) (nFaces d) := by
  refine ⟨(faces_id_nodup d (whole d) (by simp [whole]) (by simp [whole])).2, fun m => ?_⟩
  have htot : nFaces d = d.NX * (d.NY * d.NZ + d.NY * (d.NZ + 1) + d.NZ * (d.NY + 1)) + d.NY * d.NZ := by
    unfold nFaces; ring
  have hc : d.NZ * (d.NY + 1) = (d.NY + 1) * d.NZ := Nat.mul_comm _ _
  simp only [List.mem_map]
  constructor
  · rintro ⟨e, he, rfl⟩
    rw [htot]
    generalize hS : d.NY * d.NZ + d.NY * (d.NZ + 1) + d.NZ * (d.NY + 1) = S
    rcases (mem_faces d _).1 he with @⟨I, J, L, _, h1, _, h2, _, h3⟩ | @⟨I, J, L, _, h1, _, h2, _, h3⟩ |
      @⟨I, J, L, _, h1, _, h2, _, h3⟩
    all_goals simp only [whole, Nat.zero_add] at h1 h2 h3
    · have e1 := radix_lt h2 h3
      have e2 : I * S ≤ d.NX * S := Nat.mul_le_mul_right S (by omega)
      simp only [FX, fidX, hS]
      omega
    · have e1 := radix_lt h2 h3
      have e2 : (I + 1) * S ≤ d.NX * S := Nat.mul_le_mul_right S (by omega)
      rw [Nat.succ_mul] at e2
      simp only [FY, fidY, hS]
      omega
    · have e1 := radix_lt h2 h3
      have e2 : (I + 1) * S ≤ d.NX * S := Nat.mul_le_mul_right S (by omega)
      rw [Nat.succ_mul] at e2
      simp only [FZ, fidZ, hS]
      omega
  · rintro ⟨h1, h2⟩
    rw [htot] at h2
    have h3 : m - 1 < (d.NX + 1) * (d.NY * d.NZ + d.NY * (d.NZ + 1) + d.NZ * (d.NY + 1)) := by
      rw [Nat.succ_mul]; omega
    obtain ⟨I, r, hI, hr, e⟩ := unradix h3
    have hlast : r < d.NY * d.NZ ∨ I < d.NX := by
      by_cases hIN : I < d.NX
      · exact .inr hIN
      · have : I = d.NX := by omega
        subst this
        left; omega
    by_cases c1 : r < d.NY * d.NZ
    · obtain ⟨J, L, hJ, hL, rfl⟩ := unradix c1
      refine ⟨FX d I J L, (mem_faces d _).2 (.x (Nat.zero_le _) (by simp only [whole]; omega) (Nat.zero_le _)
        (by simp only [whole]; omega) (Nat.zero_le _) (by simp only [whole]; omega)), ?_⟩
      simp only [FX, fidX]
      omega
    · by_cases c2 : r - d.NY * d.NZ < (d.NY + 1) * d.NZ
      · obtain ⟨J, L, hJ, hL, er⟩ := unradix c2
        refine ⟨FY d I J L, (mem_faces d _).2 (.y (Nat.zero_le _) (by simp only [whole]; omega) (Nat.zero_le _)
          (by simp only [whole]; omega) (Nat.zero_le _) (by simp only [whole]; omega)), ?_⟩
        simp only [FY, fidY]
        omega
      · obtain ⟨J, L, hJ, hL, er⟩ := unradix
          (show r - (d.NY * d.NZ + (d.NY + 1) * d.NZ) < d.NY * (d.NZ + 1) by omega)
        refine ⟨FZ d I J L, (mem_faces d _).2 (.z (Nat.zero_le _) (by simp only [whole]; omega) (Nat.zero_le _)
          (by simp only [whole]; omega) (Nat.zero_le _) (by simp only [whole]; omega)), ?_⟩
        simp only [FZ, fidZ]
        omega

theorem generate_eq (d : Dom K) (hx : 0 < d.NX) (hy : 0 < d.NY) (hz : 0 < d.NZ) {b : Blk} (bx : 0 < b.nx) (by' : 0 < b.ny)
    (bz : 0 < b.nz) : generate d b = some (genOf d b) := by
  rw [generate_fill d hx hy hz, fillBlk_id d bx by' bz]

theorem generateSerial_eq (d : Dom K) (hx : 0 < d.NX) (hy : 0 < d.NY) (hz : 0 < d.NZ) :
    generateSerial d = some (genOf d (whole d)) := by
  unfold generateSerial
  rw [generate_fill d hx hy hz]
  rfl

end

/-! ### Coordinates -/

section
variable {K : Type} [Field K] [LinearOrder K] [IsStrictOrderedRing K]

theorem gridCoord_eq (a b : K) {n : Nat} (hn : 0 < n) (i : Nat) : gridCoord a b n i = gridPt a b n i := by
  have hn' : (n : K) ≠ 0 := by exact_mod_cast hn.ne'
  unfold gridCoord gridPt
  split
  · next h => subst h; field_simp; ring
  · field_simp

theorem gridPt_lt {a b : K} (h : a < b) {n : Nat} (hn : 0 < n) {i j : Nat} (hij : i < j) :
    gridPt a b n i < gridPt a b n j := by
  have hn' : (0 : K) < n := by exact_mod_cast hn
  have hij' : (i : K) < j := by exact_mod_cast hij
  have : (i : K) / n < j / n := (div_lt_div_iff_of_pos_right hn').2 hij'
  have := mul_lt_mul_of_pos_right this (sub_pos.2 h)
  unfold gridPt
  linarith

theorem gridPt_inj {a b : K} (h : a < b) {n : Nat} (hn : 0 < n) {i j : Nat} (e : gridPt a b n i = gridPt a b n j) :
    i = j := by
  rcases Nat.lt_trichotomy i j with h1 | h1 | h1
  · exact absurd e (gridPt_lt h hn h1).ne
  · exact h1
  · exact absurd e (gridPt_lt h hn h1).ne'

theorem gridPt_zero (a b : K) (n : Nat) : gridPt a b n 0 = a := by simp [gridPt]
theorem gridPt_last (a b : K) {n : Nat} (hn : 0 < n) : gridPt a b n n = b := by
  have hn' : (n : K) ≠ 0 := by exact_mod_cast hn.ne'
  unfold gridPt
  field_simp
  ring

theorem pos_V (d : Dom K) (hd : GoodDom d) (I J L : Nat) : pos (V d I J L) = gpt d I J L := by
  simp only [pos, V, gpt, gridCoord_eq _ _ hd.nx, gridCoord_eq _ _ hd.ny, gridCoord_eq _ _ hd.nz]

theorem gpt_inj (d : Dom K) (hd : GoodDom d) {I J L I' J' L' : Nat} (e : gpt d I J L = gpt d I' J' L') :
    I = I' ∧ J = J' ∧ L = L' := by
  simp only [gpt, Prod.mk.injEq] at e
  exact ⟨gridPt_inj hd.x hd.nx e.1, gridPt_inj hd.y hd.ny e.2.1, gridPt_inj hd.z hd.nz e.2.2⟩

end
end Jali.MstkGen
