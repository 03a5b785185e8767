import Verif.Model.Partition
import Verif.Spec.BlockPartition
import Mathlib.Data.List.Basic
import Mathlib.Data.List.Perm.Basic
import Mathlib.Data.Rat.Floor
import Mathlib.Algebra.Order.Field.Rat
import Mathlib.Tactic.Linarith
import Mathlib.Tactic.FieldSimp
import Mathlib.Tactic.Positivity
/-! Helper lemmas for the partitioners. -/
namespace Jali.Partition

theorem fillPart_eq (n left index : Nat) (h : index ≤ n) :
    fillPart n left index =
      (List.range' index (min left (n - index)), index + min left (n - index)) := by
  induction left generalizing index with
  | zero => simp [fillPart]
  | succ l ih =>
    simp only [fillPart]
    split
    · next hlt =>
      rw [ih (index + 1) (by omega)]
      have : min (l + 1) (n - index) = min l (n - (index + 1)) + 1 := by omega
      rw [this, List.range'_succ]
      simp only [Prod.mk.injEq, true_and]
      omega
    · next hge =>
      have : n - index = 0 := by omega
      simp [this]

theorem fillParts_flatten (n m parts index : Nat) (h : index ≤ n) :
    (fillParts n m parts index).flatten = List.range' index (min (parts * m) (n - index)) := by
  induction parts generalizing index with
  | zero => simp [fillParts]
  | succ p ih =>
    simp only [fillParts, fillPart_eq n m index h, List.flatten_cons]
    rw [ih _ (by omega)]
    have : min ((p + 1) * m) (n - index) =
        min m (n - index) + min (p * m) (n - (index + min m (n - index))) := by
      rw [Nat.add_mul, Nat.one_mul]; omega
    rw [this, List.range'_append_1]

theorem fillParts_length (n m parts index : Nat) : (fillParts n m parts index).length = parts := by
  induction parts generalizing index with
  | zero => rfl
  | succ p ih => simp [fillParts, ih]

theorem fillParts_get (n m parts index : Nat) (h : index ≤ n) (i : Nat)
    (hi : i < (fillParts n m parts index).length) :
    (fillParts n m parts index)[i] = List.range' (min (index + i * m) n) (min m (n - (index + i * m))) := by
  induction parts generalizing index i with
  | zero => simp [fillParts] at hi
  | succ p ih =>
    cases i with
    | zero =>
      simp only [fillParts, fillPart_eq n m index h, List.getElem_cons_zero, Nat.zero_mul, Nat.add_zero]
      rw [Nat.min_eq_left h]
    | succ i =>
      simp only [fillParts, List.getElem_cons_succ]
      simp only [fillPart_eq n m index h]
      rw [ih _ (by omega)]
      have e : (i + 1) * m = i * m + m := by ring
      by_cases hm : m ≤ n - index
      · rw [Nat.min_eq_left hm]
        congr 2 <;> omega
      · have h1 : min m (n - (index + min m (n - index) + i * m)) = 0 := by omega
        have h2 : min m (n - (index + (i + 1) * m)) = 0 := by omega
        rw [h1, h2]; simp

theorem le_mul_max (n p : Nat) (hp : 0 < p) : n ≤ p * maxCellsPerTile n p := by
  have h := Rat.le_ceil (x := (n : Rat) / (p : Rat) + 1 / 2)
  have hp' : (0 : Rat) < p := by exact_mod_cast hp
  have h1 : (n : Rat) / p ≤ ((((n : Rat) / (p : Rat) + 1 / 2).ceil : Int) : Rat) := by linarith
  have h0 : (0 : Rat) ≤ (n : Rat) / p := by positivity
  have hc : 0 ≤ ((n : Rat) / (p : Rat) + 1 / 2).ceil := by
    have : (0 : Rat) ≤ ((((n : Rat) / (p : Rat) + 1 / 2).ceil : Int) : Rat) := le_trans h0 h1
    exact_mod_cast this
  rw [div_le_iff₀ hp'] at h1
  have h2 : (n : Rat) ≤ ((p * maxCellsPerTile n p : Nat) : Rat) := by
    have e : ((maxCellsPerTile n p : Nat) : Rat) =
        ((((n : Rat) / (p : Rat) + 1 / 2).ceil : Int) : Rat) := by
      have : ((maxCellsPerTile n p : Nat) : Int) = ((n : Rat) / (p : Rat) + 1 / 2).ceil := by
        simp only [maxCellsPerTile, Int.toNat_of_nonneg hc]
      rw [← this]; simp
    push_cast
    rw [e]; linarith
  exact_mod_cast h2

theorem bucket_eq (f : Nat → Nat) (cells : List Nat) (parts : List (List Nat))
    (h : ∀ c ∈ cells, f c < parts.length) :
    bucket f cells parts = some (parts.mapIdx fun i l => l ++ cells.filter fun c => f c = i) := by
  induction cells generalizing parts with
  | nil =>
    simp only [bucket, List.filter_nil, List.append_nil]
    congr 1
    apply List.ext_getElem <;> simp
  | cons c cs ih =>
    have hc := h c (by simp)
    simp only [bucket, pushAt, hc, if_true, Option.bind_some]
    rw [ih _ (by intro x hx; simpa using h x (by simp [hx]))]
    congr 1
    apply List.ext_getElem
    · simp
    · intro i h1 h2
      simp only [List.getElem_mapIdx, List.getElem_modify]
      by_cases hi : f c = i
      · simp [hi]
      · simp [hi]

theorem distribute_eq_bucket {K : Type} [Field K] [LinearOrder K] (dim : Nat) (limits : List ((Nat → K) × (Nat → K)))
    (ccen : Nat → Nat → K) (f : Nat → Nat) (cells : List Nat) (parts : List (List Nat))
    (h : ∀ c ∈ cells, findBlock dim limits (ccen c) = some (f c)) :
    distribute dim limits ccen cells parts = bucket f cells parts := by
  induction cells generalizing parts with
  | nil => rfl
  | cons c cs ih =>
    simp only [distribute, bucket, h c (by simp)]
    congr 1
    funext ps
    exact ih ps (fun x hx => h x (by simp [hx]))

/-- the parts obtained by sorting cells by part number contain each cell once -/
theorem filter_parts_perm (f : Nat → Nat) (p : Nat) (cells : List Nat) (h : ∀ c ∈ cells, f c < p) :
    ((List.range p).map fun i => cells.filter fun c => f c = i).flatten.Perm cells := by
  induction p generalizing cells with
  | zero =>
    cases cells with
    | nil => simp
    | cons c cs => exact absurd (h c (by simp)) (by omega)
  | succ p ih =>
    rw [List.range_succ, List.map_append, List.flatten_append]
    simp only [List.map_cons, List.map_nil, List.flatten_cons, List.flatten_nil, List.append_nil]
    have h1 := ih (cells.filter fun c => f c < p) (by intro c hc; simpa using (List.mem_filter.1 hc).2)
    have e : ((List.range p).map fun i => (cells.filter fun c => f c < p).filter fun c => f c = i) =
        (List.range p).map fun i => cells.filter fun c => f c = i := by
      apply List.map_congr_left
      intro i hi
      rw [List.filter_filter]
      apply List.filter_congr
      intro c _
      have := List.mem_range.1 hi
      by_cases hc : f c = i <;> simp [hc, this]
    rw [e] at h1
    have e2 : (cells.filter fun c => f c = p) = cells.filter fun c => !(decide (f c < p)) := by
      apply List.filter_congr
      intro c hc
      have := h c hc
      by_cases hcp : f c = p
      · simp [hcp]
      · have : f c < p := by omega
        simp [hcp, this]
    rw [e2]
    exact (h1.append_right _).trans (List.filter_append_perm _ _)

end Jali.Partition
