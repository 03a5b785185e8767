import Verif.Model.Regions
import Verif.Spec.Geometry
import Mathlib.Tactic.Ring
import Mathlib.Tactic.Linarith
/-! Lemmas on loops over coordinates. -/
namespace Jali.Geom

theorem foldl_and (f : Nat → Bool) (l : List Nat) : ∀ b : Bool, l.foldl (fun r i => r && f i) b = (b && l.all f) := by
  induction l with
  | nil => intro b; simp
  | cons a l ih => intro b; rw [List.foldl_cons, ih, List.all_cons, Bool.and_assoc]

theorem foldl_and_range (f : Nat → Bool) (n : Nat) :
    (List.range n).foldl (fun r i => r && f i) true = true ↔ ∀ i, i < n → f i = true := by
  rw [foldl_and, Bool.true_and, List.all_eq_true]
  simp only [List.mem_range]

theorem foldl_sum (f : Nat → ℝ) (l : List Nat) : ∀ s : ℝ, l.foldl (fun s i => s + f i) s = s + (l.map f).sum := by
  induction l with
  | nil => intro s; simp
  | cons a l ih => intro s; rw [List.foldl_cons, ih, List.map_cons, List.sum_cons]; ring

theorem foldl_sum_sub (n p q : Nat → ℝ) (l : List Nat) :
    l.foldl (fun s i => s + n i * p i) 0 - l.foldl (fun s i => s + n i * q i) 0 = (l.map fun i => n i * (p i - q i)).sum := by
  rw [foldl_sum, foldl_sum]
  induction l with
  | nil => simp
  | cons a l ih => rw [List.map_cons, List.map_cons, List.map_cons, List.sum_cons, List.sum_cons, List.sum_cons, ← ih]; ring

theorem foldl_count (f : Nat → Prop) [DecidablePred f] (l : List Nat) :
    ∀ k : Nat, l.foldl (fun k i => if f i then k + 1 else k) k = k + l.countP fun i => decide (f i) := by
  induction l with
  | nil => intro k; simp
  | cons a l ih =>
    intro k
    rw [List.foldl_cons, ih, List.countP_cons]
    by_cases h : f a
    · simp [h]; omega
    · simp [h]

theorem foldl_uncount (f : Nat → Prop) [DecidablePred f] (l : List Nat) :
    ∀ k : Nat, l.foldl (fun k i => if f i then k - 1 else k) k = k - l.countP fun i => decide (f i) := by
  induction l with
  | nil => intro k; simp
  | cons a l ih =>
    intro k
    rw [List.foldl_cons, ih, List.countP_cons]
    by_cases h : f a
    · simp [h]; omega
    · simp [h]

theorem count_add (f : Nat → Prop) [DecidablePred f] (l : List Nat) :
    (l.countP fun i => decide (f i)) + (l.countP fun i => decide (¬ f i)) = l.length := by
  induction l with
  | nil => rfl
  | cons a l ih =>
    rw [List.countP_cons, List.countP_cons, List.length_cons]
    by_cases h : f a
    · simp [h] at ih ⊢; omega
    · simp [h] at ih ⊢; omega

theorem between_iff (x a b : ℝ) : between x a b = true ↔ min a b - 1 / 10 ^ 8 ≤ x ∧ x ≤ max a b + 1 / 10 ^ 8 := by
  unfold between
  rw [decide_eq_true_eq]
  rcases le_total a b with h | h
  · rw [min_eq_left h, max_eq_right h]
    constructor
    · rintro (⟨h1, h2⟩ | ⟨h1, h2⟩) <;> constructor <;> linarith
    · rintro ⟨h1, h2⟩; right; constructor <;> linarith
  · rw [min_eq_right h, max_eq_left h]
    constructor
    · rintro (⟨h1, h2⟩ | ⟨h1, h2⟩) <;> constructor <;> linarith
    · rintro ⟨h1, h2⟩; left; constructor <;> linarith

theorem mkBox_eq (name : String) (id : Nat) (p0 p1 : Point) (lc : LifeCycle) (h : p0.d = p1.d) :
    mkBox name id p0 p1 lc = .value (.box ⟨name, id,
      p0.d - (List.range p0.d).countP (fun i => decide (p0.coord i = p1.coord i)), lc⟩ p0 p1) := by
  unfold mkBox
  rw [if_neg (not_not.2 h)]
  dsimp only
  rw [foldl_uncount (fun i => p0.coord i = p1.coord i)]
  congr 3
  split <;> omega

end Jali.Geom
