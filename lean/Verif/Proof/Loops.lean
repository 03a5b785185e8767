import Verif.Model.Loops
import Mathlib.Data.List.Induction
import Mathlib.Tactic.Ring
import Mathlib.Tactic.Linarith
/-! Lemmas about loops, writes and slot appends. -/
namespace Jali

theorem mem_loop3 {α : Type} {mx my mz : Nat} {body : Nat → Nat → Nat → List α} {x : α} :
    x ∈ loop3 mx my mz body ↔ ∃ i j k, i < mx ∧ j < my ∧ k < mz ∧ x ∈ body i j k := by
  simp only [loop3, List.mem_flatMap, List.mem_range]
  constructor
  · rintro ⟨k, hk, j, hj, i, hi, h⟩; exact ⟨i, j, k, hi, hj, hk, h⟩
  · rintro ⟨i, j, k, hi, hj, hk, h⟩; exact ⟨k, hk, j, hj, i, hi, h⟩

/-- The list of writes never writes two different values to one address. -/
def Functional {α : Type} (ws : List (Nat × α)) : Prop :=
  ∀ a x y, (a, x) ∈ ws → (a, y) ∈ ws → x = y

theorem runWrites_not_mem {α : Type} (ws : List (Nat × α)) (v : Nat → α) (a : Nat)
    (h : ∀ x, (a, x) ∉ ws) : runWrites v ws a = v a := by
  induction ws generalizing v with
  | nil => rfl
  | cons w ws ih =>
    obtain ⟨b, y⟩ := w
    simp only [runWrites]
    rw [ih _ (fun x hx => h x (by simp [hx]))]
    have : a ≠ b := by rintro rfl; exact h y (by simp)
    simp [put, this]

theorem runWrites_mem {α : Type} (ws : List (Nat × α)) (hf : Functional ws) (v : Nat → α)
    (a : Nat) (x : α) (h : (a, x) ∈ ws) : runWrites v ws a = x := by
  induction ws generalizing v with
  | nil => simp at h
  | cons w ws ih =>
    obtain ⟨b, y⟩ := w
    have hf' : Functional ws := fun a x y hx hy => hf a x y (by simp [hx]) (by simp [hy])
    simp only [runWrites]
    by_cases hm : ∃ z, (a, z) ∈ ws
    · obtain ⟨z, hz⟩ := hm
      rw [ih hf' _ ?_]
      have := hf a x z h (by simp [hz])
      rwa [this]
    · have hm : ∀ z, (a, z) ∉ ws := fun z hz => hm ⟨z, hz⟩
      rw [runWrites_not_mem ws _ a hm]
      simp only [List.mem_cons, Prod.mk.injEq] at h
      rcases h with ⟨rfl, rfl⟩ | h
      · simp [put]
      · exact absurd h (hm x)

/-- values appended for a key -/
def valsFor (ops : List (Nat × Nat)) (k : Nat) : List Nat :=
  (ops.filter (fun o => o.1 = k)).map Prod.snd

theorem mem_valsFor {ops : List (Nat × Nat)} {k x : Nat} : x ∈ valsFor ops k ↔ (k, x) ∈ ops := by
  simp only [valsFor, List.mem_map, List.mem_filter, decide_eq_true_eq, Prod.exists]
  constructor
  · rintro ⟨a, b, ⟨h, rfl⟩, rfl⟩; exact h
  · intro h; exact ⟨k, x, ⟨h, rfl⟩, rfl⟩

theorem valsFor_append (a b : List (Nat × Nat)) (k : Nat) :
    valsFor (a ++ b) k = valsFor a k ++ valsFor b k := by simp [valsFor]

/-- the array `v` represents the appends `ops` -/
def Represents (stride : Nat) (v : Nat → Nat) (ops : List (Nat × Nat)) : Prop :=
  ∀ k, v (stride * k) = (valsFor ops k).length ∧
    ∀ i, (h : i < (valsFor ops k).length) → v (stride * k + i + 1) = (valsFor ops k)[i]

theorem stride_inj {s k k' r r' : Nat} (hr : r < s) (hr' : r' < s) (h : s * k + r = s * k' + r') :
    k = k' ∧ r = r' := by
  have hs : 0 < s := by omega
  have h1 : (s * k + r) / s = k := by
    rw [Nat.mul_add_div hs, Nat.div_eq_of_lt hr]; omega
  have h2 : (s * k' + r') / s = k' := by
    rw [Nat.mul_add_div hs, Nat.div_eq_of_lt hr']; omega
  have : k = k' := by rw [← h1, ← h2, h]
  subst this
  exact ⟨rfl, by omega⟩

theorem represents_append {stride : Nat} {v : Nat → Nat} {ops : List (Nat × Nat)} {k x : Nat}
    (h : Represents stride v ops) (hcap : (valsFor (ops ++ [(k, x)]) k).length < stride)
    (hle : ∀ k', (valsFor ops k').length < stride) :
    Represents stride (slotAppend stride v k x) (ops ++ [(k, x)]) := by
  have hk := hcap
  have hlenk : (valsFor (ops ++ [(k, x)]) k).length = (valsFor ops k).length + 1 := by
    simp [valsFor_append, valsFor]
  rw [hlenk] at hk
  have hv1 : put v (stride * k + 1 + v (stride * k)) x (stride * k) = v (stride * k) := by
    simp [put]; omega
  intro k'
  by_cases hkk : k' = k
  · subst hkk
    obtain ⟨h1, h2⟩ := h k'
    refine ⟨?_, ?_⟩
    · rw [hlenk]
      simp only [slotAppend]
      rw [hv1, h1]
      simp [put]
    · intro i hi
      rw [hlenk] at hi
      simp only [slotAppend]
      have hne : stride * k' + i + 1 ≠ stride * k' := by omega
      simp only [put, hne, if_false, h1]
      by_cases hii : i = (valsFor ops k').length
      · subst hii
        rw [if_pos (by omega)]
        simp [valsFor_append, valsFor]
      · rw [if_neg (by omega), h2 i (by omega)]
        simp only [valsFor_append]
        rw [List.getElem_append_left (by omega)]
  · have hvals : valsFor (ops ++ [(k, x)]) k' = valsFor ops k' := by
      rw [valsFor_append]
      have : valsFor [(k, x)] k' = [] := by simp [valsFor]; omega
      rw [this, List.append_nil]
    obtain ⟨h1, h2⟩ := h k'
    have hc := (h k).1
    have hother : ∀ r, r < stride → slotAppend stride v k x (stride * k' + r) = v (stride * k' + r) := by
      intro r hr
      simp only [slotAppend, put]
      have n1 : stride * k' + r ≠ stride * k := by
        intro e
        exact hkk (stride_inj (r := r) (r' := 0) hr (by omega) (by simpa using e)).1
      have n2 : stride * k' + r ≠ stride * k + 1 + v (stride * k) := by
        intro e
        exact hkk (stride_inj (r := r) (r' := 1 + v (stride * k)) hr (by omega) (by omega)).1
      simp [n1, n2]
    have hlt := hle k'
    simp only [hvals]
    refine ⟨?_, ?_⟩
    · have := hother 0 (by omega)
      simp only [Nat.add_zero] at this
      rw [this, h1]
    · intro i hi
      rw [show stride * k' + i + 1 = stride * k' + (i + 1) by omega, hother (i + 1) (by omega)]
      exact h2 i hi

theorem runAppends_append (stride : Nat) (v : Nat → Nat) (a b : List (Nat × Nat)) :
    runAppends stride v (a ++ b) = runAppends stride (runAppends stride v a) b := by
  induction a generalizing v with
  | nil => rfl
  | cons o a ih => obtain ⟨k, x⟩ := o; simp [runAppends, ih]

theorem runAppends_represents {stride : Nat} (ops : List (Nat × Nat))
    (hcap : ∀ k, (valsFor ops k).length < stride) :
    Represents stride (runAppends stride (fun _ => 0) ops) ops := by
  have hs : 0 < stride := by have := hcap 0; omega
  suffices H : ∀ done rest, done ++ rest = ops →
      Represents stride (runAppends stride (fun _ => 0) done) done by
    exact H ops [] (by simp)
  intro done
  induction done using List.reverseRecOn with
  | nil => intro _ _ k; simp [runAppends, valsFor]
  | append_singleton l o ih =>
    intro rest hrest
    obtain ⟨k, x⟩ := o
    have hl := ih ([(k, x)] ++ rest) (by simpa using hrest)
    rw [runAppends_append]
    simp only [runAppends]
    apply represents_append hl
    · have hk := hcap k
      rw [← hrest, valsFor_append, List.length_append] at hk
      omega
    · intro k'
      have hk := hcap k'
      rw [← hrest, valsFor_append, valsFor_append, List.length_append, List.length_append] at hk
      omega

theorem slotRead_runAppends {stride : Nat} (ops : List (Nat × Nat))
    (hcap : ∀ k, (valsFor ops k).length < stride) (k : Nat) :
    slotRead stride (runAppends stride (fun _ => 0) ops) k = valsFor ops k := by
  obtain ⟨h1, h2⟩ := runAppends_represents ops hcap k
  simp only [slotRead, h1]
  apply List.ext_getElem
  · simp
  · intro i hi hi'
    simp only [List.getElem_map, List.getElem_range]
    exact h2 i hi'

end Jali
