import Verif.Proof.Loops
import Mathlib.Data.List.Basic
import Mathlib.Data.List.Nodup
import Mathlib.Data.List.Perm.Subperm
/-! Loops over a list of items, each writing one block of a flat array, or appending to slots. -/
namespace Jali

/-- writes of the values `vals` at `s*key, s*key+1, ...` -/
def blockAt {α : Type} (s key : Nat) (vals : List α) : List (Nat × α) :=
  vals.mapIdx fun r x => (s * key + r, x)

theorem mem_blockAt {α : Type} {s key : Nat} {vals : List α} {a : Nat} {x : α} :
    (a, x) ∈ blockAt s key vals ↔ ∃ r, ∃ h : r < vals.length, a = s * key + r ∧ x = vals[r] := by
  simp only [blockAt, List.mem_mapIdx, Prod.mk.injEq]
  constructor
  · rintro ⟨r, h, h1, h2⟩; exact ⟨r, h, h1.symm, h2.symm⟩
  · rintro ⟨r, h, h1, h2⟩; exact ⟨r, h, h1.symm, h2.symm⟩

variable {ι α : Type}

theorem functional_blocks (items : List ι) (key : ι → Nat) (vals : ι → List α) (s : Nat)
    (hlen : ∀ it ∈ items, (vals it).length ≤ s)
    (hinj : ∀ a ∈ items, ∀ b ∈ items, key a = key b → a = b) :
    Functional (items.flatMap fun it => blockAt s (key it) (vals it)) := by
  intro a x y hx hy
  simp only [List.mem_flatMap, mem_blockAt] at hx hy
  obtain ⟨u, hu, r, hr, e1, e2⟩ := hx
  obtain ⟨w, hw, q, hq, e3, e4⟩ := hy
  have := hlen u hu
  have := hlen w hw
  obtain ⟨h1, h2⟩ := stride_inj (by omega) (by omega) (e1.symm.trans e3)
  have := hinj u hu w hw h1
  subst this h2
  rw [e2, e4]

theorem read_block (items : List ι) (key : ι → Nat) (vals : ι → List α) (s : Nat)
    (hlen : ∀ it ∈ items, (vals it).length = s)
    (hinj : ∀ a ∈ items, ∀ b ∈ items, key a = key b → a = b)
    (v : Nat → α) (it : ι) (hit : it ∈ items) :
    (List.range s).map (fun r =>
      runWrites v (items.flatMap fun it => blockAt s (key it) (vals it)) (s * key it + r)) = vals it := by
  have hl := hlen it hit
  apply List.ext_getElem
  · simp [hl]
  · intro r h1 h2
    simp only [List.getElem_map, List.getElem_range]
    apply runWrites_mem _ (functional_blocks items key vals s (fun a ha => (hlen a ha).le) hinj)
    simp only [List.mem_flatMap, mem_blockAt]
    exact ⟨it, hit, r, h2, rfl, rfl⟩

theorem read_block_one (items : List ι) (key : ι → Nat) (vals : ι → List α) (s : Nat)
    (hlen : ∀ it ∈ items, (vals it).length = s)
    (hinj : ∀ a ∈ items, ∀ b ∈ items, key a = key b → a = b)
    (v : Nat → α) (it : ι) (hit : it ∈ items) (r : Nat) (hr : r < (vals it).length) :
      runWrites v (items.flatMap fun it => blockAt s (key it) (vals it)) (s * key it + r)
        = (vals it)[r] := by
  apply runWrites_mem _ (functional_blocks items key vals s (fun a ha => (hlen a ha).le) hinj)
  simp only [List.mem_flatMap, mem_blockAt]
  exact ⟨it, hit, r, hr, rfl, rfl⟩

theorem valsFor_flatMap (items : List ι) (f : ι → List (Nat × Nat)) (n : Nat) :
    valsFor (items.flatMap f) n = items.flatMap fun it => valsFor (f it) n := by
  induction items with
  | nil => rfl
  | cons a l ih => simp [valsFor_append, ih]

theorem valsFor_const (keys : List Nat) (c n : Nat) (hn : keys.Nodup) :
    valsFor (keys.map fun k => (k, c)) n = if n ∈ keys then [c] else [] := by
  induction keys with
  | nil => simp [valsFor]
  | cons k ks ih =>
    have hn' := List.nodup_cons.1 hn
    have ih := ih hn'.2
    simp only [List.map_cons]
    rw [show ((k, c) :: ks.map fun k => (k, c)) = [(k, c)] ++ ks.map fun k => (k, c) from rfl,
      valsFor_append, ih]
    by_cases hk : k = n
    · subst hk; simp [valsFor, hn'.1]
    · have : n ≠ k := fun e => hk e.symm
      simp [valsFor, hk, this]

theorem valsFor_items (items : List ι) (keys : ι → List Nat) (val : ι → Nat) (n : Nat)
    (hn : ∀ it ∈ items, (keys it).Nodup) :
    valsFor (items.flatMap fun it => (keys it).map fun k => (k, val it)) n =
      (items.filter fun it => n ∈ keys it).map val := by
  rw [valsFor_flatMap]
  induction items with
  | nil => rfl
  | cons a l ih =>
    have ha := hn a (by simp)
    have ih := ih (fun it hit => hn it (by simp [hit]))
    simp only [List.flatMap_cons, ih, valsFor_const _ _ _ ha]
    by_cases h : n ∈ keys a <;> simp [h]

theorem length_le_of_nodup_subset {l m : List ι} (hn : l.Nodup) (hs : l ⊆ m) : l.length ≤ m.length :=
  (hn.subperm hs).length_le

end Jali
