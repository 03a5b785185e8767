import Mathlib.Data.List.Nodup
import Mathlib.Data.List.Forall2
import Verif.Spec.MstkCollapse
/-
Sets after the collapse.
-/
namespace Jali.Mstk

variable {E : Type} [DecidableEq E]

theorem replaceFirst_not_mem {d k : E} {l : List E} (h : d ∉ l) : replaceFirst d k l = l := by
  induction l with
  | nil => rfl
  | cons x l ih =>
    unfold replaceFirst
    rw [List.mem_cons, not_or] at h
    rw [if_neg (Ne.symm h.1), ih h.2]

theorem replaceFirst_eq {d k : E} {l : List E} (h : l.count d ≤ 1) : replaceFirst d k l = l.map fun x => if x = d then k else x := by
  induction l with
  | nil => rfl
  | cons x l ih =>
    unfold replaceFirst
    rw [List.map_cons]
    by_cases hx : x = d
    · subst hx
      rw [if_pos rfl, if_pos rfl]
      rw [List.count_cons_self] at h
      have h0 : l.count x = 0 := by omega
      rw [List.count_eq_zero] at h0
      congr 1
      conv_lhs => rw [← List.map_id l]
      refine List.map_congr_left fun y hy => ?_
      have : y ≠ x := fun e => h0 (e ▸ hy)
      rw [if_neg this]
      rfl
    · rw [if_neg hx, if_neg hx, ih (by rwa [List.count_cons_of_ne hx] at h)]

/-- what an entity becomes in the first loop -/
def repl (l : List (E × E)) (x : E) : E := l.foldl (fun x q => if x = q.1 then q.2 else x) x

theorem repl_not {l : List (E × E)} {x : E} (h : ∀ q ∈ l, q.1 ≠ x) : repl l x = x := by
  induction l with
  | nil => rfl
  | cons q l ih =>
    have := h q (List.mem_cons_self ..)
    unfold repl at *
    rw [List.foldl_cons, if_neg (Ne.symm this)]
    exact ih fun q hq => h q (List.mem_cons_of_mem _ hq)

theorem repl_of {l : List (E × E)} {x y : E} (h : (x, y) ∈ l) (hn : (l.map Prod.fst).Nodup) (hk : ∀ q ∈ l, ∀ q' ∈ l, q.2 ≠ q'.1) :
    repl l x = y := by
  induction l with
  | nil => cases h
  | cons q l ih =>
    rw [List.map_cons, List.nodup_cons] at hn
    rcases List.mem_cons.mp h with rfl | h'
    · have h1 : repl l y = y := repl_not fun q hq e => hk (x, y) (List.mem_cons_self ..) q (List.mem_cons_of_mem _ hq) e.symm
      unfold repl at *
      rw [List.foldl_cons, if_pos rfl]
      exact h1
    · have hx : x ≠ q.1 := fun e => hn.1 (List.mem_map.mpr ⟨(x, y), h', e⟩)
      have := ih h' hn.2 fun a ha b hb => hk a (List.mem_cons_of_mem _ ha) b (List.mem_cons_of_mem _ hb)
      unfold repl at *
      rw [List.foldl_cons, if_neg hx]
      exact this

theorem count_map_other {d k e : E} {l : List E} (h1 : e ≠ d) (h2 : e ≠ k) :
    (l.map fun x => if x = d then k else x).count e = l.count e := by
  induction l with
  | nil => rfl
  | cons x l ih =>
    rw [List.map_cons, List.count_cons, List.count_cons, ih]
    congr 1
    by_cases hx : x = d
    · rw [if_pos hx, beq_false_of_ne (Ne.symm h2), beq_false_of_ne (fun a => h1 (a.symm.trans hx))]
    · rw [if_neg hx]

theorem foldl_replace {ps : List (E × E)} (hn : (ps.map Prod.fst).Nodup) (hk : ∀ q ∈ ps, ∀ q' ∈ ps, q.2 ≠ q'.1) {l : List E}
    (hc : ∀ q ∈ ps, l.count q.1 ≤ 1) : ps.foldl (fun l q => replaceFirst q.1 q.2 l) l = l.map (repl ps) := by
  induction ps generalizing l with
  | nil => exact (List.map_id l).symm
  | cons q ps ih =>
    rw [List.map_cons, List.nodup_cons] at hn
    rw [List.foldl_cons, replaceFirst_eq (hc q (List.mem_cons_self ..)), ih hn.2, List.map_map]
    · rfl
    · exact fun a ha b hb => hk a (List.mem_cons_of_mem _ ha) b (List.mem_cons_of_mem _ hb)
    · intro a ha
      rw [count_map_other]
      · exact hc a (List.mem_cons_of_mem _ ha)
      · exact fun e => hn.1 (List.mem_map.mpr ⟨a, ha, e⟩)
      · exact fun e => hk q (List.mem_cons_self ..) a (List.mem_cons_of_mem _ ha) e.symm

theorem foldl_erase {ds : List E} {l : List E} (hc : ∀ d ∈ ds, l.count d ≤ 1) :
    ds.foldl (fun l d => l.erase d) l = l.filter fun x => x ∉ ds := by
  induction ds generalizing l with
  | nil => simp
  | cons d ds ih =>
    rw [List.foldl_cons, ih]
    · have hd := hc d (List.mem_cons_self ..)
      clear hc ih
      induction l with
      | nil => rfl
      | cons x l ihl =>
        by_cases hx : x = d
        · subst hx
          rw [List.count_cons_self] at hd
          have h0 : l.count x = 0 := by omega
          rw [List.count_eq_zero] at h0
          rw [List.erase_cons_head, List.filter_cons_of_neg (by simp)]
          refine List.filter_congr fun y hy => ?_
          have : y ≠ x := fun e => h0 (e ▸ hy)
          simp [this]
        · rw [List.erase_cons_tail (by simpa using hx)]
          rw [List.count_cons_of_ne hx] at hd
          rw [List.filter_cons, List.filter_cons, ihl hd]
          congr 1
          simp [hx]
    · intro a ha
      exact le_trans (List.erase_sublist.count_le a) (hc a (List.mem_cons_of_mem _ ha))

theorem count_map_le {f : E → E} {d : E} (h : ∀ x, f x = d → x = d) {l : List E} : (l.map f).count d ≤ l.count d := by
  induction l with
  | nil => exact le_refl _
  | cons x l ih =>
    rw [List.map_cons, List.count_cons, List.count_cons]
    by_cases hx : f x = d
    · rw [h x hx, show f d = d from h x hx ▸ hx]; simpa using ih
    · rw [beq_false_of_ne hx]; simp; omega

/-- the pairs that have an effect on sets -/
def Part.live (p : Part E) : List (E × E) := p.merged.filter fun q => q.2 ∉ p.deleted

theorem mem_live {p : Part E} {q : E × E} : q ∈ p.live ↔ q ∈ p.merged ∧ q.2 ∉ p.deleted := by
  unfold Part.live; simp

theorem Part.Sane.live_keep {p : Part E} (h : p.Sane) : ∀ q ∈ p.live, ∀ q' ∈ p.live, q.2 ≠ q'.1 :=
  fun _ hq q' hq' e => (mem_live.mp hq).2 (e ▸ h.marked q' (mem_live.mp hq').1)

omit [DecidableEq E] in
theorem filter_fst_nodup {l : List (E × E)} {f : E × E → Bool} (h : (l.map Prod.fst).Nodup) : ((l.filter f).map Prod.fst).Nodup :=
  h.sublist (List.filter_sublist.map _)

/-- the first loop -/
theorem foldl_mergeIn {p : Part E} (hs : ∀ q ∈ p.merged, p.dim q.1 = p.dim q.2) {ps : List (E × E)} (hp : ∀ q ∈ ps, q ∈ p.merged)
    {s : ESet E} (hd : ∀ e ∈ s.ents, p.dim e = s.dim) :
    ps.foldl p.mergeIn s =
      { s with ents := (ps.filter fun q => q.2 ∉ p.deleted).foldl (fun l q => replaceFirst q.1 q.2 l) s.ents } := by
  induction ps generalizing s with
  | nil => rfl
  | cons q ps ih =>
    rw [List.foldl_cons]
    have hm : p.mergeIn s q = { s with ents := if q.2 ∈ p.deleted then s.ents else replaceFirst q.1 q.2 s.ents } := by
      unfold Part.mergeIn Part.dimNow
      by_cases hq : q.2 ∈ p.deleted
      · rw [if_pos hq, if_pos hq, if_neg (by simp)]
      · rw [if_neg hq, if_neg hq]
        by_cases he : s.dim = p.dim q.2
        · rw [if_pos (by rw [he])]
        · rw [if_neg (by simpa using he)]
          have : q.1 ∉ s.ents := fun hmem => he (by rw [← hd _ hmem, hs q (hp q (List.mem_cons_self ..))])
          rw [replaceFirst_not_mem this]
    rw [hm, ih (fun q hq => hp q (List.mem_cons_of_mem _ hq))]
    · by_cases hq : q.2 ∈ p.deleted
      · rw [List.filter_cons_of_neg (by simpa using hq)]
        simp only [if_pos hq]
      · rw [List.filter_cons_of_pos (by simpa using hq)]
        simp only [if_neg hq, List.foldl_cons]
    · intro e he
      dsimp only at he ⊢
      split at he
      · exact hd e he
      · clear hm ih
        have hq2 := hs q (hp q (List.mem_cons_self ..))
        have : ∀ {l : List E}, (∀ e ∈ l, p.dim e = s.dim) → e ∈ replaceFirst q.1 q.2 l → p.dim e = s.dim := by
          intro l hl hm
          induction l with
          | nil => cases hm
          | cons x l ihl =>
            unfold replaceFirst at hm
            split at hm
            · rename_i hx
              rcases List.mem_cons.mp hm with rfl | hm
              · rw [← hq2, ← hx]; exact hl x (List.mem_cons_self ..)
              · exact hl e (List.mem_cons_of_mem _ hm)
            · rcases List.mem_cons.mp hm with rfl | hm
              · exact hl e (List.mem_cons_self ..)
              · exact ihl (fun e he => hl e (List.mem_cons_of_mem _ he)) hm
        exact this hd he

/-- the second loop -/
theorem foldl_removeIn {p : Part E} {ds : List E} {s : ESet E} (hd : ∀ e ∈ s.ents, p.dim e = s.dim) :
    ds.foldl p.removeIn s = { s with ents := ds.foldl (fun l d => l.erase d) s.ents } := by
  induction ds generalizing s with
  | nil => rfl
  | cons d ds ih =>
    rw [List.foldl_cons]
    have hm : p.removeIn s d = { s with ents := s.ents.erase d } := by
      unfold Part.removeIn
      by_cases he : s.dim = p.dim d
      · rw [if_pos he]
      · rw [if_neg he, List.erase_of_not_mem fun h => he (hd d h).symm]
    rw [hm, ih]
    · rfl
    · intro e he
      exact hd e (List.mem_of_mem_erase he)

/-- a set after both loops -/
theorem setAfter_eq {p : Part E} (h : p.Sane) {s : ESet E} (hs : s ∈ p.sets) :
    p.setAfter s = { s with ents := (s.ents.map (repl p.live)).filter fun x => x ∉ p.deleted } := by
  obtain ⟨hn, hd⟩ := h.sets s hs
  have hln : (p.live.map Prod.fst).Nodup := filter_fst_nodup (f := fun q => q.2 ∉ p.deleted) h.once
  have h1 : p.merged.foldl p.mergeIn s = { s with ents := s.ents.map (repl p.live) } := by
    rw [foldl_mergeIn h.same (fun _ h => h) hd]
    rw [show (p.merged.filter fun q => q.2 ∉ p.deleted) = p.live from rfl, foldl_replace hln h.live_keep]
    exact fun q _ => List.nodup_iff_count_le_one.mp hn q.1
  have hdim : ∀ x, p.dim (repl p.live x) = p.dim x := by
    intro x
    by_cases hx : ∃ q ∈ p.live, q.1 = x
    · obtain ⟨⟨a, b⟩, hq, rfl⟩ := hx
      rw [repl_of hq hln h.live_keep]
      exact (h.same _ (mem_live.mp hq).1).symm
    · push Not at hx
      rw [repl_not hx]
  unfold Part.setAfter
  rw [h1, foldl_removeIn]
  · rw [foldl_erase]
    intro d hdel
    -- an entity marked as deleted stands only for itself
    have key : ∀ x, repl p.live x = d → x = d := by
      intro x hx
      by_cases hq : ∃ q ∈ p.live, q.1 = x
      · obtain ⟨⟨a, b⟩, hq, rfl⟩ := hq
        rw [repl_of hq hln h.live_keep] at hx
        exact absurd (hx ▸ hdel) (mem_live.mp hq).2
      · push Not at hq
        rwa [repl_not hq] at hx
    exact le_trans (count_map_le key) (List.nodup_iff_count_le_one.mp hn d)
  · intro e he
    obtain ⟨x, hx, rfl⟩ := List.mem_map.mp he
    rw [hdim, hd x hx]

end Jali.Mstk
