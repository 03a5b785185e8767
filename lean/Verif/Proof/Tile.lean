import Verif.Model.Tile
import Verif.Spec.Tile
import Mathlib.Tactic.Linarith
import Mathlib.Data.List.Nodup
/-! Lemmas about the model of tiles. -/
namespace Jali.Tile
open Spec

/-! ### halo -/

theorem mem_layerOfCell (all : List Nat) : ∀ (nbrs layer : List Nat) (x : Nat),
    x ∈ layerOfCell all nbrs layer ↔ x ∈ layer ∨ (x ∈ nbrs ∧ x ∉ all) := by
  intro nbrs
  induction nbrs with
  | nil => intro layer x; simp [layerOfCell]
  | cons n ns ih =>
    intro layer x
    rw [layerOfCell]
    split
    · rename_i h
      rw [ih]
      constructor
      · rintro (h1 | ⟨h1, h2⟩)
        · exact .inl h1
        · exact .inr ⟨List.mem_cons_of_mem _ h1, h2⟩
      · rintro (h1 | ⟨h1, h2⟩)
        · exact .inl h1
        · rcases List.mem_cons.1 h1 with rfl | h1
          · exact .inl h
          · exact .inr ⟨h1, h2⟩
    · split
      · rename_i h
        rw [ih]
        constructor
        · rintro (h1 | ⟨h1, h2⟩)
          · exact .inl h1
          · exact .inr ⟨List.mem_cons_of_mem _ h1, h2⟩
        · rintro (h1 | ⟨h1, h2⟩)
          · exact .inl h1
          · rcases List.mem_cons.1 h1 with rfl | h1
            · exact absurd h h2
            · exact .inr ⟨h1, h2⟩
      · rename_i h
        rw [ih, List.mem_append, List.mem_singleton]
        constructor
        · rintro ((h1 | rfl) | ⟨h1, h2⟩)
          · exact .inl h1
          · exact .inr ⟨List.mem_cons_self, h⟩
          · exact .inr ⟨List.mem_cons_of_mem _ h1, h2⟩
        · rintro (h1 | ⟨h1, h2⟩)
          · exact .inl (.inl h1)
          · rcases List.mem_cons.1 h1 with rfl | h1
            · exact .inl (.inr rfl)
            · exact .inr ⟨h1, h2⟩

theorem nodup_layerOfCell (all : List Nat) : ∀ (nbrs layer : List Nat), layer.Nodup →
    (layerOfCell all nbrs layer).Nodup := by
  intro nbrs
  induction nbrs with
  | nil => intro layer h; exact h
  | cons n ns ih =>
    intro layer h
    rw [layerOfCell]
    split
    · exact ih _ h
    · rename_i hn
      split
      · exact ih _ h
      · apply ih
        rw [List.nodup_append]
        refine ⟨h, by simp, ?_⟩
        intro a ha b hb
        rw [List.mem_singleton] at hb
        subst hb; rintro rfl; exact hn ha

theorem mem_haloLayer (adj : Nat → List Nat) (all : List Nat) (x : Nat) :
    x ∈ haloLayer adj all ↔ x ∉ all ∧ ∃ c ∈ all, x ∈ adj c := by
  have key : ∀ (cs layer : List Nat), x ∈ cs.foldl (fun layer c => layerOfCell all (adj c) layer) layer ↔
      x ∈ layer ∨ (x ∉ all ∧ ∃ c ∈ cs, x ∈ adj c) := by
    intro cs
    induction cs with
    | nil => intro layer; simp
    | cons c cs ih =>
      intro layer
      rw [List.foldl_cons, ih, mem_layerOfCell]
      simp only [List.exists_mem_cons_iff]
      tauto
  rw [haloLayer, key]; simp

theorem nodup_haloLayer (adj : Nat → List Nat) (all : List Nat) : (haloLayer adj all).Nodup := by
  have key : ∀ (cs layer : List Nat), layer.Nodup →
      (cs.foldl (fun layer c => layerOfCell all (adj c) layer) layer).Nodup := by
    intro cs
    induction cs with
    | nil => intro layer h; exact h
    | cons c cs ih => intro layer h; exact ih _ (nodup_layerOfCell _ _ _ h)
  exact key _ _ List.nodup_nil

theorem halo_inv (adj : Nat → List Nat) (cells : List Nat) : ∀ (n k : Nat) (ghost : List Nat),
    ghost.Nodup → (∀ x ∈ ghost, x ∉ cells) → (∀ x, x ∈ cells ++ ghost ↔ Near adj cells k x) →
    ∃ g, halo adj n (cells ++ ghost, ghost) = (cells ++ g, g) ∧ g.Nodup ∧ (∀ x ∈ g, x ∉ cells) ∧
      ∀ x, x ∈ cells ++ g ↔ Near adj cells (k + n) x := by
  intro n
  induction n with
  | zero => intro k ghost h1 h2 h3; exact ⟨ghost, rfl, h1, h2, by simpa using h3⟩
  | succ n ih =>
    intro k ghost h1 h2 h3
    have hl := mem_haloLayer adj (cells ++ ghost)
    have a1 : (ghost ++ haloLayer adj (cells ++ ghost)).Nodup := by
      rw [List.nodup_append]
      refine ⟨h1, nodup_haloLayer _ _, ?_⟩
      rintro a ha b hb rfl
      exact ((hl a).1 hb).1 (List.mem_append_right _ ha)
    have a2 : ∀ x ∈ ghost ++ haloLayer adj (cells ++ ghost), x ∉ cells := by
      intro x hx
      rcases List.mem_append.1 hx with h | h
      · exact h2 x h
      · exact fun hc => ((hl x).1 h).1 (List.mem_append_left _ hc)
    have a3 : ∀ x, x ∈ cells ++ (ghost ++ haloLayer adj (cells ++ ghost)) ↔ Near adj cells (k + 1) x := by
      intro x
      rw [← List.append_assoc, List.mem_append, hl]
      simp only [Near]
      rw [h3]
      constructor
      · rintro (h | ⟨-, c, hc, hx⟩)
        · exact .inl h
        · exact .inr ⟨c, (h3 c).1 hc, hx⟩
      · rintro (h | ⟨c, hc, hx⟩)
        · exact .inl h
        · by_cases hk : Near adj cells k x
          · exact .inl hk
          · exact .inr ⟨hk, c, (h3 c).2 hc, hx⟩
    obtain ⟨g, e, hg⟩ := ih (k + 1) _ a1 a2 a3
    refine ⟨g, ?_, hg.1, hg.2.1, ?_⟩
    · rw [halo, List.append_assoc, e]
    · intro x; rw [hg.2.2, show k + 1 + n = k + (n + 1) by omega]

theorem halo_spec (adj : Nat → List Nat) (n : Nat) (cells : List Nat) :
    (halo adj n (cells, [])).1 = cells ++ (halo adj n (cells, [])).2 ∧
    (halo adj n (cells, [])).2.Nodup ∧
    ∀ x, x ∈ (halo adj n (cells, [])).2 ↔ Near adj cells n x ∧ x ∉ cells := by
  obtain ⟨g, e, h1, h2, h3⟩ := halo_inv adj cells n 0 [] List.nodup_nil (by simp) (by simp [Near])
  rw [List.append_nil] at e
  rw [e]
  refine ⟨rfl, h1, fun x => ⟨fun hx => ⟨?_, h2 x hx⟩, fun ⟨hx, hn⟩ => ?_⟩⟩
  · have := (h3 x).1 (List.mem_append_right _ hx); simpa using this
  · have := (h3 x).2 (by simpa using hx)
    rcases List.mem_append.1 this with h | h
    · exact absurd h hn
    · exact h

/-! ### collecting nodes, faces, edges -/

theorem eachOfCells_eq (step : Coll → Nat → Option Coll) (query : Nat → List Nat) :
    ∀ (cs : List Nat) (s : Coll), eachOfCells step query cs s = each step (cs.flatMap query) s := by
  have app : ∀ (a b : List Nat) (s : Coll), each step (a ++ b) s = (each step a s).bind (each step b) := by
    intro a
    induction a with
    | nil => intro b s; rfl
    | cons x a ih =>
      intro b s
      rw [List.cons_append, each, each]
      cases step s x with
      | none => rfl
      | some s' => exact ih b s'
  intro cs
  induction cs with
  | nil => intro s; rfl
  | cons c cs ih =>
    intro s
    rw [eachOfCells, List.flatMap_cons, app]
    cases each step (query c) s with
    | none => rfl
    | some s' => exact ih s'

/-- Effect of the loop over owned entities. -/
structure OwnRes (t : Nat) (m0 : List Int) (pre : List Nat) (s : Coll) : Prop where
  len : s.master.length = m0.length
  master : ∀ e, s.master[e]? = if m0[e]? = some (-1) ∧ e ∈ pre then some (t : Int) else m0[e]?
  ownedNodup : s.owned.Nodup
  mem_owned : ∀ e, e ∈ s.owned ↔ e ∈ pre ∧ m0[e]? = some (-1)
  ghostNodup : s.ghost.Nodup
  mem_ghost : ∀ e, e ∈ s.ghost ↔ e ∈ pre ∧ m0[e]? ≠ some (-1)

theorem nodup_snoc {l : List Nat} {a : Nat} (h : l.Nodup) (ha : a ∉ l) : (l ++ [a]).Nodup := by
  rw [List.nodup_append]
  refine ⟨h, by simp, ?_⟩
  intro x hx b hb
  rw [List.mem_singleton] at hb
  subst hb; rintro rfl; exact ha hx

theorem ownStep_ok (t : Nat) (m0 : List Int) (hm : ∀ e : Nat, m0[e]? ≠ some (t : Int))
    (pre : List Nat) (s : Coll) (h : OwnRes t m0 pre s) (e : Nat) (he : e < m0.length) :
    ∃ s', ownStep true t s e = some s' ∧ OwnRes t m0 (pre ++ [e]) s' := by
  have hg := h.master e
  have hne : ∀ x : Nat, ((x : Int)) ≠ -1 := by intro x; omega
  have mem_pre : ∀ x, x ∈ pre ++ [e] ↔ x ∈ pre ∨ x = e := by intro x; simp
  obtain ⟨v, hv⟩ : ∃ v, m0[e]? = some v := ⟨m0[e], by rw [List.getElem?_eq_getElem he]⟩
  unfold ownStep getMaster
  rw [if_pos rfl]
  by_cases h1 : v = -1
  · subst h1
    by_cases h2 : e ∈ pre
    · rw [if_pos ⟨hv, h2⟩] at hg
      rw [hg, Option.bind_some, if_neg (hne t), if_neg (by simp)]
      refine ⟨s, rfl, h.len, ?_, h.ownedNodup, ?_, h.ghostNodup, ?_⟩
      · intro x; rw [h.master]; simp only [mem_pre]
        by_cases hx : x = e
        · subst hx; simp [hv, h2]
        · simp [hx]
      · intro x; rw [h.mem_owned, mem_pre]
        by_cases hx : x = e
        · subst hx; simp [hv, h2]
        · simp [hx]
      · intro x; rw [h.mem_ghost, mem_pre]
        by_cases hx : x = e
        · subst hx; simp [hv]
        · simp [hx]
    · rw [if_neg (by tauto), hv] at hg
      rw [hg, Option.bind_some, if_pos rfl, setMaster, if_pos (by rw [h.len]; exact he)]
      refine ⟨_, rfl, ?_, ?_, ?_, ?_, h.ghostNodup, ?_⟩
      · simpa using h.len
      · intro x
        rw [List.getElem?_set, h.master, h.len]; simp only [mem_pre]
        by_cases hx : x = e
        · subst hx; rw [if_pos rfl, if_pos he, if_pos ⟨hv, .inr rfl⟩]
        · simp [hx, Ne.symm hx]
      · refine nodup_snoc h.ownedNodup ?_
        rw [h.mem_owned]; tauto
      · intro x
        rw [List.mem_append, h.mem_owned, List.mem_singleton, mem_pre]
        by_cases hx : x = e
        · subst hx; simp [hv]
        · simp [hx]
      · intro x; dsimp only; rw [h.mem_ghost, mem_pre]
        by_cases hx : x = e
        · subst hx; simp [hv]
        · simp [hx]
  · have hv' : m0[e]? ≠ some (-1) := by rw [hv]; simpa using h1
    rw [if_neg (by tauto), hv] at hg
    rw [hg, Option.bind_some, if_neg h1]
    have hvt : v ≠ (t : Int) := by intro h; apply hm e; rw [hv, h]
    have master' : ∀ x, s.master[x]? =
        if m0[x]? = some (-1) ∧ x ∈ pre ++ [e] then some (t : Int) else m0[x]? := by
      intro x; rw [h.master]; simp only [mem_pre]
      by_cases hx : x = e
      · subst hx; simp [hv']
      · simp [hx]
    have owned' : ∀ x, x ∈ s.owned ↔ x ∈ pre ++ [e] ∧ m0[x]? = some (-1) := by
      intro x; rw [h.mem_owned, mem_pre]
      by_cases hx : x = e
      · subst hx; simp [hv']
      · simp [hx]
    by_cases h3 : e ∈ s.ghost
    · rw [if_neg (by tauto)]
      refine ⟨s, rfl, h.len, master', h.ownedNodup, owned', h.ghostNodup, ?_⟩
      intro x; rw [h.mem_ghost, mem_pre]
      by_cases hx : x = e
      · subst hx; simp [hv', ((h.mem_ghost x).1 h3).1]
      · simp [hx]
    · rw [if_pos ⟨hvt, h3⟩]
      refine ⟨_, rfl, h.len, master', h.ownedNodup, owned', nodup_snoc h.ghostNodup h3, ?_⟩
      intro x
      rw [List.mem_append, List.mem_singleton, h.mem_ghost, mem_pre]
      by_cases hx : x = e
      · subst hx; simp [hv']
      · simp [hx]

theorem each_own_ok (t : Nat) (m0 : List Int) (hm : ∀ e : Nat, m0[e]? ≠ some (t : Int)) :
    ∀ (es pre : List Nat) (s : Coll), (∀ e ∈ es, e < m0.length) → OwnRes t m0 pre s →
      ∃ s', each (ownStep true t) es s = some s' ∧ OwnRes t m0 (pre ++ es) s' := by
  intro es
  induction es with
  | nil => intro pre s _ h; exact ⟨s, rfl, by simpa using h⟩
  | cons e es ih =>
    intro pre s hes h
    obtain ⟨s1, e1, h1⟩ := ownStep_ok t m0 hm pre s h e (hes e (by simp))
    obtain ⟨s2, e2, h2⟩ := ih (pre ++ [e]) s1 (fun x hx => hes x (by simp [hx])) h1
    refine ⟨s2, ?_, by simpa using h2⟩
    rw [each, e1, Option.bind_some, e2]

/-- Effect of the loop over ghost entities. -/
structure GhostRes (t : Nat) (s0 : Coll) (pre : List Nat) (s : Coll) : Prop where
  master : s.master = s0.master
  owned : s.owned = s0.owned
  ghostNodup : s.ghost.Nodup
  mem_ghost : ∀ e, e ∈ s.ghost ↔ e ∈ s0.ghost ∨ (e ∈ pre ∧ s0.master[e]? ≠ some (t : Int))

theorem each_ghost_ok (t : Nat) (s0 : Coll) :
    ∀ (es pre : List Nat) (s : Coll), (∀ e ∈ es, e < s0.master.length) → GhostRes t s0 pre s →
      ∃ s', each (ghostStep true t) es s = some s' ∧ GhostRes t s0 (pre ++ es) s' := by
  intro es
  induction es with
  | nil => intro pre s _ h; exact ⟨s, rfl, by simpa using h⟩
  | cons e es ih =>
    intro pre s hes h
    have he := hes e (by simp)
    have step : ∃ s1, ghostStep true t s e = some s1 ∧ GhostRes t s0 (pre ++ [e]) s1 := by
      obtain ⟨v, hv⟩ : ∃ v, s0.master[e]? = some v := ⟨_, List.getElem?_eq_getElem he⟩
      unfold ghostStep getMaster
      rw [if_pos rfl, h.master, hv, Option.bind_some]
      have mem_pre : ∀ x, x ∈ pre ++ [e] ↔ x ∈ pre ∨ x = e := by intro x; simp
      by_cases h1 : v ≠ (t : Int) ∧ e ∉ s.ghost
      · rw [if_pos h1]
        refine ⟨_, rfl, rfl, h.owned, nodup_snoc h.ghostNodup h1.2, ?_⟩
        intro x
        rw [List.mem_append, List.mem_singleton, h.mem_ghost, mem_pre]
        by_cases hx : x = e
        · subst hx; simp [hv, h1.1]
        · simp [hx]
      · rw [if_neg h1]
        refine ⟨_, rfl, h.master, h.owned, h.ghostNodup, ?_⟩
        intro x
        by_cases hx : x = e
        · subst hx
          rw [mem_pre]
          by_cases h2 : v = (t : Int)
          · rw [h.mem_ghost]; simp [hv, h2]
          · have h3 : x ∈ s.ghost := by tauto
            simp only [h3, true_iff]
            rcases (h.mem_ghost x).1 h3 with h4 | h4
            · exact .inl h4
            · exact .inr ⟨.inl h4.1, h4.2⟩
        · rw [h.mem_ghost, mem_pre]; simp [hx]
    obtain ⟨s1, e1, h1⟩ := step
    obtain ⟨s2, e2, h2⟩ := ih (pre ++ [e]) s1 (fun x hx => hes x (by simp [hx])) h1
    refine ⟨s2, ?_, by simpa using h2⟩
    rw [each, e1, Option.bind_some, e2]

/-- Everything `collect` does, from a table in which no entity has the new tile as master yet. -/
structure CollectRes (t : Nat) (query : Nat → List Nat) (own ghost : List Nat) (m0 m : List Int) (l : Lists) :
    Prop where
  len : m.length = m0.length
  master : ∀ e, (m0[e]? = some (-1) ∧ Touches query own e → m[e]? = some (t : Int)) ∧
    (¬ (m0[e]? = some (-1) ∧ Touches query own e) → m[e]? = m0[e]?)
  ownedNodup : l.owned.Nodup
  mem_owned : ∀ e, e ∈ l.owned ↔ Touches query own e ∧ m0[e]? = some (-1)
  ghostNodup : l.ghost.Nodup
  mem_ghost : ∀ e, e ∈ l.ghost ↔ Touches query (own ++ ghost) e ∧ e ∉ l.owned
  all_eq : l.all = l.owned ++ l.ghost

theorem mem_flatMap_iff (query : Nat → List Nat) (cells : List Nat) (e : Nat) :
    e ∈ cells.flatMap query ↔ Touches query cells e := List.mem_flatMap

theorem touches_append (query : Nat → List Nat) (a b : List Nat) (e : Nat) :
    Touches query (a ++ b) e ↔ Touches query a e ∨ Touches query b e := by
  simp only [Touches, List.mem_append]
  constructor
  · rintro ⟨c, h | h, he⟩
    · exact .inl ⟨c, h, he⟩
    · exact .inr ⟨c, h, he⟩
  · rintro (⟨c, h, he⟩ | ⟨c, h, he⟩)
    · exact ⟨c, .inl h, he⟩
    · exact ⟨c, .inr h, he⟩

theorem collect_ok (t : Nat) (query : Nat → List Nat) (own ghost : List Nat) (m0 : List Int)
    (hm : ∀ e : Nat, m0[e]? ≠ some (t : Int)) (hr : ∀ c ∈ own ++ ghost, ∀ e ∈ query c, e < m0.length) :
    ∃ m l, collect true t query own ghost m0 = some (m, l) ∧ CollectRes t query own ghost m0 m l := by
  obtain ⟨s1, e1, h1⟩ := each_own_ok t m0 hm (own.flatMap query) [] ⟨m0, [], []⟩
    (by
      intro e he
      obtain ⟨c, hc, hce⟩ := List.mem_flatMap.1 he
      exact hr c (List.mem_append_left _ hc) e hce)
    ⟨rfl, by simp, by simp, by simp, by simp, by simp⟩
  rw [List.nil_append] at h1
  obtain ⟨s2, e2, h2⟩ := each_ghost_ok t s1 (ghost.flatMap query) [] s1
    (by
      intro e he
      obtain ⟨c, hc, hce⟩ := List.mem_flatMap.1 he
      rw [h1.len]
      exact hr c (List.mem_append_right _ hc) e hce)
    ⟨rfl, rfl, h1.ghostNodup, by simp⟩
  rw [List.nil_append] at h2
  refine ⟨s2.master, { owned := s2.owned, ghost := s2.ghost, all := s2.owned ++ s2.ghost }, ?_, ?_⟩
  · rw [collect, eachOfCells_eq, e1, Option.bind_some, eachOfCells_eq, e2]; rfl
  have hmast : ∀ e, (m0[e]? = some (-1) ∧ Touches query own e → s1.master[e]? = some (t : Int)) ∧
      (¬ (m0[e]? = some (-1) ∧ Touches query own e) → s1.master[e]? = m0[e]?) := by
    intro e
    rw [h1.master]
    simp only [← mem_flatMap_iff]
    by_cases h : m0[e]? = some (-1) ∧ e ∈ own.flatMap query
    · simp [h]
    · simp only [h, if_false]; tauto
  refine ⟨by rw [h2.master]; exact h1.len, by rw [h2.master]; exact hmast, by rw [h2.owned]; exact h1.ownedNodup,
    ?_, h2.ghostNodup, ?_, rfl⟩
  · intro e; dsimp only; rw [h2.owned, h1.mem_owned, mem_flatMap_iff]
  · intro e
    dsimp only
    rw [h2.owned, h2.mem_ghost, h1.mem_owned, h1.mem_ghost, mem_flatMap_iff, mem_flatMap_iff, touches_append]
    by_cases h : m0[e]? = some (-1) ∧ Touches query own e
    · rw [(hmast e).1 h]; tauto
    · rw [(hmast e).2 h]
      have := hm e
      tauto

end Jali.Tile
