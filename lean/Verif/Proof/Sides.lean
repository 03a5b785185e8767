import Verif.Model.Sides
import Verif.Spec.Sides
import Mathlib.Tactic.Linarith
import Mathlib.Data.List.Induction
/-! Lemmas about the side cache. -/
namespace Jali.Sides
open Spec

/-! ### positions -/

section positions
variable {α : Type}

theorem mem_positions {p : α → Bool} {l : List α} {k : Nat} :
    k ∈ positions p l ↔ ∃ v, l[k]? = some v ∧ p v = true := by
  unfold positions
  rw [List.mem_filter, List.mem_range, Option.any_eq_true]
  constructor
  · rintro ⟨_, h⟩; exact h
  · rintro ⟨v, hv, hp⟩
    refine ⟨?_, v, hv, hp⟩
    by_contra hc; rw [List.getElem?_eq_none (by omega)] at hv; cases hv

theorem positions_append (p : α → Bool) (a b : List α) :
    positions p (a ++ b) = positions p a ++ (positions p b).map (a.length + ·) := by
  unfold positions
  rw [List.length_append, List.range_add, List.filter_append]
  congr 1
  · apply List.filter_congr
    intro k hk
    rw [List.getElem?_append_left (List.mem_range.1 hk)]
  · rw [List.filter_map]
    congr 1
    apply List.filter_congr
    intro k hk
    simp only [Function.comp]
    rw [List.getElem?_append_right (by omega)]
    congr 2; omega

theorem positions_nil (p : α → Bool) : positions p ([] : List α) = [] := rfl

theorem positions_singleton (p : α → Bool) (v : α) : positions p [v] = if p v then [0] else [] := by
  unfold positions
  cases h : p v <;> simp [List.range_succ, h]

theorem positions_snoc (p : α → Bool) (l : List α) (v : α) :
    positions p (l ++ [v]) = positions p l ++ if p v then [l.length] else [] := by
  rw [positions_append, positions_singleton]
  cases p v <;> simp

theorem positions_snoc_neg (p : α → Bool) (l : List α) (v : α) (h : p v = false) :
    positions p (l ++ [v]) = positions p l := by rw [positions_snoc, h]; simp

theorem positions_snoc_pos (p : α → Bool) (l : List α) (v : α) (h : p v = true) :
    positions p (l ++ [v]) = positions p l ++ [l.length] := by rw [positions_snoc, h]; simp

theorem positions_true (l : List α) : positions (fun _ => true) l = List.range l.length := by
  unfold positions
  rw [List.filter_eq_self]
  intro k hk
  rw [List.getElem?_eq_getElem (List.mem_range.1 hk)]; rfl

theorem length_positions (p : α → Bool) (l : List α) : (positions p l).length = (l.filter p).length := by
  induction l using List.reverseRecOn with
  | nil => rfl
  | append_singleton l v ih =>
    rw [positions_snoc, List.filter_append, List.length_append, List.length_append, ih]
    cases h : p v <;> simp [h]

theorem positions_lt_of_snoc (p : α → Bool) (l rest : List α) (v : α) (h : p v = true) :
    (positions p l).length < (positions p (l ++ v :: rest)).length := by
  rw [length_positions, length_positions, List.filter_append, List.filter_cons, if_pos h]
  simp

theorem positions_le (p : α → Bool) (l rest : List α) :
    (positions p l).length ≤ (positions p (l ++ rest)).length := by
  rw [length_positions, length_positions, List.filter_append]; simp

end positions

/-! ### vectors filled in order -/

/-- `v` has been filled with `w`, out of `n` places. -/
structure FillOk (v : Fill) (w : List Nat) (n : Nat) : Prop where
  arr : v.arr = w ++ List.replicate (n - w.length) 0
  i : v.i = w.length
  le : w.length ≤ n

theorem FillOk.new (n : Nat) : FillOk (Fill.new n) [] n := ⟨by simp [Fill.new], rfl, Nat.zero_le _⟩

theorem set_fill {α : Type} (w : List α) (n : Nat) (d x : α) (h : w.length < n) :
    (w ++ List.replicate (n - w.length) d).set w.length x = (w ++ [x]) ++ List.replicate (n - (w.length + 1)) d := by
  obtain ⟨k, hk⟩ : ∃ k, n - w.length = k + 1 := ⟨n - w.length - 1, by omega⟩
  rw [hk, List.replicate_succ, List.set_append_right _ _ (Nat.le_refl _), Nat.sub_self]
  rw [show n - (w.length + 1) = k by omega]
  simp

theorem FillOk.push {v : Fill} {w : List Nat} {n : Nat} (h : FillOk v w n) (x : Nat) (hlt : w.length < n) :
    ∃ v', v.push x = some v' ∧ FillOk v' (w ++ [x]) n := by
  have hl : v.arr.length = n := by rw [h.arr]; simp; omega
  refine ⟨⟨v.arr.set v.i x, v.i + 1⟩, ?_, ?_, ?_, ?_⟩
  · rw [Fill.push, if_pos (by rw [h.i, hl]; exact hlt)]
  · dsimp only
    rw [h.arr, h.i, set_fill _ _ _ _ hlt]; simp
  · dsimp only; rw [h.i]; simp
  · simp; omega

theorem FillOk.full {v : Fill} {w : List Nat} {n : Nat} (h : FillOk v w n) (hn : w.length = n) : v.arr = w := by
  rw [h.arr, hn]; simp

theorem assign_fill {α : Type} (w : List α) (n : Nat) (d x : α) (h : w.length < n) :
    assign (w ++ List.replicate (n - w.length) d) w.length x =
      some ((w ++ [x]) ++ List.replicate (n - (w ++ [x]).length) d) := by
  rw [assign, if_pos (by simp; omega), set_fill _ _ _ _ h]; simp

/-- a table of lists of positions -/
theorem pushBackAt_table {α : Type} (n : Nat) (key : α → Nat) (l : List α) (v : α) (hv : key v < n) :
    pushBackAt ((List.range n).map fun c => positions (fun a => key a == c) l) (key v) l.length =
      some ((List.range n).map fun c => positions (fun a => key a == c) (l ++ [v])) := by
  rw [pushBackAt, if_pos (by simpa using hv)]
  congr 1
  apply List.ext_getElem
  · simp
  · intro i h1 h2
    rw [List.getElem_modify]
    simp only [List.getElem_map, List.getElem_range]
    by_cases h : key v = i
    · rw [if_pos h, positions_snoc_pos _ _ _ (by simpa using h)]
    · rw [if_neg h, positions_snoc_neg _ _ _ (by simpa using h)]

/-! ### the side loop -/

/-- Two visits of the same edge of the same face from different cells. -/
def Opp (a b : Visit) : Prop := a.edge = b.edge ∧ a.face = b.face ∧ a.cell ≠ b.cell

theorem Opp.symm {a b : Visit} (h : Opp a b) : Opp b a := ⟨h.1.symm, h.2.1.symm, fun e => h.2.2 e.symm⟩

instance (a b : Visit) : Decidable (Opp a b) := by unfold Opp; infer_instance

/-- No visit has two opposites. -/
def UniqueOpp (l : List Visit) : Prop :=
  ∀ (j1 j2 k : Nat) a1 a2 b, l[j1]? = some a1 → l[j2]? = some a2 → l[k]? = some b → Opp a1 b → Opp a2 b → j1 = j2

/-- State of `side_opp_side_id` after the visits `done`, `n` places in all. -/
structure OppOk (n : Nat) (done : List Visit) (opp : List Int) : Prop where
  len : opp.length = n
  hit : ∀ (j k : Nat) a b, done[j]? = some a → done[k]? = some b → Opp a b → opp[k]? = some (j : Int)
  miss : ∀ k, k < n → (∀ (j : Nat) a b, done[j]? = some a → done[k]? = some b → ¬ Opp a b) → opp[k]? = some (-1)

theorem findOpp_ok (m : Src) (done : List Visit) (v : Visit) (n : Nat) : ∀ ss : List Nat,
    (∀ s ∈ ss, s < done.length) →
    ∃ r, findOpp ((done ++ [v]).map (fun v => some (mkRec m v)) ++ List.replicate n none) v ss = some r ∧
      (∀ s, r = some s → ∃ a, done[s]? = some a ∧ Opp a v) ∧
      (r = none → ∀ s ∈ ss, ∀ a, done[s]? = some a → ¬ Opp a v) := by
  intro ss
  induction ss with
  | nil => intro _; exact ⟨none, rfl, by simp, by simp⟩
  | cons s ss ih =>
    intro hs
    have hsl := hs s (by simp)
    obtain ⟨r, e, h1, h2⟩ := ih (fun x hx => hs x (by simp [hx]))
    have hget : ((done ++ [v]).map (fun v => some (mkRec m v)) ++ List.replicate n none)[s]? =
        some (some (mkRec m done[s])) := by
      rw [List.getElem?_append_left (by simp; omega), List.getElem?_map, List.getElem?_append_left hsl,
        List.getElem?_eq_getElem hsl]; rfl
    have hrec : (mkRec m done[s]).edge = done[s].edge ∧ (mkRec m done[s]).face = done[s].face ∧
        (mkRec m done[s]).cell = done[s].cell := by
      unfold mkRec; dsimp only; split <;> exact ⟨rfl, rfl, rfl⟩
    rw [findOpp, hget]
    dsimp only
    rw [hrec.1, hrec.2.1, hrec.2.2]
    by_cases hm : done[s].edge = v.edge ∧ done[s].face = v.face ∧ done[s].cell ≠ v.cell
    · rw [if_pos hm]
      refine ⟨some s, rfl, ?_, by simp⟩
      intro s' hs'
      cases hs'
      exact ⟨done[s], List.getElem?_eq_getElem hsl, hm⟩
    · rw [if_neg hm]
      refine ⟨r, e, h1, ?_⟩
      intro hr x hx a ha
      rcases List.mem_cons.1 hx with rfl | hx
      · rw [List.getElem?_eq_getElem hsl] at ha
        cases ha; exact hm
      · exact h2 hr x hx a ha

theorem getElem?_snoc_cases {α : Type} {l : List α} {v a : α} {k : Nat} (h : (l ++ [v])[k]? = some a) :
    (k < l.length ∧ l[k]? = some a) ∨ (k = l.length ∧ a = v) := by
  by_cases hk : k < l.length
  · rw [List.getElem?_append_left hk] at h; exact .inl ⟨hk, h⟩
  · rw [List.getElem?_append_right (by omega)] at h
    have : k - l.length = 0 := by
      by_contra hc
      rw [List.getElem?_eq_none (by simp; omega)] at h; cases h
    rw [this] at h
    simp at h
    exact .inr ⟨by omega, h.symm⟩

theorem lt_of_getElem? {α : Type} {l : List α} {a : α} {k : Nat} (h : l[k]? = some a) : k < l.length := by
  by_contra hc; rw [List.getElem?_eq_none (by omega)] at h; cases h

theorem getElem?_snoc_left {α : Type} {l : List α} {v a : α} {k : Nat} (h : l[k]? = some a) :
    (l ++ [v])[k]? = some a := by
  rw [List.getElem?_append_left (lt_of_getElem? h)]; exact h

theorem getElem?_snoc_last {α : Type} (l : List α) (v : α) : (l ++ [v])[l.length]? = some v := by
  rw [List.getElem?_append_right (Nat.le_refl _)]; simp

/-- One step of the table of opposites. -/
theorem OppOk.step {n : Nat} {done : List Visit} {opp : List Int} (h : OppOk n done opp) (v : Visit)
    (hn : done.length < n) (hu : UniqueOpp (done ++ [v])) (r : Option Nat)
    (h1 : ∀ s, r = some s → ∃ a, done[s]? = some a ∧ Opp a v)
    (h2 : r = none → ∀ (s : Nat) a, done[s]? = some a → ¬ Opp a v) :
    ∃ opp', linkOpp opp done.length r = some opp' ∧
      OppOk n (done ++ [v]) opp' := by
  cases r with
  | none =>
    refine ⟨opp, rfl, h.len, ?_, ?_⟩
    · intro j k a b ha hb hab
      rcases getElem?_snoc_cases ha with ⟨_, ha⟩ | ⟨rfl, rfl⟩
      · rcases getElem?_snoc_cases hb with ⟨_, hb⟩ | ⟨rfl, rfl⟩
        · exact h.hit j k a b ha hb hab
        · rename_i ha'; exact absurd hab (h2 rfl j a ha')
      · rcases getElem?_snoc_cases hb with ⟨_, hb⟩ | ⟨rfl, rfl⟩
        · exact absurd hab.symm (h2 rfl k b hb)
        · exact absurd rfl hab.2.2
    · intro k hk hno
      exact h.miss k hk fun j a b ha hb => hno j a b (getElem?_snoc_left ha) (getElem?_snoc_left hb)
  | some s =>
    obtain ⟨a0, ha0, hop⟩ := h1 s rfl
    have hs := lt_of_getElem? ha0
    have hlen := h.len
    refine ⟨(opp.set done.length (s : Int)).set s (done.length : Int), ?_, ?_⟩
    · unfold linkOpp; dsimp only
      rw [assign, if_pos (by omega), Option.bind_some, assign, if_pos (by simp; omega)]
    refine ⟨by simp [hlen], ?_, ?_⟩
    · intro j k a b ha hb hab
      rw [List.getElem?_set, List.getElem?_set]
      rcases getElem?_snoc_cases ha with ⟨hj, ha'⟩ | ⟨rfl, rfl⟩
      · rcases getElem?_snoc_cases hb with ⟨hk, hb'⟩ | ⟨rfl, rfl⟩
        · have hks : s ≠ k := by
            rintro rfl
            rw [ha0] at hb'; cases hb'
            have := hu j done.length s a v a0 ha (getElem?_snoc_last _ _) hb hab hop.symm
            omega
          rw [if_neg hks, if_neg (by omega)]
          exact h.hit j k a b ha' hb' hab
        · rw [if_neg (by omega), if_pos rfl, if_pos (by omega)]
          have := hu j s done.length a a0 b ha (getElem?_snoc_left ha0) hb hab hop
          rw [this]
      · rcases getElem?_snoc_cases hb with ⟨hk, hb'⟩ | ⟨rfl, rfl⟩
        · have : s = k := hu s k done.length a0 b a (getElem?_snoc_left ha0) hb ha hop hab.symm
          rw [if_pos this, if_pos (by simp; omega)]
        · exact absurd rfl hab.2.2
    · intro k hk hno
      have hks : s ≠ k := by
        rintro rfl
        exact hno done.length v a0 (getElem?_snoc_last _ _) (getElem?_snoc_left ha0) hop.symm
      have hkd : done.length ≠ k := by
        rintro rfl
        exact hno s a0 v (getElem?_snoc_left ha0) (getElem?_snoc_last _ _) hop
      rw [List.getElem?_set, List.getElem?_set, if_neg hks, if_neg hkd]
      exact h.miss k hk fun j a b ha hb => hno j a b (getElem?_snoc_left ha) (getElem?_snoc_left hb)

/-- Invariant of the loop over visits; `full` are all the visits. -/
structure SInv (m : Src) (full done : List Visit) (st : St) : Prop where
  recs : st.recs = done.map (fun v => some (mkRec m v)) ++ List.replicate (full.length - done.length) none
  cellSides : st.cellSides = (List.range m.ncells).map fun c => positions (fun v => v.cell == c) done
  soe : st.sidesOfEdge = (List.range m.nedges).map fun e => positions (fun v => v.edge == e) done
  all : FillOk st.all (List.range done.length) full.length
  owned : FillOk st.owned (positions (fun v => m.cellType v.cell == .PARALLEL_OWNED) done)
    (positions (fun v => m.cellType v.cell == .PARALLEL_OWNED) full).length
  ghost : FillOk st.ghost (positions (fun v => m.cellType v.cell == .PARALLEL_GHOST) done)
    (positions (fun v => m.cellType v.cell == .PARALLEL_GHOST) full).length
  bndry : FillOk st.bndry (positions (fun v => m.cellType v.cell == .BOUNDARY_GHOST) done)
    (positions (fun v => m.cellType v.cell == .BOUNDARY_GHOST) full).length
  opp : OppOk full.length done st.opp
  sideid : st.sideid = done.length

/-- The three types a cell can have. -/
def Known (t : EntityType) : Prop := t = .PARALLEL_OWNED ∨ t = .PARALLEL_GHOST ∨ t = .BOUNDARY_GHOST

theorem body_ok (m : Src) (done rest : List Visit) (v : Visit) (st : St)
    (h : SInv m (done ++ v :: rest) done st) (hc : v.cell < m.ncells) (he : v.edge < m.nedges)
    (ht : Known (m.cellType v.cell)) (hu : UniqueOpp (done ++ [v])) :
    ∃ st', body m st v = some st' ∧ SInv m (done ++ v :: rest) (done ++ [v]) st' := by
  have hlt : done.length < (done ++ v :: rest).length := by simp
  have e1 : assign st.recs st.sideid (some (mkRec m v)) =
      some ((done ++ [v]).map (fun v => some (mkRec m v)) ++
        List.replicate ((done ++ v :: rest).length - (done ++ [v]).length) none) := by
    rw [h.recs, h.sideid]
    have := assign_fill (done.map fun v => some (mkRec m v)) (done ++ v :: rest).length none (some (mkRec m v))
      (by simpa using hlt)
    rw [List.length_map] at this
    rw [this]; simp
  have e2 : pushBackAt st.cellSides v.cell st.sideid =
      some ((List.range m.ncells).map fun c => positions (fun v => v.cell == c) (done ++ [v])) := by
    rw [h.cellSides, h.sideid]; exact pushBackAt_table m.ncells (·.cell) done v hc
  obtain ⟨a', e3, h3⟩ := h.all.push st.sideid (by simp)
  rw [h.sideid, ← List.range_succ] at h3
  have h3' : FillOk a' (List.range (done ++ [v]).length) (done ++ v :: rest).length := by simpa using h3
  have e5 : st.sidesOfEdge[v.edge]? = some (positions (fun w => w.edge == v.edge) done) := by
    rw [h.soe, List.getElem?_map, List.getElem?_range he]; rfl
  obtain ⟨r, e6, hr1, hr2⟩ := findOpp_ok m done v ((done ++ v :: rest).length - (done ++ [v]).length)
    (positions (fun w => w.edge == v.edge) done)
    (by intro s hs; obtain ⟨a, ha, -⟩ := mem_positions.1 hs; exact lt_of_getElem? ha)
  have hr2' : r = none → ∀ (s : Nat) a, done[s]? = some a → ¬ Opp a v := by
    intro hr s a ha hop
    exact hr2 hr s (mem_positions.2 ⟨a, ha, by simpa using hop.1⟩) a ha hop
  obtain ⟨o', e7, h7⟩ := h.opp.step v hlt hu r hr1 hr2'
  have e8 : pushBackAt st.sidesOfEdge v.edge st.sideid =
      some ((List.range m.nedges).map fun e => positions (fun v => v.edge == e) (done ++ [v])) := by
    rw [h.soe, h.sideid]; exact pushBackAt_table m.nedges (·.edge) done v he
  have e4 : ∃ o g b, listSide (m.cellType v.cell) st.owned st.ghost st.bndry st.sideid = some (o, g, b) ∧
      FillOk o (positions (fun v => m.cellType v.cell == .PARALLEL_OWNED) (done ++ [v]))
        (positions (fun v => m.cellType v.cell == .PARALLEL_OWNED) (done ++ v :: rest)).length ∧
      FillOk g (positions (fun v => m.cellType v.cell == .PARALLEL_GHOST) (done ++ [v]))
        (positions (fun v => m.cellType v.cell == .PARALLEL_GHOST) (done ++ v :: rest)).length ∧
      FillOk b (positions (fun v => m.cellType v.cell == .BOUNDARY_GHOST) (done ++ [v]))
        (positions (fun v => m.cellType v.cell == .BOUNDARY_GHOST) (done ++ v :: rest)).length := by
    rcases ht with ht | ht | ht
    · obtain ⟨o, eo, ho⟩ := h.owned.push st.sideid (positions_lt_of_snoc _ _ _ _ (by simp [ht]))
      refine ⟨o, st.ghost, st.bndry, by rw [ht]; unfold listSide; dsimp only; rw [eo]; rfl, ?_, ?_, ?_⟩
      · rw [positions_snoc_pos _ _ _ (by simp [ht]), ← h.sideid]; exact ho
      · rw [positions_snoc_neg _ _ _ (by simp [ht])]; exact h.ghost
      · rw [positions_snoc_neg _ _ _ (by simp [ht])]; exact h.bndry
    · obtain ⟨o, eo, ho⟩ := h.ghost.push st.sideid (positions_lt_of_snoc _ _ _ _ (by simp [ht]))
      refine ⟨st.owned, o, st.bndry, by rw [ht]; unfold listSide; dsimp only; rw [eo]; rfl, ?_, ?_, ?_⟩
      · rw [positions_snoc_neg _ _ _ (by simp [ht])]; exact h.owned
      · rw [positions_snoc_pos _ _ _ (by simp [ht]), ← h.sideid]; exact ho
      · rw [positions_snoc_neg _ _ _ (by simp [ht])]; exact h.bndry
    · obtain ⟨o, eo, ho⟩ := h.bndry.push st.sideid (positions_lt_of_snoc _ _ _ _ (by simp [ht]))
      refine ⟨st.owned, st.ghost, o, by rw [ht]; unfold listSide; dsimp only; rw [eo]; rfl, ?_, ?_, ?_⟩
      · rw [positions_snoc_neg _ _ _ (by simp [ht])]; exact h.owned
      · rw [positions_snoc_neg _ _ _ (by simp [ht])]; exact h.ghost
      · rw [positions_snoc_pos _ _ _ (by simp [ht]), ← h.sideid]; exact ho
  obtain ⟨o, g, b, e4, ho, hg, hb⟩ := e4
  rw [← h.sideid] at e7
  unfold body
  rw [e1, Option.bind_some, e2, Option.bind_some, e3, Option.bind_some, e4, Option.bind_some, e5, Option.bind_some,
    e6, Option.bind_some, e7, Option.bind_some, e8]
  exact ⟨_, rfl, rfl, rfl, rfl, h3', ho, hg, hb, h7, by simp [h.sideid]⟩

theorem UniqueOpp.prefix {a b : List Visit} (h : UniqueOpp (a ++ b)) : UniqueOpp a := by
  intro j1 j2 k a1 a2 c h1 h2 h3
  apply h j1 j2 k a1 a2 c
  · rw [List.getElem?_append_left (lt_of_getElem? h1)]; exact h1
  · rw [List.getElem?_append_left (lt_of_getElem? h2)]; exact h2
  · rw [List.getElem?_append_left (lt_of_getElem? h3)]; exact h3

theorem run_ok (m : Src) : ∀ (rest done : List Visit) (st : St), SInv m (done ++ rest) done st →
    (∀ v ∈ rest, v.cell < m.ncells ∧ v.edge < m.nedges ∧ Known (m.cellType v.cell)) → UniqueOpp (done ++ rest) →
    ∃ st', run m rest st = some st' ∧ SInv m (done ++ rest) (done ++ rest) st' := by
  intro rest
  induction rest with
  | nil => intro done st h _ _; exact ⟨st, rfl, by simpa using h⟩
  | cons v rest ih =>
    intro done st h hv hu
    obtain ⟨hc, he, ht⟩ := hv v (by simp)
    have e : done ++ v :: rest = (done ++ [v]) ++ rest := by simp
    obtain ⟨s1, e1, h1⟩ := body_ok m done rest v st h hc he ht (by rw [e] at hu; exact hu.prefix)
    rw [e] at h1 hu
    obtain ⟨s2, e2, h2⟩ := ih (done ++ [v]) s1 h1 (fun w hw => hv w (by simp [hw])) hu
    rw [e]
    exact ⟨s2, by rw [run, e1, Option.bind_some, e2], h2⟩

theorem countSides_eq (m : Src) (p : EntityType → Bool) :
    countSides m p = ((visits m).filter fun v => p (m.cellType v.cell)).length := by
  unfold countSides visits
  generalize m.cells = cs
  induction cs with
  | nil => rfl
  | cons c cs ih =>
    rw [List.map_cons, List.sum_cons, ih, List.flatMap_cons, List.filter_append, List.length_append]
    congr 1
    generalize m.cellFaces c = fs
    induction fs with
    | nil => rfl
    | cons f fs ih =>
      rw [List.map_cons, List.sum_cons, ih, List.flatMap_cons, List.filter_append, List.length_append]
      congr 1
      rw [List.filter_map]
      cases h : p (m.cellType c) with
      | true =>
        have : ((fun v : Visit => p (m.cellType v.cell)) ∘ fun e : Nat × Int => (⟨c, f.1, f.2, e.1, e.2⟩ : Visit)) =
            fun _ => true := by funext e; simp [h]
        rw [this]; simp
      | false =>
        have : ((fun v : Visit => p (m.cellType v.cell)) ∘ fun e : Nat × Int => (⟨c, f.1, f.2, e.1, e.2⟩ : Visit)) =
            fun _ => false := by funext e; simp [h]
        rw [this]; simp

/-- Everything the side cache contains. -/
structure InfoOk (m : Src) (i : Info) : Prop where
  recs : i.recs = (visits m).map fun v => some (mkRec m v)
  cellSides : i.cellSides = (List.range m.ncells).map fun c => positions (fun v => v.cell == c) (visits m)
  all : i.all.arr = List.range (visits m).length
  owned : i.owned.arr = positions (fun v => m.cellType v.cell == .PARALLEL_OWNED) (visits m)
  ghost : i.ghost.arr = positions (fun v => m.cellType v.cell == .PARALLEL_GHOST) (visits m)
  bndry : i.bndry.arr = positions (fun v => m.cellType v.cell == .BOUNDARY_GHOST) (visits m)
  opp : OppOk (visits m).length (visits m) i.opp

theorem cacheSideInfo_ok (m : Src)
    (hv : ∀ v ∈ visits m, v.cell < m.ncells ∧ v.edge < m.nedges ∧ Known (m.cellType v.cell))
    (hu : UniqueOpp (visits m)) : ∃ i, cacheSideInfo m = some i ∧ InfoOk m i := by
  have hs : SInv m ([] ++ visits m) [] (start m) := by
    have hn : countSides m (fun _ => true) = (visits m).length := by
      rw [countSides_eq]; simp
    refine ⟨?_, ?_, ?_, ?_, ?_, ?_, ?_, ?_, rfl⟩
    · simp [start, hn]
    · simp only [start, positions_nil]
      apply List.ext_getElem <;> simp
    · simp only [start, positions_nil]
      apply List.ext_getElem <;> simp
    · have := FillOk.new (countSides m fun _ => true)
      rw [hn] at this; simpa [start, hn] using this
    · have := FillOk.new (countSides m (· == .PARALLEL_OWNED))
      rw [List.nil_append, length_positions, ← countSides_eq m (· == .PARALLEL_OWNED)]; exact this
    · have := FillOk.new (countSides m (· == .PARALLEL_GHOST))
      rw [List.nil_append, length_positions, ← countSides_eq m (· == .PARALLEL_GHOST)]; exact this
    · have := FillOk.new (countSides m (· == .BOUNDARY_GHOST))
      rw [List.nil_append, length_positions, ← countSides_eq m (· == .BOUNDARY_GHOST)]; exact this
    · refine ⟨by simp [start, hn], by simp, ?_⟩
      intro k hk _
      simp only [List.nil_append] at hk
      simp [start, hn, hk]
  obtain ⟨st, e, h⟩ := run_ok m (visits m) [] (start m) hs hv (by simpa using hu)
  simp only [List.nil_append] at h
  refine ⟨st.toInfo, by rw [cacheSideInfo, e]; rfl, ?_, h.cellSides, ?_, h.owned.full rfl, h.ghost.full rfl,
    h.bndry.full rfl, h.opp⟩
  · rw [h.recs]; simp
  · exact h.all.full (by simp)

end Jali.Sides
