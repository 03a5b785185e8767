import Verif.Model.Exceptions
import Mathlib.Data.Nat.Digits.Lemmas
import Mathlib.Data.List.Induction
import Mathlib.Data.List.TakeWhile
/-! Property theorems C57 and C93: exception behaviour, texts of messages. -/
namespace Jali.Err

/-- the behaviour that a history of calls has set last; RAISE at program start -/
def lastSet (cs : List Call) : Action :=
  (cs.filterMap fun
    | .set a => some a
    | .setRaise => some .RAISE
    | .setAbort => some .ABORT
    | _ => none).getLast?.getD .RAISE

/-- what the claim C57 requires of each observation: queries report the behaviour set last, errors follow it -/
def Follows (past : List Call) (c : Call) (o : Obs) : Prop :=
  match c with
  | .query => o = .behavior (lastSet past)
  | .raise _ => o = .ended (if lastSet past = .RAISE then .throws else .aborts)
  | _ => True

/-- the variables after a history -/
def after (unitOf : Nat → Unit') (cs : List Call) : Vars := cs.foldl (fun v c => (step unitOf v c).1) initial

theorem lastSet_append (cs : List Call) (c : Call) :
    lastSet (cs ++ [c]) = match c with
      | .set a => a
      | .setRaise => .RAISE
      | .setAbort => .ABORT
      | _ => lastSet cs := by
  unfold lastSet
  rw [List.filterMap_append]
  cases c <;> simp

theorem after_append (unitOf : Nat → Unit') (cs : List Call) (c : Call) :
    after unitOf (cs ++ [c]) = (step unitOf (after unitOf cs) c).1 := by
  unfold after
  rw [List.foldl_append]
  rfl

theorem after_vars (unitOf : Nat → Unit') (cs : List Call) :
    (after unitOf cs) .exceptionsCc = lastSet cs ∧ ∀ k, (after unitOf cs) (.other k) = .RAISE := by
  induction cs using List.reverseRecOn with
  | nil => exact ⟨rfl, fun _ => rfl⟩
  | append_singleton cs c ih =>
    rw [after_append, lastSet_append]
    cases c with
    | set a => exact ⟨by simp [step, setBehavior], fun k => by simpa [step, setBehavior] using ih.2 k⟩
    | setRaise => exact ⟨by simp [step, setRaise, setBehavior], fun k => by simpa [step, setRaise, setBehavior] using ih.2 k⟩
    | setAbort => exact ⟨by simp [step, setAbort, setBehavior], fun k => by simpa [step, setAbort, setBehavior] using ih.2 k⟩
    | query => exact ih
    | raise k => exact ih

theorem run_cons (unitOf : Nat → Unit') (past : List Call) (c : Call) (cs : List Call) :
    run unitOf (after unitOf past) (c :: cs) =
      if (step unitOf (after unitOf past) c).2 = .ended .aborts then [(step unitOf (after unitOf past) c).2]
      else (step unitOf (after unitOf past) c).2 :: run unitOf (after unitOf (past ++ [c])) cs := by
  rw [after_append]
  rfl

/-- the observations of a program from a state reached by a history: each satisfies what holds of all steps -/
theorem run_all (unitOf : Nat → Unit') (P : List Call → Call → Obs → Prop)
    (h : ∀ past c, P past c (step unitOf (after unitOf past) c).2) (past cs : List Call) :
    ∀ i (c : Call) (o : Obs), cs[i]? = some c → (run unitOf (after unitOf past) cs)[i]? = some o → P (past ++ cs.take i) c o := by
  induction cs generalizing past with
  | nil => intro i c o hc; simp at hc
  | cons a cs ih =>
    intro i c o hc ho
    rw [run_cons] at ho
    cases i with
    | zero =>
      have ha : a = c := by simpa using hc
      subst ha
      have : (step unitOf (after unitOf past) a).2 = o := by
        split at ho <;> simpa using ho
      rw [← this]
      simpa using h past a
    | succ i =>
      split at ho
      · simp at ho
      · have := ih (past ++ [a]) i c o (by simpa using hc) (by simpa using ho)
        simpa using this

/-- **C57, partial.** In every program, `exception_behavior()` reports the behaviour set last; errors raised from the instance
of `Jali_throw` in `exceptions.cc` follow it, and so does every error as long as the behaviour set last is RAISE. Missing:
errors raised elsewhere after ABORT was set (`behaviour_ignored`, `behaviour_not_global`). -/
theorem behaviour_partial (unitOf : Nat → Unit') (cs : List Call) (i : Nat) (c : Call) (o : Obs)
    (hc : cs[i]? = some c) (ho : (run unitOf initial cs)[i]? = some o)
    (hu : ∀ k, c = .raise k → unitOf k = .exceptionsCc ∨ lastSet (cs.take i) = .RAISE) : Follows (cs.take i) c o := by
  have := run_all unitOf (fun past c o => (∀ k, c = .raise k → unitOf k = .exceptionsCc ∨ lastSet past = .RAISE) → Follows past c o)
    (by
      intro past c hu
      obtain ⟨h1, h2⟩ := after_vars unitOf past
      cases c with
      | query => simp [Follows, step, exceptionBehavior, h1]
      | raise k =>
        rcases hu k rfl with he | hr
        · simp [Follows, step, jaliThrow, he, h1]
        · cases hk : unitOf k with
          | exceptionsCc => simp [Follows, step, jaliThrow, hk, h1]
          | other j => simp [Follows, step, jaliThrow, hk, h2, hr]
      | _ => trivial) [] cs i c o hc ho
  exact this hu

/-- **C57, what the code does.** Errors raised anywhere but in `exceptions.cc`, that is by every part of the library, throw in
every program, whatever behaviour has been set; so the program is never aborted and every call is executed. -/
theorem behaviour_ignored (unitOf : Nat → Unit') (hu : ∀ k, unitOf k ≠ .exceptionsCc) (cs : List Call) :
    (run unitOf initial cs).length = cs.length ∧
    ∀ (i k : Nat), cs[i]? = some (Call.raise k) → (run unitOf initial cs)[i]? = some (Obs.ended .throws) := by
  have key : ∀ (cs past : List Call), (run unitOf (after unitOf past) cs).length = cs.length ∧
      ∀ (i k : Nat), cs[i]? = some (Call.raise k) → (run unitOf (after unitOf past) cs)[i]? = some (Obs.ended .throws) := by
    intro cs
    induction cs with
    | nil => intro past; exact ⟨rfl, fun i k h => by simp at h⟩
    | cons c cs ih =>
      intro past
      have hr : ∀ k, c = .raise k → (step unitOf (after unitOf past) c).2 = .ended .throws := by
        rintro k rfl
        cases hk : unitOf k with
        | exceptionsCc => exact absurd hk (hu k)
        | other j => simp [step, jaliThrow, hk, (after_vars unitOf past).2]
      have hn : (step unitOf (after unitOf past) c).2 ≠ .ended .aborts := by
        cases c with
        | raise k => rw [hr k rfl]; simp
        | _ => simp [step]
      rw [run_cons, if_neg hn]
      obtain ⟨i1, i2⟩ := ih (past ++ [c])
      refine ⟨by simp [i1], ?_⟩
      intro i k h
      cases i with
      | zero =>
        have hc : c = .raise k := by simpa using h
        simp [hr k hc]
      | succ i =>
        have := i2 i k (by simpa using h)
        simpa using this
  exact key cs []

/-- **C57 does not hold**: wherever an error is raised outside of `exceptions.cc`, setting ABORT first has no effect on it,
although `exception_behavior()` reports ABORT. -/
theorem behaviour_not_global (unitOf : Nat → Unit') (k : Nat) (hk : unitOf k ≠ .exceptionsCc) :
    run unitOf initial [.setAbort, .query, .raise k] = [.nothing, .behavior .ABORT, .ended .throws] ∧
    ¬ Follows [.setAbort, .query] (.raise k) (.ended .throws) := by
  constructor
  · cases h : unitOf k with
    | exceptionsCc => exact absurd h hk
    | other j => simp [run, step, setAbort, setBehavior, exceptionBehavior, jaliThrow, h, initial]
  · simp [Follows, lastSet]

/-- two units; the behaviour is set to ABORT and back -/
example : run .other initial [.raise 0, .set .ABORT, .query, .raise 1, .setRaise, .query] =
    [.ended .throws, .nothing, .behavior .ABORT, .ended .throws, .nothing, .behavior .RAISE] := by decide

example : Follows [.raise 0, .set .ABORT] .query (.behavior .ABORT) :=
  behaviour_partial .other [.raise 0, .set .ABORT, .query] 2 .query _ rfl (by decide) (fun k h => by cases h)

/-! ### C93 -/

/-- the range of `int` -/
def IsInt (n : Int) : Prop := -2147483648 ≤ n ∧ n ≤ 2147483647

/-- A piece as the caller sees it: no embedded terminator, an `int` in range, a real number of at most 22 characters (the
longest text of `%g` has 13). -/
def Piece.Ok : Piece → Prop
  | .cstr s | .str s => '\x00' ∉ s
  | .int n => IsInt n
  | .real g => '\x00' ∉ g ∧ g.length ≤ 22

/-- the value of a list of digits, most significant first -/
def valueOf (ds : List Nat) : Nat := ds.foldl (fun a d => 10 * a + d) 0

/-- `t` is the decimal numeral of `n`: a minus sign exactly if negative, then the digits without leading zero -/
def Numeral (n : Int) (t : List Char) : Prop :=
  ∃ ds : List Nat, ds ≠ [] ∧ (∀ d ∈ ds, d < 10) ∧ (ds.head? = some 0 → ds = [0]) ∧ valueOf ds = n.natAbs ∧
    t = (if n < 0 then ['-'] else []) ++ ds.map Nat.digitChar

/-- `t` is the text of the piece -/
def Piece.Reads : Piece → List Char → Prop
  | .cstr s, t | .str s, t | .real s, t => t = s
  | .int n, t => Numeral n t

theorem cString_eq {s : List Char} (h : '\x00' ∉ s) : cString s = s := by
  unfold cString
  rw [List.takeWhile_eq_self_iff]
  intro x hx
  simp only [ne_eq, decide_not, Bool.not_eq_eq_eq_not, Bool.not_true, decide_eq_false_iff_not]
  rintro rfl
  exact h hx

theorem valueOf_append (l : List Nat) (d : Nat) : valueOf (l ++ [d]) = 10 * valueOf l + d := by
  simp [valueOf, List.foldl_append]

theorem valueOf_reverse (l : List Nat) : valueOf l.reverse = Nat.ofDigits 10 l := by
  induction l with
  | nil => rfl
  | cons a l ih => rw [List.reverse_cons, valueOf_append, ih, Nat.ofDigits_cons]; push_cast; omega

/-- the digits of a natural number, most significant first -/
def digitsOf (k : Nat) : List Nat := if k = 0 then [0] else (Nat.digits 10 k).reverse

theorem digitsOf_ok (k : Nat) : digitsOf k ≠ [] ∧ (∀ d ∈ digitsOf k, d < 10) ∧ ((digitsOf k).head? = some 0 → digitsOf k = [0]) ∧
    valueOf (digitsOf k) = k := by
  unfold digitsOf
  by_cases hk : k = 0
  · rw [if_pos hk, hk]
    refine ⟨by simp, by simp, fun _ => rfl, rfl⟩
  · rw [if_neg hk]
    have hne := Nat.digits_ne_nil_iff_ne_zero (b := 10).2 hk
    refine ⟨by simpa using hne, ?_, ?_, ?_⟩
    · intro d hd
      exact Nat.digits_lt_base (by omega) (List.mem_reverse.1 hd)
    · intro h
      exfalso
      rw [List.head?_reverse, List.getLast?_eq_some_getLast hne] at h
      exact Nat.getLast_digit_ne_zero 10 hk (by simpa using h)
    · rw [valueOf_reverse, Nat.ofDigits_digits]

theorem intText_eq (n : Int) : intText n = (if n < 0 then ['-'] else []) ++ (digitsOf n.natAbs).map Nat.digitChar := by
  unfold intText digitsOf
  by_cases h0 : n.natAbs = 0
  · simp only [h0, if_pos]
    split <;> rfl
  · by_cases hn : n < 0 <;> simp [h0, hn]

theorem digitChar_ne_nul : ∀ d, d < 10 → Nat.digitChar d ≠ '\x00' := by decide

theorem intText_no_nul (n : Int) : '\x00' ∉ intText n := by
  rw [intText_eq]
  intro h
  rw [List.mem_append] at h
  rcases h with h | h
  · split at h <;> simp at h
  · obtain ⟨d, hd, he⟩ := List.mem_map.1 h
    exact digitChar_ne_nul d ((digitsOf_ok n.natAbs).2.1 d hd) he

theorem intText_length {n : Int} (h : IsInt n) : (intText n).length ≤ 11 := by
  rw [intText_eq, List.length_append, List.length_map]
  have hd : (digitsOf n.natAbs).length ≤ 10 := by
    unfold digitsOf
    split
    · simp
    · rw [List.length_reverse, Nat.digits_length_le_iff (by omega)]
      unfold IsInt at h
      omega
  have : (if n < 0 then ['-'] else [] : List Char).length ≤ 1 := by split <;> simp
  omega

theorem intText_numeral (n : Int) : Numeral n (intText n) := by
  obtain ⟨h1, h2, h3, h4⟩ := digitsOf_ok n.natAbs
  exact ⟨_, h1, h2, h3, h4, intText_eq n⟩

theorem piece_text {p : Piece} (h : p.Ok) : ∃ t, p.Reads t ∧ '\x00' ∉ t ∧ ∀ m, stream m p = m ++ t := by
  cases p with
  | cstr s => exact ⟨s, rfl, h, fun m => by simp only [stream, cString_eq h]⟩
  | str s => exact ⟨s, rfl, h, fun m => rfl⟩
  | int n =>
    refine ⟨intText n, intText_numeral n, intText_no_nul n, fun m => ?_⟩
    simp only [stream, snprintf23]
    rw [List.take_of_length_le (by have := intText_length h; omega), cString_eq (intText_no_nul n)]
  | real g =>
    refine ⟨g, rfl, h.1, fun m => ?_⟩
    simp only [stream, snprintf23]
    rw [List.take_of_length_le h.2, cString_eq h.1]

/-- **C93.** What a message says is the concatenation of the texts of the pieces streamed into it, in order and none cut off;
numbers as decimal numerals. -/
theorem message_text (ps : List Piece) (h : ∀ p ∈ ps, p.Ok) :
    ∃ ts : List (List Char), List.Forall₂ Piece.Reads ps ts ∧ what (ps.foldl stream (newMessage none)) = ts.flatten := by
  have key : ∃ ts : List (List Char), List.Forall₂ Piece.Reads ps ts ∧ '\x00' ∉ ts.flatten ∧
      ps.foldl stream (newMessage none) = ts.flatten := by
    induction ps using List.reverseRecOn with
    | nil => exact ⟨[], .nil, by simp, rfl⟩
    | append_singleton ps p ih =>
      obtain ⟨ts, h1, h2, h3⟩ := ih fun q hq => h q (List.mem_append_left _ hq)
      obtain ⟨t, t1, t2, t3⟩ := piece_text (h p (List.mem_append_right _ (List.mem_singleton.2 rfl)))
      refine ⟨ts ++ [t], List.rel_append h1 (.cons t1 .nil), ?_, ?_⟩
      · rw [List.flatten_append, List.mem_append]
        rintro (h' | h')
        · exact h2 h'
        · exact t2 (by simpa using h')
      · rw [List.foldl_append, List.foldl_cons, List.foldl_nil, t3, h3, List.flatten_append]
        simp
  obtain ⟨ts, h1, h2, h3⟩ := key
  exact ⟨ts, h1, by rw [h3, what, cString_eq h2]⟩

/-- A message constructed from a text begins with it. -/
theorem message_constructor (s : List Char) (h : '\x00' ∉ s) :
    newMessage (some (.cstr s)) = s ∧ newMessage (some (.str s)) = s ∧ newMessage (some (.str s)) = stream (newMessage none) (.str s) :=
  ⟨cString_eq h, rfl, rfl⟩

/-- a numeral determines its number -/
theorem numeral_inj {n m : Int} {t : List Char} (hn : Numeral n t) (hm : Numeral m t) : n = m := by
  have inj : ∀ a, a < 10 → ∀ b, b < 10 → Nat.digitChar a = Nat.digitChar b → a = b := by decide
  obtain ⟨ds, d1, d2, d3, d4, d5⟩ := hn
  obtain ⟨es, e1, e2, e3, e4, e5⟩ := hm
  have map_inj : ∀ (l l' : List Nat), (∀ d ∈ l, d < 10) → (∀ d ∈ l', d < 10) → l.map Nat.digitChar = l'.map Nat.digitChar → l = l' := by
    intro l
    induction l with
    | nil => intro l' _ _ h; simpa using h.symm
    | cons a l ih =>
      intro l' h1 h2 h
      cases l' with
      | nil => simp at h
      | cons b l' =>
        simp only [List.map_cons, List.cons.injEq] at h
        rw [inj a (h1 a (by simp)) b (h2 b (by simp)) h.1,
          ih l' (fun d hd => h1 d (by simp [hd])) (fun d hd => h2 d (by simp [hd])) h.2]
  rw [d5] at e5
  have hsign : (n < 0 ↔ m < 0) ∧ ds = es := by
    cases ds with
    | nil => exact absurd rfl d1
    | cons a ds =>
      cases es with
      | nil => exact absurd rfl e1
      | cons b es =>
        by_cases hn : n < 0 <;> by_cases hm : m < 0
        · refine ⟨by simp [hn, hm], map_inj _ _ d2 e2 ?_⟩
          simpa [hn, hm] using e5
        · exfalso
          simp [hn, hm] at e5
        · exfalso
          simp [hn, hm] at e5
        · refine ⟨by simp [hn, hm], map_inj _ _ d2 e2 ?_⟩
          simpa [hn, hm] using e5
  obtain ⟨s, rfl⟩ := hsign
  omega

example : what ([Piece.cstr "cell ".toList, .int (-2147483648), .str " of ".toList, .int 0, .real "1.5e-07".toList].foldl stream (newMessage none)) =
    "cell -2147483648 of 01.5e-07".toList := by
  simp [stream, newMessage, what, snprintf23, intText, cString, Nat.digitChar]

example : ∃ ts : List (List Char), List.Forall₂ Piece.Reads [.cstr "cell ".toList, .int (-2147483648)] ts ∧
    what ([Piece.cstr "cell ".toList, .int (-2147483648)].foldl stream (newMessage none)) = ts.flatten :=
  message_text _ (by
    intro p hp
    simp only [List.mem_cons, List.not_mem_nil, or_false] at hp
    rcases hp with rfl | rfl
    · show '\x00' ∉ _; decide
    · show IsInt _; unfold IsInt; omega)

end Jali.Err
