import Verif.Model.BlockPartition
import Verif.Spec.BlockPartition
import Mathlib.Tactic.Ring
import Mathlib.Tactic.Linarith
/-! Helper lemmas for block partitioning. -/
namespace Jali.BlockPartition
open Spec

/-- number of cells of a block -/
def vol (dim : Nat) (b : Arr3) : Nat :=
  (if 0 < dim then b 0 else 1) * (if 1 < dim then b 1 else 1) * (if 2 < dim then b 2 else 1)

instance (dim : Nat) (b : Block) (c : Fin 3 → Nat) : Decidable (InBlock dim b c) :=
  inferInstanceAs (Decidable (∀ d : Fin 3, _))

def ind (dim : Nat) (c : Fin 3 → Nat) (b : Block) : Nat := if InBlock dim b c then 1 else 0

/-- block invariant -/
structure Ok (dim : Nat) (n : Arr3) (b : Block) : Prop where
  nonempty : ∀ d : Fin 3, d.val < dim → 0 < b.num d
  inside : ∀ d : Fin 3, d.val < dim → b.lo d + b.num d ≤ n d

def Additive (dim : Nat) (n : Arr3) (φ : Block → Nat) : Prop :=
  ∀ b (dir : Fin 3), Ok dim n b → dir.val < dim → φ b = φ (child1 dim dir b) + φ (child2 dim dir b)

theorem fin3_cases (d : Fin 3) : d = 0 ∨ d = 1 ∨ d = 2 := by omega

theorem forall_fin3 {P : Fin 3 → Prop} : (∀ d, P d) ↔ P 0 ∧ P 1 ∧ P 2 := by
  constructor
  · intro h; exact ⟨h 0, h 1, h 2⟩
  · rintro ⟨h0, h1, h2⟩ d
    rcases fin3_cases d with rfl | rfl | rfl <;> assumption

theorem vol_additive (dim : Nat) (n : Arr3) : Additive dim n (fun b => vol dim b.num) := by
  intro b dir _ hdir
  have hs : b.num dir / 2 + (b.num dir - b.num dir / 2) = b.num dir := by omega
  generalize hA : b.num dir / 2 = A at hs
  generalize hB : b.num dir - A = B at hs
  rcases fin3_cases dir with rfl | rfl | rfl
  · have h0 : 0 < dim := by simpa using hdir
    simp only [vol, child1, child2, hA, hB]
    simp [h0, ← hs]
    by_cases h1 : 1 < dim <;> by_cases h2 : 2 < dim <;> simp [h1, h2] <;> ring
  · have h0 : 1 < dim := by simpa using hdir
    simp only [vol, child1, child2, hA, hB]
    have h00 : 0 < dim := by omega
    simp [h0, ← hs, h00]
    by_cases h2 : 2 < dim <;> simp [h2] <;> ring
  · have h0 : 2 < dim := by simpa using hdir
    simp only [vol, child1, child2, hA, hB]
    have h00 : 0 < dim := by omega
    have h01 : 1 < dim := by omega
    simp [h0, ← hs, h00, h01]; ring

theorem inBlock_child1 {dim : Nat} {dir : Fin 3} {b : Block} {c} (hd : dir.val < dim) :
    InBlock dim (child1 dim dir b) c ↔ InBlock dim b c ∧ c dir < b.lo dir + b.num dir / 2 := by
  simp only [InBlock, child1]
  constructor
  · intro h
    have hdir := h dir hd
    simp at hdir
    refine ⟨fun d hdd => ?_, hdir.2⟩
    have := h d hdd
    by_cases e : d = dir
    · subst e; omega
    · simpa [e, hdd] using this
  · rintro ⟨h, h2⟩ d hdd
    have := h d hdd
    by_cases e : d = dir
    · subst e; simp; omega
    · simpa [e, hdd] using this

theorem inBlock_child2 {dim : Nat} {dir : Fin 3} {b : Block} {c} (hd : dir.val < dim) :
    InBlock dim (child2 dim dir b) c ↔ InBlock dim b c ∧ b.lo dir + b.num dir / 2 ≤ c dir := by
  simp only [InBlock, child2]
  constructor
  · intro h
    have hdir := h dir hd
    simp at hdir
    refine ⟨fun d hdd => ?_, hdir.1⟩
    have := h d hdd
    by_cases e : d = dir
    · subst e; omega
    · simpa [e, hdd] using this
  · rintro ⟨h, h2⟩ d hdd
    have := h d hdd
    by_cases e : d = dir
    · subst e; simp; omega
    · simpa [e, hdd] using this

theorem ind_additive (dim : Nat) (n : Arr3) (c : Fin 3 → Nat) : Additive dim n (ind dim c) := by
  intro b dir _ hdir
  simp only [ind, inBlock_child1 hdir, inBlock_child2 hdir]
  by_cases h : InBlock dim b c
  · by_cases h2 : c dir < b.lo dir + b.num dir / 2
    · have : ¬ (b.lo dir + b.num dir / 2 ≤ c dir) := by omega
      simp [h, h2, this]
    · have : (b.lo dir + b.num dir / 2 ≤ c dir) := by omega
      simp [h, h2, this]
  · simp [h]

theorem ok_child {dim : Nat} {n : Arr3} {b : Block} {dir : Fin 3} (h : Ok dim n b)
    (hs : ¬ (b.num dir / 2 = 0 ∨ b.num dir - b.num dir / 2 = 0)) :
    Ok dim n (child1 dim dir b) ∧ Ok dim n (child2 dim dir b) := by
  have hs1 : b.num dir / 2 ≠ 0 := fun e => hs (Or.inl e)
  have hs2 : b.num dir - b.num dir / 2 ≠ 0 := fun e => hs (Or.inr e)
  refine ⟨⟨fun d hd => ?_, fun d hd => ?_⟩, ⟨fun d hd => ?_, fun d hd => ?_⟩⟩ <;>
    have h1 := h.nonempty d hd <;> have h2 := h.inside d hd <;>
    simp only [child1, child2] <;> by_cases e : d = dir
  all_goals first
    | (subst e; simp; omega)
    | (simp [e, hd]; omega)

theorem isBlank_blank (b : Block) : isBlank (blank b) = true := by simp [isBlank, blank]

theorem not_isBlank {dim : Nat} {n : Arr3} {b : Block} (hd : 1 ≤ dim) (h : Ok dim n b) :
    isBlank b = false := by
  have := h.nonempty 0 (by simpa using (show 0 < dim from hd))
  simp [isBlank]; omega

/-- live entries -/
def live (l : List Block) : List Block := l.filter (fun b => !isBlank b)

theorem live_eq_self {dim : Nat} {n : Arr3} (hd : 1 ≤ dim) {l : List Block}
    (h : ∀ b ∈ l, Ok dim n b) : live l = l := by
  simp only [live, List.filter_eq_self]
  intro b hb; simp [not_isBlank hd (h b hb)]

theorem squeeze_eq (a b : List Block) : squeeze a.length (a ++ b) = live a ++ b := by
  induction h : a.length generalizing a b with
  | zero =>
    have : a = [] := List.length_eq_zero_iff.mp h
    simp [this, squeeze, live]
  | succ n ih =>
    obtain ⟨a', x, rfl⟩ : ∃ a' x, a = a' ++ [x] := by
      rcases List.eq_nil_or_concat a with e | ⟨l', y, e⟩
      · simp [e] at h
      · exact ⟨l', y, by simpa using e⟩
    have hl : a'.length = n := by simpa using h
    have hget : (a' ++ [x] ++ b)[n]? = some x := by
      rw [List.append_assoc, List.getElem?_append_right (by omega)]
      simp [hl]
    simp only [squeeze, hget]
    by_cases hx : isBlank x
    · have : (a' ++ [x] ++ b).eraseIdx n = a' ++ b := by
        rw [List.append_assoc, List.eraseIdx_append_of_length_le (by omega)]
        simp [hl]
      simp only [hx, if_true, this]
      rw [ih a' b hl]
      simp [live, hx]
    · simp only [hx]
      rw [if_neg (by simp), List.append_assoc, ih a' _ hl]
      simp [live, hx]

/-- Everything needed about one sweep. -/
theorem sweep_spec {dim nreq nblocks : Nat} {n : Arr3} (hd : 1 ≤ dim) {dir : Fin 3}
    (hdir : dir.val < dim) (rest new : List Block)
    (hrest : ∀ b ∈ rest, Ok dim n b) (hnew : ∀ b ∈ new, Ok dim n b)
    (heven : new.length % 2 = 0) (hlt : nblocks + new.length / 2 < nreq) :
    let r := sweep dim nreq nblocks dir rest new
    r.1.length = rest.length ∧
    (∀ b ∈ live r.1 ++ r.2.1, Ok dim n b) ∧
    (∀ φ, Additive dim n φ →
      ((live r.1 ++ r.2.1).map φ).sum = ((rest ++ new).map φ).sum) ∧
    r.2.1.length % 2 = 0 ∧
    2 * (live r.1).length + r.2.1.length = 2 * rest.length + new.length ∧
    new.length ≤ r.2.1.length ∧
    (r.2.2 = true → nblocks + r.2.1.length / 2 = nreq) ∧
    (r.2.2 = false → nblocks + r.2.1.length / 2 < nreq) ∧
    (r.2.2 = false → r.2.1.length = new.length →
      r.1 = rest ∧ r.2.1 = new ∧ ∀ b ∈ rest, b.num dir ≤ 1) := by
  induction rest generalizing new with
  | nil => 
    simp only [sweep, live]
    refine ⟨trivial, by simpa using hnew, by simp, heven, by simp, by simp, by simp, by simpa using hlt, by simp⟩
  | cons b rest ih =>
    have hb : Ok dim n b := hrest b (by simp)
    have hr : ∀ b ∈ rest, Ok dim n b := fun x hx => hrest x (by simp [hx])
    have hnb := not_isBlank hd hb
    simp only [sweep, hnb]
    by_cases hsp : b.num dir / 2 = 0 ∨ b.num dir - b.num dir / 2 = 0
    · have := ih new hr hnew heven hlt
      rw [if_neg (by simp), if_pos hsp]
      obtain ⟨h1, h2, h3, h4, h5, h6, h7, h8, h9⟩ := this
      refine ⟨by simpa using h1, ?_, ?_, h4, ?_, h6, h7, h8, ?_⟩
      · intro x hx
        simp only [live, List.filter_cons, hnb, Bool.not_false, if_true, List.cons_append,
          List.mem_cons] at hx
        rcases hx with rfl | hx
        · exact hb
        · exact h2 x hx
      · intro φ hφ
        have := h3 φ hφ
        simp only [live, List.filter_cons, hnb, Bool.not_false, if_true, List.cons_append,
          List.map_cons, List.sum_cons] at *
        omega
      · simp only [live, List.filter_cons, hnb, Bool.not_false, if_true, List.length_cons] at *
        omega
      · intro hf hl
        obtain ⟨e1, e2, e3⟩ := h9 hf hl
        refine ⟨by simpa using e1, e2, ?_⟩
        intro x hx
        simp only [List.mem_cons] at hx
        rcases hx with rfl | hx
        · omega
        · exact e3 x hx
    · rw [if_neg (by simp), if_neg hsp]
      obtain ⟨hc1, hc2⟩ := ok_child hb hsp
      set new' := new ++ [child1 dim dir b, child2 dim dir b] with hn'
      have hlen : new'.length = new.length + 2 := by simp [hn']
      have hnew' : ∀ x ∈ new', Ok dim n x := by
        intro x hx
        simp only [hn', List.mem_append, List.mem_cons, List.not_mem_nil, or_false] at hx
        rcases hx with hx | rfl | rfl
        · exact hnew x hx
        · exact hc1
        · exact hc2
      have hsum : ∀ φ, Additive dim n φ → (new'.map φ).sum = (new.map φ).sum + φ b := by
        intro φ hφ
        have := hφ b dir hb hdir
        simp only [hn', List.map_append, List.sum_append, List.map_cons, List.map_nil,
          List.sum_cons, List.sum_nil]
        omega
      by_cases hdone : nblocks + new'.length / 2 ≥ nreq
      · simp only [hdone, if_true]
        have hlv : live (blank b :: rest) = rest := by
          have := live_eq_self hd hr
          simp only [live, List.filter_cons, isBlank_blank] at *
          simpa using this
        refine ⟨by simp, ?_, ?_, by omega, ?_, by omega, fun _ => by omega, by simp, by simp⟩
        · intro x hx
          rw [hlv, List.mem_append] at hx
          rcases hx with hx | hx
          · exact hr x hx
          · exact hnew' x hx
        · intro φ hφ
          have := hsum φ hφ
          simp only [hlv, List.map_append, List.sum_append, List.map_cons, List.sum_cons,
            List.cons_append]
          omega
        · rw [hlv, hlen, List.length_cons]; omega
      · rw [if_neg hdone]
        dsimp only
        have := ih new' hr hnew' (by omega) (by omega)
        obtain ⟨h1, h2, h3, h4, h5, h6, h7, h8, h9⟩ := this
        have hlv : ∀ l, live (blank b :: l) = live l := by
          intro l; simp [live, List.filter_cons, isBlank_blank]
        refine ⟨by simpa using h1, ?_, ?_, h4, ?_, by omega, h7, h8, ?_⟩
        · intro x hx
          rw [hlv] at hx
          exact h2 x hx
        · intro φ hφ
          have e1 := h3 φ hφ
          have e2 := hsum φ hφ
          rw [hlv]
          simp only [List.map_append, List.sum_append, List.map_cons, List.sum_cons,
            List.cons_append] at *
          omega
        · rw [hlv, List.length_cons]; omega
        · intro _ hl; omega

/-- Invariant of the block list. -/
structure Good (dim : Nat) (n : Arr3) (bs : List Block) : Prop where
  ok : ∀ b ∈ bs, Ok dim n b
  vol : (bs.map (fun b => vol dim b.num)).sum = vol dim n
  cnt : ∀ c, InGrid dim n c → (bs.map (ind dim c)).sum = 1

theorem dirLoop_spec {dim nreq : Nat} {n : Arr3} (hd : 1 ≤ dim) (ds : List (Fin 3))
    (bs : List Block) (hg : Good dim n bs) (hlt : bs.length < nreq) :
    let r := dirLoop dim nreq ds bs
    Good dim n r.1 ∧ bs.length ≤ r.1.length ∧
    (r.2 = true → r.1.length = nreq) ∧
    (r.2 = false → r.1.length < nreq) ∧
    (r.2 = false → r.1.length = bs.length →
      ∀ d ∈ ds, d.val < dim → ∀ b ∈ bs, b.num d ≤ 1) := by
  induction ds generalizing bs with
  | nil => simp [dirLoop, hg, hlt]
  | cons d ds ih =>
    simp only [dirLoop]
    by_cases hdd : d.val < dim
    · rw [if_pos hdd]
      have hs := sweep_spec (nreq := nreq) (nblocks := bs.length) hd hdd bs [] hg.ok (by simp)
        (by simp) (by simpa using hlt)
      set r := sweep dim nreq bs.length d bs [] with hr
      obtain ⟨h1, h2, h3, h4, h5, h6, h7, h8, h9⟩ := hs
      have hsq : squeeze bs.length (r.1 ++ r.2.1) = live r.1 ++ r.2.1 := by
        rw [← h1]; exact squeeze_eq _ _
      rw [hsq]
      have hlen : (live r.1 ++ r.2.1).length = bs.length + r.2.1.length / 2 := by
        simp only [List.length_append, List.length_nil] at *
        omega
      have hg' : Good dim n (live r.1 ++ r.2.1) := by
        refine ⟨h2, ?_, ?_⟩
        · rw [h3 _ (vol_additive dim n)]; simpa using hg.vol
        · intro c hc
          rw [h3 _ (ind_additive dim n c)]; simpa using hg.cnt c hc
      cases hdn : r.2.2 with
      | true =>
        simp only [if_true]
        have := h7 hdn
        exact ⟨hg', by omega, fun _ => by omega, by simp, by simp⟩
      | false =>
        simp only [Bool.false_eq_true, if_false]
        have h8' := h8 hdn
        obtain ⟨i1, i2, i3, i4, i5⟩ := ih _ hg' (by omega)
        refine ⟨i1, by omega, i3, i4, ?_⟩
        intro hf hl e he hedim
        have hz : r.2.1.length = 0 := by omega
        obtain ⟨e1, e2, e3⟩ := h9 hdn (by simpa using hz)
        have hbs : live r.1 ++ r.2.1 = bs := by
          rw [e1, e2, live_eq_self hd hg.ok]; simp
        simp only [List.mem_cons] at he
        rcases he with rfl | he
        · exact e3
        · have := i5 hf (by omega) e he hedim
          rwa [hbs] at this
    · rw [if_neg hdd]
      obtain ⟨i1, i2, i3, i4, i5⟩ := ih _ hg hlt
      refine ⟨i1, i2, i3, i4, ?_⟩
      intro hf hl e he hedim
      simp only [List.mem_cons] at he
      rcases he with rfl | he
      · exact absurd hedim hdd
      · exact i5 hf hl e he hedim

theorem vol_one {dim : Nat} {n : Arr3} {b : Block} (h : Ok dim n b)
    (h1 : ∀ d : Fin 3, d.val < dim → b.num d ≤ 1) : vol dim b.num = 1 := by
  have key : ∀ d : Fin 3, (if d.val < dim then b.num d else 1) = 1 := by
    intro d
    by_cases hd : d.val < dim
    · have := h.nonempty d hd
      have := h1 d hd
      simp [hd]; omega
    · simp [hd]
  have k0 := key 0; have k1 := key 1; have k2 := key 2
  simp at k0 k1 k2
  simp only [vol]
  split_ifs <;> simp_all

theorem sum_map_one {α} (l : List α) (f : α → Nat) (h : ∀ x ∈ l, f x = 1) :
    (l.map f).sum = l.length := by
  induction l with
  | nil => rfl
  | cons a l ih =>
    simp only [List.map_cons, List.sum_cons, List.length_cons]
    rw [h a (by simp), ih (fun x hx => h x (by simp [hx]))]; omega

theorem splitLoop_spec {dim nreq : Nat} {n : Arr3} (hd : 1 ≤ dim) (hv : nreq ≤ vol dim n)
    (bs : List Block) (hg : Good dim n bs) (hlt : bs.length < nreq) :
    ∃ l, Good dim n l ∧ l.length = nreq ∧
      ∀ fuel, nreq - bs.length ≤ fuel → splitLoop dim nreq fuel bs = .ok l := by
  induction hm : nreq - bs.length using Nat.strongRecOn generalizing bs with
  | _ m ih =>
    obtain ⟨h1, h2, h3, h4, h5⟩ := dirLoop_spec (nreq := nreq) hd [0, 1, 2] bs hg hlt
    cases hr : (dirLoop dim nreq [0, 1, 2] bs).2 with
    | true =>
      refine ⟨_, h1, h3 hr, ?_⟩
      intro fuel hf
      cases fuel with
      | zero => omega
      | succ f => simp [splitLoop, hr]
    | false =>
      have h4' := h4 hr
      have hne : (dirLoop dim nreq [0, 1, 2] bs).1.length ≠ bs.length := by
        intro he
        have hall := h5 hr he
        have : (bs.map (fun b => vol dim b.num)).sum = bs.length := by
          apply sum_map_one
          intro b hb
          apply vol_one (hg.ok b hb)
          intro d hdd
          rcases fin3_cases d with rfl | rfl | rfl
          · exact hall 0 (by simp) hdd b hb
          · exact hall 1 (by simp) hdd b hb
          · exact hall 2 (by simp) hdd b hb
        rw [hg.vol] at this
        omega
      obtain ⟨l, hl1, hl2, hl3⟩ := ih _ (by omega) _ h1 h4' rfl
      refine ⟨l, hl1, hl2, ?_⟩
      intro fuel hf
      cases fuel with
      | zero => omega
      | succ f =>
        simp only [splitLoop, hr]
        exact hl3 f (by omega)

/-! ### Bisection phase -/

structure BInv (dim nreq : Nat) (n : Arr3) (s : BState) : Prop where
  prod : ∀ d : Fin 3, d.val < dim → s.nblocksInDir d * s.nblockcellsInDir d = n d
  pos : ∀ d : Fin 3, d.val < dim → 0 < s.nblockcellsInDir d
  one : ∀ d : Fin 3, ¬ d.val < dim → s.nblocksInDir d = 1
  nb : s.nblocks = s.nblocksInDir 0 * s.nblocksInDir 1 * s.nblocksInDir 2
  le : s.nblocks ≤ nreq
  ge : 1 ≤ s.nblocks

theorem canBisect_iff {dim nreq : Nat} {d : Fin 3} {s : BState} (hd : 1 ≤ dim) :
    canBisect dim nreq d s = true ↔
      d.val < dim ∧ s.nblockcellsInDir d % 2 = 0 ∧ 2 * s.nblocks ≤ nreq := by
  simp only [canBisect, Bool.and_eq_true, Bool.or_eq_true, decide_eq_true_eq, and_assoc]
  constructor
  · rintro ⟨h1, h2, h3⟩; exact ⟨by omega, h2, h3⟩
  · rintro ⟨h1, h2, h3⟩; exact ⟨Or.inr h1, h2, h3⟩

theorem bisectDir_inv {dim nreq : Nat} {n : Arr3} {s : BState} {d : Fin 3} (hd : 1 ≤ dim)
    (h : BInv dim nreq n s) (hc : canBisect dim nreq d s = true) :
    BInv dim nreq n (bisectDir d s) := by
  rw [canBisect_iff hd] at hc
  obtain ⟨c1, c2, c3⟩ := hc
  refine ⟨?_, ?_, ?_, ?_, ?_, ?_⟩
  · intro e he
    have := h.prod e he
    simp only [bisectDir]
    by_cases ee : e = d
    · subst ee
      simp only [if_true]
      obtain ⟨q, hq⟩ : ∃ q, s.nblockcellsInDir e = 2 * q := ⟨s.nblockcellsInDir e / 2, by omega⟩
      rw [hq] at this ⊢
      rw [← this, show 2 * q / 2 = q by omega]; ring
    · simpa [ee] using this
  · intro e he
    have := h.pos e he
    simp only [bisectDir]
    by_cases ee : e = d
    · subst ee; simp only [if_true]; omega
    · simpa [ee] using this
  · intro e he
    have := h.one e he
    have ee : e ≠ d := by rintro rfl; exact he c1
    simpa [bisectDir, ee] using this
  · have := h.nb
    rcases fin3_cases d with rfl | rfl | rfl <;> simp [bisectDir, this] <;> ring
  · have := h.le; simp only [bisectDir]; omega
  · have := h.ge; simp only [bisectDir]; omega

theorem bisectIter_spec {dim nreq : Nat} {n : Arr3} (hd : 1 ≤ dim) (ds : List (Fin 3))
    (bis : Bool) (s : BState) (h : BInv dim nreq n s) :
    let r := bisectIter dim nreq ds bis s
    BInv dim nreq n r.1 ∧ s.nblocks ≤ r.1.nblocks ∧
      (r.2 = false → bis = true ∨ s.nblocks < r.1.nblocks) := by
  induction ds generalizing s bis with
  | nil => simp only [bisectIter]; exact ⟨h, Nat.le_refl _, by simp⟩
  | cons d ds ih =>
    simp only [bisectIter]
    by_cases hc : canBisect dim nreq d s
    · simp only [hc, if_true]
      have hi := bisectDir_inv hd h hc
      have hge := h.ge
      have hn : (bisectDir d s).nblocks = s.nblocks * 2 := rfl
      by_cases he : (bisectDir d s).nblocks = nreq
      · simp only [he, if_true]
        exact ⟨hi, by omega, by simp⟩
      · simp only [he, if_false]
        obtain ⟨i1, i2, i3⟩ := ih true _ hi
        exact ⟨i1, by omega, fun _ => Or.inr (by omega)⟩
    · rw [if_neg hc]
      exact ih bis s h

theorem bisectLoop_spec {dim nreq : Nat} {n : Arr3} (hd : 1 ≤ dim) (s : BState)
    (h : BInv dim nreq n s) :
    ∃ s', BInv dim nreq n s' ∧
      ∀ fuel, nreq + 1 - s.nblocks ≤ fuel → bisectLoop dim nreq fuel s = .ok s' := by
  induction hm : nreq + 1 - s.nblocks using Nat.strongRecOn generalizing s with
  | _ m ih =>
    obtain ⟨h1, h2, h3⟩ := bisectIter_spec hd [0, 1, 2] false s h
    have hle := h.le
    cases hr : (bisectIter dim nreq [0, 1, 2] false s).2 with
    | true =>
      refine ⟨_, h1, ?_⟩
      intro fuel hf
      cases fuel with
      | zero => omega
      | succ f => simp [bisectLoop, hr]
    | false =>
      have h3' := h3 hr
      simp only [Bool.false_eq_true, false_or] at h3'
      have hle' := h1.le
      obtain ⟨s', hs1, hs2⟩ := ih _ (by omega) _ h1 rfl
      refine ⟨s', hs1, ?_⟩
      intro fuel hf
      cases fuel with
      | zero => omega
      | succ f =>
        simp only [bisectLoop, hr]
        exact hs2 f (by omega)

/-! ### Population -/

theorem sum_zero (l : List Nat) (h : ∀ x ∈ l, x = 0) : l.sum = 0 := by
  induction l with
  | nil => rfl
  | cons a l ih =>
    rw [List.sum_cons, h a (by simp), ih (fun x hx => h x (by simp [hx]))]

theorem le_sum_mem (l : List Nat) (a : Nat) (h : a ∈ l) : a ≤ l.sum := by
  induction l with
  | nil => simp at h
  | cons b l ih =>
    rw [List.sum_cons]
    simp only [List.mem_cons] at h
    rcases h with rfl | h
    · omega
    · have := ih h; omega

theorem sum_map_ite_const (m X : Nat) (P : Nat → Prop) [DecidablePred P] :
    ((List.range m).map (fun i => if P i then X else 0)).sum =
      X * ((List.range m).map (fun i => if P i then 1 else 0)).sum := by
  induction m with
  | zero => simp
  | succ m ih =>
    simp only [List.range_succ, List.map_append, List.sum_append, List.map_cons, List.map_nil,
      List.sum_cons, List.sum_nil, ih]
    split <;> ring

theorem sum_interval (m w c : Nat) (hc : c < m * w) :
    ((List.range m).map (fun i => if i * w ≤ c ∧ c < i * w + w then 1 else 0)).sum = 1 := by
  induction m with
  | zero => omega
  | succ m ih =>
    simp only [List.range_succ, List.map_append, List.sum_append, List.map_cons, List.map_nil,
      List.sum_cons, List.sum_nil]
    have e : (m + 1) * w = m * w + w := by ring
    by_cases h : c < m * w
    · rw [ih h, if_neg (by omega)]; rfl
    · rw [if_pos (by omega)]
      have : ((List.range m).map (fun i => if i * w ≤ c ∧ c < i * w + w then 1 else 0)).sum = 0 := by
        apply sum_zero
        intro x hx
        simp only [List.mem_map, List.mem_range] at hx
        obtain ⟨i, hi, rfl⟩ := hx
        have : (i + 1) * w ≤ m * w := Nat.mul_le_mul_right _ hi
        have e2 : (i + 1) * w = i * w + w := by ring
        rw [if_neg (by omega)]
      omega

theorem sum_map_const (m X : Nat) : ((List.range m).map (fun _ => X)).sum = m * X := by
  simp [List.map_const']

theorem populate_length {dim nreq : Nat} {n : Arr3} {s : BState} (h : BInv dim nreq n s) :
    (populate dim s).length = s.nblocks := by
  rw [h.nb]
  simp [populate, List.length_flatMap, Nat.mul_assoc, List.map_const']

theorem map_sum_flatMap {α : Type} (f : Nat → List α) (m : Nat) (φ : α → Nat) :
    (((List.range m).flatMap f).map φ).sum =
      ((List.range m).map (fun i => ((f i).map φ).sum)).sum := by
  induction m with
  | zero => simp
  | succ m ih =>
    simp [List.range_succ, List.flatMap_append, ih]

theorem populate_good {dim nreq : Nat} {n : Arr3} {s : BState} (hd : 1 ≤ dim)
    (h : BInv dim nreq n s) : Good dim n (populate dim s) := by
  have hp := forall_fin3.mp h.prod
  have ho := forall_fin3.mp h.one
  have hpos := forall_fin3.mp h.pos
  obtain ⟨p0, p1, p2⟩ := hp
  obtain ⟨_, o1, o2⟩ := ho
  obtain ⟨q0, q1, q2⟩ := hpos
  have p0 := p0 (by simpa using (show 0 < dim from hd))
  have q0 := q0 (by simpa using (show 0 < dim from hd))
  simp at p1 p2 o1 o2 q1 q2
  refine ⟨?_, ?_, ?_⟩
  · intro b hb
    simp only [populate, List.mem_flatMap, List.mem_map, List.mem_range] at hb
    obtain ⟨i, hi, j, hj, k, hk, rfl⟩ := hb
    have key : ∀ (a m w N : Nat), m * w = N → a < m → a * w + w ≤ N := by
      intro a m w N e ha
      have : (a + 1) * w ≤ m * w := Nat.mul_le_mul_right _ ha
      have e2 : (a + 1) * w = a * w + w := by ring
      omega
    refine ⟨?_, ?_⟩
    · intro d hdd
      rcases fin3_cases d with rfl | rfl | rfl
      · simpa using q0
      · simp at hdd; simpa [hdd] using q1 hdd
      · simp at hdd; simpa [hdd] using q2 hdd
    · intro d hdd
      rcases fin3_cases d with rfl | rfl | rfl
      · simpa using key _ _ _ _ p0 hi
      · simp at hdd; simpa [hdd] using key _ _ _ _ (p1 hdd) hj
      · simp at hdd; simpa [hdd] using key _ _ _ _ (p2 hdd) hk
  · simp only [populate, map_sum_flatMap]
    simp only [List.map_map, Function.comp_def, vol]
    simp only [sum_map_const]
    have hd0 : 0 < dim := hd
    by_cases h1 : 1 < dim <;> by_cases h2 : 2 < dim <;> simp [hd0, h1, h2]
    · rw [← p0, ← p1 h1, ← p2 h2]; ring
    · rw [← p0, ← p1 h1, o2 (by omega)]; ring
    · omega
    · rw [← p0, o1 (by omega), o2 (by omega)]; ring
  · intro c hc
    have hcc := forall_fin3.mp hc
    obtain ⟨c0, c1, c2⟩ := hcc
    have c0 := c0 (by simpa using (show 0 < dim from hd))
    simp at c1 c2
    have hind : ∀ i j k : Nat, InBlock dim
        { lo := fun d =>
            if d = 0 then i * s.nblockcellsInDir 0
            else if d = 1 then (if dim > 1 then j * s.nblockcellsInDir 1 else 0)
            else (if dim > 2 then k * s.nblockcellsInDir 2 else 0)
          num := fun d =>
            if d = 0 then s.nblockcellsInDir 0
            else if d = 1 then (if dim > 1 then s.nblockcellsInDir 1 else 0)
            else (if dim > 2 then s.nblockcellsInDir 2 else 0) } c ↔
        (i * s.nblockcellsInDir 0 ≤ c 0 ∧ c 0 < i * s.nblockcellsInDir 0 + s.nblockcellsInDir 0) ∧
        (1 < dim → j * s.nblockcellsInDir 1 ≤ c 1 ∧
          c 1 < j * s.nblockcellsInDir 1 + s.nblockcellsInDir 1) ∧
        (2 < dim → k * s.nblockcellsInDir 2 ≤ c 2 ∧
          c 2 < k * s.nblockcellsInDir 2 + s.nblockcellsInDir 2) := by
      intro i j k
      simp only [InBlock]
      rw [forall_fin3]
      have hd0 : 0 < dim := hd
      by_cases h1 : 1 < dim <;> by_cases h2 : 2 < dim <;> simp [hd0, h1, h2]
    simp only [populate, map_sum_flatMap]
    simp only [List.map_map, Function.comp_def, ind, hind]
    have hz : ∀ i j, ((List.range (s.nblocksInDir 2)).map (fun k =>
        if (i * s.nblockcellsInDir 0 ≤ c 0 ∧ c 0 < i * s.nblockcellsInDir 0 + s.nblockcellsInDir 0) ∧
        (1 < dim → j * s.nblockcellsInDir 1 ≤ c 1 ∧
          c 1 < j * s.nblockcellsInDir 1 + s.nblockcellsInDir 1) ∧
        (2 < dim → k * s.nblockcellsInDir 2 ≤ c 2 ∧
          c 2 < k * s.nblockcellsInDir 2 + s.nblockcellsInDir 2) then 1 else 0)).sum =
        if (i * s.nblockcellsInDir 0 ≤ c 0 ∧ c 0 < i * s.nblockcellsInDir 0 + s.nblockcellsInDir 0) ∧
        (1 < dim → j * s.nblockcellsInDir 1 ≤ c 1 ∧
          c 1 < j * s.nblockcellsInDir 1 + s.nblockcellsInDir 1) then 1 else 0 := by
      intro i j
      by_cases hA : (i * s.nblockcellsInDir 0 ≤ c 0 ∧ c 0 < i * s.nblockcellsInDir 0 + s.nblockcellsInDir 0) ∧
        (1 < dim → j * s.nblockcellsInDir 1 ≤ c 1 ∧
          c 1 < j * s.nblockcellsInDir 1 + s.nblockcellsInDir 1)
      · rw [if_pos hA]
        by_cases h2 : 2 < dim
        · have := sum_interval (s.nblocksInDir 2) (s.nblockcellsInDir 2) (c 2)
            (by rw [p2 h2]; exact c2 h2)
          refine Eq.trans ?_ this
          congr 1; apply List.map_congr_left
          intro k _
          have hx := hA.1; have hy := hA.2
          refine if_congr ?_ rfl rfl
          exact ⟨fun h => h.2.2 h2, fun h => ⟨hx, hy, fun _ => h⟩⟩
        · have hx := hA.1; have hy := hA.2
          simp only [h2, false_imp_iff, and_true]
          rw [o2 (by omega)]
          simp only [List.range_one, List.map_cons, List.map_nil, List.sum_cons, List.sum_nil]
          rw [if_pos ⟨hx, hy⟩]; rfl
      · rw [if_neg hA]
        apply sum_zero
        intro x hx
        simp only [List.mem_map] at hx
        obtain ⟨k, _, rfl⟩ := hx
        rw [if_neg]
        rintro ⟨a, b, _⟩; exact hA ⟨a, b⟩
    simp only [hz]
    have hy : ∀ i, ((List.range (s.nblocksInDir 1)).map (fun j =>
        if (i * s.nblockcellsInDir 0 ≤ c 0 ∧ c 0 < i * s.nblockcellsInDir 0 + s.nblockcellsInDir 0) ∧
        (1 < dim → j * s.nblockcellsInDir 1 ≤ c 1 ∧
          c 1 < j * s.nblockcellsInDir 1 + s.nblockcellsInDir 1) then 1 else 0)).sum =
        if (i * s.nblockcellsInDir 0 ≤ c 0 ∧ c 0 < i * s.nblockcellsInDir 0 + s.nblockcellsInDir 0)
          then 1 else 0 := by
      intro i
      by_cases hA : (i * s.nblockcellsInDir 0 ≤ c 0 ∧ c 0 < i * s.nblockcellsInDir 0 + s.nblockcellsInDir 0)
      · rw [if_pos hA]
        by_cases h1 : 1 < dim
        · have := sum_interval (s.nblocksInDir 1) (s.nblockcellsInDir 1) (c 1)
            (by rw [p1 h1]; exact c1 h1)
          refine Eq.trans ?_ this
          congr 1; apply List.map_congr_left
          intro k _
          refine if_congr ?_ rfl rfl
          exact ⟨fun h => h.2 h1, fun h => ⟨hA, fun _ => h⟩⟩
        · simp only [h1, false_imp_iff, and_true]
          rw [o1 (by omega)]
          simp only [List.range_one, List.map_cons, List.map_nil, List.sum_cons, List.sum_nil]
          rw [if_pos hA]; rfl
      · rw [if_neg hA]
        apply sum_zero
        intro x hx
        simp only [List.mem_map] at hx
        obtain ⟨k, _, rfl⟩ := hx
        rw [if_neg]
        rintro ⟨a, b⟩; exact hA a
    simp only [hy]
    exact sum_interval _ _ _ (by rw [p0]; exact c0)

theorem bInit_inv {dim nreq : Nat} {n : Arr3} (hn : ∀ d : Fin 3, d.val < dim → 0 < n d)
    (hr : 1 ≤ nreq) : BInv dim nreq n (bInit dim n) := by
  refine ⟨?_, ?_, ?_, ?_, ?_, ?_⟩
  · intro d h; simp [bInit, h]
  · intro d h; simpa [bInit, h] using hn d h
  · intro d h; simp [bInit]
  · simp [bInit]
  · simpa [bInit] using hr
  · simp [bInit]

theorem bisect_spec {dim nreq : Nat} {n : Arr3} (hd : 1 ≤ dim)
    (hn : ∀ d : Fin 3, d.val < dim → 0 < n d) (hr : 1 ≤ nreq) :
    ∃ s, BInv dim nreq n s ∧ ∀ fuel, nreq ≤ fuel → bisect dim nreq fuel n = .ok s := by
  by_cases h : nreq > 1
  · obtain ⟨s, hs, hf⟩ := bisectLoop_spec hd _ (bInit_inv hn hr)
    refine ⟨s, hs, fun fuel hfu => ?_⟩
    simp only [bisect, h, if_true]
    apply hf
    show nreq + 1 - 1 ≤ fuel
    omega
  · exact ⟨_, bInit_inv hn hr, fun fuel _ => by simp [bisect, h]⟩

theorem ncellsTotal_eq (dim : Nat) (n : Arr3) : ncellsTotal dim n = vol dim n := by
  simp [ncellsTotal, vol]

theorem none_of_sum {dim : Nat} {c} (bs : List Block) (h0 : (bs.map (ind dim c)).sum = 0)
    (j : Fin bs.length) : ¬ InBlock dim bs[j] c := by
  intro hj
  have hm : ind dim c bs[j] ≤ (bs.map (ind dim c)).sum :=
    le_sum_mem _ _ (List.mem_map.mpr ⟨_, List.getElem_mem _, rfl⟩)
  have h1 : ind dim c bs[j] = 1 := by simp only [ind]; rw [if_pos hj]
  omega

theorem exists_unique_of_sum {dim : Nat} {c} (bs : List Block)
    (h : (bs.map (ind dim c)).sum = 1) :
    ∃ i : Fin bs.length, InBlock dim bs[i] c ∧ ∀ j : Fin bs.length, InBlock dim bs[j] c → j = i := by
  revert h
  induction bs with
  | nil => intro h; simp at h
  | cons b bs ih =>
    intro h
    simp only [List.map_cons, List.sum_cons] at h
    by_cases hb : InBlock dim b c
    · have h0 : (bs.map (ind dim c)).sum = 0 := by
        have : ind dim c b = 1 := by simp [ind, hb]
        omega
      refine ⟨⟨0, by simp⟩, by simpa using hb, ?_⟩
      rintro ⟨j, hj⟩ hjj
      cases j with
      | zero => rfl
      | succ j => exact absurd hjj (none_of_sum bs h0 ⟨j, by simpa using hj⟩)
    · have h1 : (bs.map (ind dim c)).sum = 1 := by
        have : ind dim c b = 0 := by simp [ind, hb]
        omega
      obtain ⟨⟨i, hi⟩, hin, huniq⟩ := ih h1
      refine ⟨⟨i + 1, by simpa using hi⟩, by simpa using hin, ?_⟩
      rintro ⟨j, hj⟩ hjj
      cases j with
      | zero => exact absurd hjj hb
      | succ j =>
        have := huniq ⟨j, by simpa using hj⟩ hjj
        simp only [Fin.mk.injEq] at this
        simp [this]

theorem blockPartition_spec {dim nreq : Nat} {n : Arr3} (hd : 1 ≤ dim)
    (hn : ∀ d : Fin 3, d.val < dim → 0 < n d) (hr : 1 ≤ nreq) (hv : nreq ≤ vol dim n) :
    ∃ l, Good dim n l ∧ l.length = nreq ∧
      ∀ fuel, nreq ≤ fuel → blockPartition fuel dim n nreq = .ok l := by
  obtain ⟨s, hs, hf⟩ := bisect_spec hd hn hr
  have hg := populate_good hd hs
  have hlen := populate_length hs
  have hle := hs.le
  by_cases he : s.nblocks = nreq
  · refine ⟨_, hg, by omega, fun fuel hfu => ?_⟩
    simp [blockPartition, ncellsTotal_eq, hv, hf fuel hfu, he]
  · obtain ⟨l, hl1, hl2, hl3⟩ := splitLoop_spec hd hv _ hg (by omega)
    refine ⟨l, hl1, hl2, fun fuel hfu => ?_⟩
    simp only [blockPartition, ncellsTotal_eq, hv, if_true, hf fuel hfu, ne_eq, he,
      not_false_eq_true]
    exact hl3 fuel (by omega)

theorem gridSize_eq_vol {dim : Nat} {n : Arr3} (h1 : 1 ≤ dim) (h3 : dim ≤ 3) :
    gridSize dim n = vol dim n := by
  have : dim = 1 ∨ dim = 2 ∨ dim = 3 := by omega
  rcases this with rfl | rfl | rfl <;> simp [gridSize, vol]

theorem sweep_single {dim : Nat} (d : Fin 3) (b : Block) (hb : isBlank b = false) :
    (sweep dim 0 1 d [b] [] = ([b], [], false)) ∨
    (sweep dim 0 1 d [b] [] = ([blank b], [child1 dim d b, child2 dim d b], true)) := by
  simp only [sweep, hb]
  by_cases h : b.num d / 2 = 0 ∨ b.num d - b.num d / 2 = 0
  · left; rw [if_neg (by simp), if_pos h]
  · right; rw [if_neg (by simp), if_neg h]; simp

theorem dirLoop_single {dim : Nat} (ds : List (Fin 3)) (b : Block) (hb : isBlank b = false) :
    dirLoop dim 0 ds [b] = ([b], false) ∨
    ∃ x y, dirLoop dim 0 ds [b] = ([x, y], true) := by
  induction ds with
  | nil => left; rfl
  | cons d ds ih =>
    simp only [dirLoop]
    by_cases hd : d.val < dim
    · rw [if_pos hd]
      rcases sweep_single (dim := dim) d b hb with h | h
      · simp only [List.length_singleton, h]
        have : squeeze 1 ([b] ++ []) = [b] := by
          have := squeeze_eq [b] []
          simpa [live, hb] using this
        rw [this]; simpa using ih
      · simp only [List.length_singleton, h]
        right
        refine ⟨child1 dim d b, child2 dim d b, ?_⟩
        have := squeeze_eq [blank b] [child1 dim d b, child2 dim d b]
        simpa [live, isBlank_blank] using this
    · rw [if_neg hd]; exact ih

end Jali.BlockPartition
