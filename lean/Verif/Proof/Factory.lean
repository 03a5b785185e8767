import Verif.Spec.Factory
import Mathlib.Tactic.Linarith
import Mathlib.Tactic.Ring
import Mathlib.Algebra.Field.Rat
import Mathlib.Data.List.Induction
/-! Lemmas about the mesh factory. -/
namespace Jali.Factory

/-! ### histories of options -/

/-- the request flag of a kind -/
def flag (k : EntityKind) (o : Options) : Bool :=
  match k with
  | .EDGE => o.edges | .FACE => o.faces | .SIDE => o.sides | .WEDGE => o.wedges | .CORNER => o.corners
  | .CELL => o.cells | .NODE => true | _ => false

theorem mem_included (o : Options) (k : EntityKind) : k ∈ includedEntities o ↔ flag k o = true := by
  cases k <;> simp [includedEntities, flag]

theorem included_nodup (o : Options) : (includedEntities o).Nodup := by
  unfold includedEntities
  generalize o.edges = e, o.faces = f, o.sides = s, o.wedges = w, o.corners = c, o.cells = l
  revert e f s w c l; decide

theorem flag_includeOne (o : Options) (k e : EntityKind) (hk : k = .EDGE ∨ k = .SIDE ∨ k = .WEDGE ∨ k = .CORNER) :
    flag k (includeOne o e) = if e = k ∨ e = .ALL_KIND then true else flag k o := by
  rcases hk with rfl | rfl | rfl | rfl <;> cases e <;> simp [includeOne, flag]

theorem flag_excludeOne (o : Options) (k e : EntityKind) (hk : k = .EDGE ∨ k = .SIDE ∨ k = .WEDGE ∨ k = .CORNER) :
    flag k (excludeOne o e) = if e = k then false else flag k o := by
  rcases hk with rfl | rfl | rfl | rfl <;> cases e <;> simp [excludeOne, flag]

theorem flag_includeList (k : EntityKind) (hk : k = .EDGE ∨ k = .SIDE ∨ k = .WEDGE ∨ k = .CORNER)
    (l : List EntityKind) : ∀ o : Options,
    flag k (includeList o l) = if k ∈ l ∨ EntityKind.ALL_KIND ∈ l then true else flag k o := by
  induction l with
  | nil => intro o; simp [includeList]
  | cons e l ih =>
    intro o
    have h : includeList o (e :: l) = includeList (includeOne o e) l := rfl
    rw [h, ih, flag_includeOne o k e hk]
    have h1 : (k ∈ e :: l ∨ EntityKind.ALL_KIND ∈ e :: l) ↔
        (k ∈ l ∨ EntityKind.ALL_KIND ∈ l) ∨ (e = k ∨ e = .ALL_KIND) := by
      simp only [List.mem_cons]
      constructor
      · rintro ((h | h) | (h | h))
        · exact Or.inr (Or.inl h.symm)
        · exact Or.inl (Or.inl h)
        · exact Or.inr (Or.inr h.symm)
        · exact Or.inl (Or.inr h)
      · rintro ((h | h) | (h | h))
        · exact Or.inl (Or.inr h)
        · exact Or.inr (Or.inr h)
        · exact Or.inl (Or.inl h.symm)
        · exact Or.inr (Or.inl h.symm)
    simp only [h1]
    by_cases h2 : k ∈ l ∨ EntityKind.ALL_KIND ∈ l
    · simp [h2]
    · by_cases h3 : e = k ∨ e = .ALL_KIND
      · rw [if_neg h2, if_pos h3, if_pos (Or.inr h3)]
      · rw [if_neg h2, if_neg h3, if_neg (by tauto)]

theorem flag_excludeList (k : EntityKind) (hk : k = .EDGE ∨ k = .SIDE ∨ k = .WEDGE ∨ k = .CORNER)
    (l : List EntityKind) : ∀ o : Options,
    flag k (excludeList o l) = if k ∈ l then false else flag k o := by
  induction l with
  | nil => intro o; simp [excludeList]
  | cons e l ih =>
    intro o
    have h : excludeList o (e :: l) = excludeList (excludeOne o e) l := rfl
    rw [h, ih, flag_excludeOne o k e hk]
    by_cases h1 : k ∈ l <;> by_cases h3 : e = k
    · simp [h1]
    · simp [h1]
    · simp [h3]
    · simp [h1, h3, Ne.symm h3]

theorem flag_framework (k : EntityKind) (o : Options) (f : Framework) :
    flag k ((setFramework o f).getD o) = flag k o := by
  unfold setFramework
  split <;> cases k <;> rfl

theorem flag_step (k : EntityKind) (hk : k = .EDGE ∨ k = .WEDGE ∨ k = .CORNER) (o : Options) (op : Op) :
    flag k (step o op) = (asks k op).getD (flag k o) := by
  have hk' : k = .EDGE ∨ k = .SIDE ∨ k = .WEDGE ∨ k = .CORNER := by tauto
  cases op with
  | framework f => exact flag_framework k o f
  | includeKind e =>
    simp only [step, asks, flag_includeOne o k e hk']; split <;> rfl
  | includeList l =>
    simp only [step, asks, flag_includeList k hk' l]; split <;> rfl
  | excludeList l =>
    simp only [step, asks, flag_excludeList k hk' l]; split <;> rfl
  | reset => rcases hk with rfl | rfl | rfl <;> rfl
  | _ => cases k <;> rfl

theorem flag_step_side (o : Options) (op : Op) (h : op ≠ .reset) :
    flag .SIDE (step o op) = (asks .SIDE op).getD (flag .SIDE o) := by
  have hk' : EntityKind.SIDE = .EDGE ∨ EntityKind.SIDE = .SIDE ∨ EntityKind.SIDE = .WEDGE ∨ EntityKind.SIDE = .CORNER := by tauto
  cases op with
  | framework f => exact flag_framework _ o f
  | includeKind e => simp only [step, asks, flag_includeOne o _ e hk']; split <;> rfl
  | includeList l => simp only [step, asks, flag_includeList _ hk' l]; split <;> rfl
  | excludeList l => simp only [step, asks, flag_excludeList _ hk' l]; split <;> rfl
  | reset => exact absurd rfl h
  | _ => rfl

theorem after_append (h : List Op) (op : Op) : after (h ++ [op]) = step (after h) op := by
  simp [after, List.foldl_append]

theorem not_lastIncludes_nil (k : EntityKind) : ¬ LastIncludes k [] := by
  rintro ⟨h₁, op, h₂, h, -⟩
  cases h₁ <;> simp at h

theorem lastIncludes_append (k : EntityKind) (h : List Op) (op : Op) :
    LastIncludes k (h ++ [op]) ↔ asks k op = some true ∨ (asks k op = none ∧ LastIncludes k h) := by
  constructor
  · rintro ⟨h₁, op', h₂, heq, ht, hn⟩
    rcases List.eq_nil_or_concat h₂ with rfl | ⟨t, last, rfl⟩
    · left
      have := List.append_inj' heq rfl
      have h2 : op = op' := by simpa using this.2
      rwa [h2]
    · right
      have h1 : h ++ [op] = (h₁ ++ op' :: t) ++ [last] := by simpa using heq
      have := List.append_inj' h1 rfl
      have h2 : op = last := by simpa using this.2
      refine ⟨by rw [h2]; exact hn last (by simp), h₁, op', t, this.1, ht, fun x hx => hn x ?_⟩
      simp [hx]
  · rintro (ht | ⟨hn, h₁, op', h₂, rfl, ht, hh⟩)
    · exact ⟨h, op, [], rfl, ht, by simp⟩
    · refine ⟨h₁, op', h₂ ++ [op], by simp, ht, fun x hx => ?_⟩
      rcases List.mem_append.1 hx with hx | hx
      · exact hh x hx
      · simp only [List.mem_singleton] at hx; rwa [hx]

theorem flag_after (k : EntityKind) (P : Op → Prop)
    (hstep : ∀ o op, P op → flag k (step o op) = (asks k op).getD (flag k o)) (hnew : flag k new = false) :
    ∀ h : List Op, (∀ op ∈ h, P op) → (flag k (after h) = true ↔ LastIncludes k h) := by
  intro h
  induction h using List.reverseRecOn with
  | nil => intro _; simp [after, hnew, not_lastIncludes_nil]
  | append_singleton h op ih =>
    intro hP
    have ih := ih fun x hx => hP x (by simp [hx])
    rw [after_append, hstep _ _ (hP op (by simp)), lastIncludes_append]
    cases hs : asks k op with
    | none => simp [ih]
    | some b => simp

theorem always_step (o : Options) (op : Op) (h : o.faces = true ∧ o.cells = true) :
    (step o op).faces = true ∧ (step o op).cells = true := by
  have one : ∀ (o : Options) (e : EntityKind), o.faces = true ∧ o.cells = true →
      (includeOne o e).faces = true ∧ (includeOne o e).cells = true := by
    intro o e h; cases e <;> simp [includeOne, h]
  have ex : ∀ (o : Options) (e : EntityKind), o.faces = true ∧ o.cells = true →
      (excludeOne o e).faces = true ∧ (excludeOne o e).cells = true := by
    intro o e h; cases e <;> simp [excludeOne, h]
  cases op with
  | framework f => simp only [step, setFramework]; split <;> exact h
  | includeKind e => exact one o e h
  | includeList l =>
    simp only [step, includeList]
    induction l generalizing o with
    | nil => exact h
    | cons e l ih => exact ih _ (one o e h)
  | excludeList l =>
    simp only [step, excludeList]
    induction l generalizing o with
    | nil => exact h
    | cons e l ih => exact ih _ (ex o e h)
  | reset => exact ⟨rfl, rfl⟩
  | _ => exact h

theorem always_after (h : List Op) : (after h).faces = true ∧ (after h).cells = true := by
  induction h using List.reverseRecOn with
  | nil => exact ⟨rfl, rfl⟩
  | append_singleton h op ih => rw [after_append]; exact always_step _ _ ih

/-! ### runs of all ranks -/

theorem run_some_ret (ps : List Prog) (h : ∃ o, Prog.ret o ∈ ps) : run ps = ps.map Prog.stuck := by
  obtain ⟨o, h⟩ := h
  cases ps with
  | nil => rfl
  | cons p ps =>
    cases p with
    | ret o' => rfl
    | allreduce v k =>
      rw [run, runRanks, if_neg]
      · rfl
      · rw [List.all_eq_true]
        intro hall
        rcases List.mem_cons.1 h with h | h
        · cases h
        · simpa [Prog.value?] using hall _ h

theorem run_rets {α : Type} (rs : List α) (o : α → Outcome) :
    run (rs.map fun r => Prog.ret (o r)) = rs.map fun r => Final.done (o r) := by
  cases rs with
  | nil => rfl
  | cons r rs => rw [run_some_ret _ ⟨o r, by simp⟩]; simp [Prog.stuck]

theorem run_allreduce {α : Type} (rs : List α) (v : α → Int) (k : α → Int → Prog) :
    run (rs.map fun r => Prog.allreduce (v r) (k r)) = run (rs.map fun r => k r (rs.map v).sum) := by
  cases rs with
  | nil => rfl
  | cons r rs =>
    simp only [List.map_cons, run]
    rw [runRanks, if_pos]
    · have h : ∀ l : List α, List.filterMap Prog.value? (l.map fun r => Prog.allreduce (v r) (k r)) = l.map v := by
        intro l; induction l with
        | nil => rfl
        | cons a l ih => simp [Prog.value?, ih]
      rw [h]
      simp [Prog.resume, Function.comp_def]
    · simp [Prog.value?]

theorem run_check {α : Type} (rs : List α) (v : α → Int) (k : α → Prog) :
    run (rs.map fun r => check (v r) (k r)) =
      if 0 < (rs.map v).sum then rs.map (fun _ => Final.done .error) else run (rs.map k) := by
  unfold check
  rw [run_allreduce]
  split
  · exact run_rets rs fun _ => .error
  · rfl

theorem run_finish {α : Type} (rs : List α) (v : α → Int) :
    run (rs.map fun r => finish (v r)) =
      if 0 < (rs.map v).sum then rs.map (fun _ => Final.done .error) else rs.map (fun _ => Final.done .null) := by
  unfold finish
  rw [run_allreduce]
  split
  · exact run_rets rs fun _ => .error
  · exact run_rets rs fun _ => .null

theorem sum_nonneg {α : Type} (rs : List α) (v : α → Int) (h : ∀ r ∈ rs, 0 ≤ v r) : 0 ≤ (rs.map v).sum := by
  induction rs with
  | nil => simp
  | cons a l ih =>
    have := ih fun r hr => h r (by simp [hr])
    have := h a (by simp)
    simp; omega

theorem sum_pos {α : Type} (rs : List α) (v : α → Int) (h : ∀ r ∈ rs, 0 ≤ v r) (hp : ∃ r ∈ rs, 0 < v r) :
    0 < (rs.map v).sum := by
  obtain ⟨r, hr, hv⟩ := hp
  induction rs with
  | nil => cases hr
  | cons a l ih =>
    have hl : ∀ r ∈ l, 0 ≤ v r := fun r hr => h r (by simp [hr])
    have h1 := sum_nonneg l v hl
    have h2 := h a (by simp)
    simp only [List.map_cons, List.sum_cons]
    rcases List.mem_cons.1 hr with rfl | hr
    · omega
    · have := ih hl hr; omega

theorem sum_zero {α : Type} (rs : List α) (v : α → Int) (h : ∀ r ∈ rs, v r = 0) : (rs.map v).sum = 0 := by
  induction rs with
  | nil => rfl
  | cons a l ih => simp [h a (by simp), ih fun r hr => h r (by simp [hr])]

end Jali.Factory
namespace Jali.Factory

/-- outcome of a program that `n` ranks run alike -/
def solo (n : Int) : Prog → Outcome
  | .ret o => o
  | .allreduce v k => solo n (k (n * v))

theorem sum_const {α : Type} (rs : List α) (v : Int) : (rs.map fun _ => v).sum = (rs.length : Int) * v := by
  induction rs with
  | nil => simp
  | cons a l ih => simp [ih]; ring

theorem run_same {α : Type} (rs : List α) (p : Prog) :
    run (rs.map fun _ => p) = rs.map fun _ => Final.done (solo rs.length p) := by
  induction p with
  | ret o => exact run_rets rs fun _ => o
  | allreduce v k ih =>
    rw [run_allreduce rs (fun _ => v) (fun _ => k), sum_const, ih, solo]

theorem solo_check (n v : Int) (k : Prog) : solo n (check v k) = if 0 < n * v then .error else solo n k := by
  simp only [check, solo]
  split <;> rfl

theorem solo_finish (n v : Int) : solo n (finish v) = if 0 < n * v then .error else .null := by
  simp only [finish, solo]
  split <;> rfl

theorem createAll_same (mstk : Bool) (rs : List Rank) (env : Env) (o : Options) (c : Call)
    (h : ∀ r ∈ rs, r.opts = o ∧ r.call = c ∧ ∀ s a, r.env s a = env s a) :
    createAll mstk rs = rs.map fun _ => Final.done (solo rs.length (create mstk rs.length env o c)) := by
  rw [← run_same rs (create mstk rs.length env o c), createAll]
  congr 1
  refine List.map_congr_left fun r hr => ?_
  obtain ⟨h1, h2, h3⟩ := h r hr
  have h4 : r.env = env := funext fun s => funext fun a => h3 s a
  rw [h1, h2, h4]

/-- outcomes that a user can deal with -/
def Fine : Outcome → Prop
  | .mesh _ => True
  | .error => True
  | _ => False

theorem fine_cases {o : Outcome} (h : Fine o) : o = .error ∨ ∃ m, o = .mesh m := by
  cases o with
  | mesh m => exact Or.inr ⟨m, rfl⟩
  | error => exact Or.inl rfl
  | null => cases h
  | abort => cases h

theorem fine_finish (n : Int) (h : 0 < n) : Fine (solo n (finish 1)) := by
  rw [solo_finish, if_pos (by omega)]; trivial

theorem fine_check (n v : Int) (k : Prog) (h : Fine (solo n k)) : Fine (solo n (check v k)) := by
  rw [solo_check]; split
  · trivial
  · exact h

theorem fine_built (n : Int) (h : 0 < n) (b : Built) (hb : b ≠ .aborts) : Fine (solo n (returnBuilt b)) := by
  cases b with
  | ok m => trivial
  | throws => exact fine_finish n h
  | aborts => exact absurd rfl hb

theorem construct_no_abort (env : Env) (s : Source) (a : Args)
    (h : ((∃ x, s = .simple1 x) ∨ ∃ x0 y0 z0 x1 y1 z1 nx ny nz, s = .simple3 x0 y0 z0 x1 y1 z1 nx ny nz) →
      a.boundaryGhosts = false) : construct env s a ≠ .aborts := by
  unfold construct
  cases s with
  | simple1 x =>
    simp only [h (Or.inl ⟨x, rfl⟩)]
    cases env (.simple1 x) a <;> simp
  | simple3 x0 y0 z0 x1 y1 z1 nx ny nz =>
    simp only [h (Or.inr ⟨_, _, _, _, _, _, _, _, _, rfl⟩)]
    cases env (.simple3 x0 y0 z0 x1 y1 z1 nx ny nz) a <;> simp
  | simple2 => simp
  | mstk3 x0 y0 z0 x1 y1 z1 nx ny nz => cases h : env (.mstk3 x0 y0 z0 x1 y1 z1 nx ny nz) a <;> simp [h]
  | mstk2 x0 y0 x1 y1 nx ny => cases h : env (.mstk2 x0 y0 x1 y1 nx ny) a <;> simp [h]
  | mstkFile n => cases h : env (.mstkFile n) a <;> simp [h]
  | mstkSub i s k f e => cases h : env (.mstkSub i s k f e) a <;> simp [h]

theorem checkFileMesh_no_abort (o : Options) (b : Built) (h : b ≠ .aborts) : checkFileMesh o b ≠ .aborts := by
  cases b with
  | ok m =>
    simp only [checkFileMesh]
    cases o.geometricModel with
    | none => simp
    | some g => dsimp only; split <;> simp
  | throws => simp [checkFileMesh]
  | aborts => exact absurd rfl h

theorem fine_create1 (n : Nat) (hn : 0 < n) (env : Env) (o : Options) (x : List Rat)
    (hb : o.framework = .Simple → o.boundaryGhosts = false) : Fine (solo n (create1 n env o x)) := by
  have hn' : 0 < (n : Int) := by omega
  unfold create1
  refine fine_check _ _ _ (fine_check _ _ _ (fine_check _ _ _ ?_))
  unfold switch1
  cases hf : o.framework with
  | Simple =>
    dsimp only
    split
    · exact fine_built _ hn' _ (construct_no_abort _ _ _ fun _ => hb hf)
    · exact fine_finish _ hn'
  | _ => exact fine_finish _ hn'

theorem fine_create (mstk : Bool) (n : Nat) (hn : 0 < n) (env : Env) (o : Options) (c : Call)
    (hc : o.Compiled mstk ∨ ∀ b, c ≠ .box2 b) (hb : o.framework = .Simple → o.boundaryGhosts = false) :
    Fine (solo n (create mstk n env o c)) := by
  have hn' : 0 < (n : Int) := by omega
  cases c with
  | file name =>
    simp only [create, createFile]
    split
    · exact fine_built _ hn' _ (checkFileMesh_no_abort _ _ (construct_no_abort _ _ _ (by rintro (⟨x, h⟩ | ⟨_, _, _, _, _, _, _, _, _, h⟩) <;> cases h)))
    · exact fine_finish _ hn'
  | sub i s k f e =>
    simp only [create, createSub]
    split
    · exact fine_built _ hn' _ (construct_no_abort _ _ _ (by rintro (⟨x, h⟩ | ⟨_, _, _, _, _, _, _, _, _, h⟩) <;> cases h))
    · exact fine_finish _ hn'
  | box3 b =>
    simp only [create, create3]
    split
    · trivial
    · refine fine_check _ _ _ (fine_check _ _ _ ?_)
      unfold switch3
      split
      · rename_i hf
        split
        · exact fine_built _ hn' _ (construct_no_abort _ _ _ fun _ => hb hf)
        · exact fine_finish _ hn'
      · exact fine_built _ hn' _ (construct_no_abort _ _ _ (by rintro (⟨x, h⟩ | ⟨_, _, _, _, _, _, _, _, _, h⟩) <;> cases h))
      · exact fine_finish _ hn'
  | box2 b =>
    simp only [create, create2]
    split
    · trivial
    · refine fine_check _ _ _ (fine_check _ _ _ ?_)
      unfold switch2
      split
      · split
        · exact fine_built _ hn' _ (construct_no_abort _ _ _ (by rintro (⟨x, h⟩ | ⟨_, _, _, _, _, _, _, _, _, h⟩) <;> cases h))
        · exact fine_finish _ hn'
      · exact fine_built _ hn' _ (construct_no_abort _ _ _ (by rintro (⟨x, h⟩ | ⟨_, _, _, _, _, _, _, _, _, h⟩) <;> cases h))
      · rename_i h1 h2
        exfalso
        rcases hc with (h | ⟨h, h'⟩) | h
        · exact h1 h
        · exact h2 h h'
        · exact h b rfl
  | points x => exact fine_create1 n hn env o x hb
  | line x0 x1 nx =>
    simp only [create, createLine]
    split
    · trivial
    · exact fine_create1 n hn env o _ hb

theorem rat_sub_le (x y : Rat) : y - x ≤ 0 ↔ y ≤ x := by constructor <;> intro h <;> linarith

/-- two collective checks, one of which fails somewhere -/
theorem run_check2 {α : Type} (rs : List α) (v w : α → Int) (k : α → Prog) (hv : ∀ r ∈ rs, 0 ≤ v r)
    (hw : ∀ r ∈ rs, 0 ≤ w r) (h : ∃ r ∈ rs, 0 < v r ∨ 0 < w r) :
    run (rs.map fun r => check (v r) (check (w r) (k r))) = rs.map fun _ => Final.done .error := by
  rw [run_check rs v fun r => check (w r) (k r)]
  split
  · rfl
  · rename_i h0
    rw [run_check, if_pos]
    refine sum_pos rs w hw ?_
    obtain ⟨r, hr, h | h⟩ := h
    · exact absurd (sum_pos rs v hv ⟨r, hr, h⟩) h0
    · exact ⟨r, hr, h⟩

theorem allError_map {α : Type} (rs : List α) : AllError (rs.map fun _ => Final.done .error) := by
  intro f hf
  obtain ⟨_, _, rfl⟩ := List.mem_map.1 hf
  rfl

theorem modelFits_gmFits (o : Options) (c : Call) (d : Nat) (hd : c.dim = some d) :
    gmFits o d = true ↔ ModelFits o c := by
  unfold gmFits ModelFits
  cases o.geometricModel with
  | none => simp
  | some g => simp [hd]

theorem linePoints_length (dX : Rat) : ∀ (n : Nat) (x : Rat), (linePoints dX n x).length = n
  | 0, _ => rfl
  | n + 1, x => by simp [linePoints, linePoints_length dX n]

theorem linePoints_get (dX : Rat) : ∀ (n : Nat) (x : Rat) (i : Nat), i < n →
    (linePoints dX n x)[i]? = some (x + i * dX)
  | 0, _, _, h => by omega
  | n + 1, x, 0, _ => by simp [linePoints]
  | n + 1, x, i + 1, h => by
    rw [linePoints, List.getElem?_cons_succ, linePoints_get dX n _ i (by omega)]
    push_cast; congr 1; ring

theorem linePoints_last (dX : Rat) (n : Nat) (x : Rat) :
    (linePoints dX (n + 1) x).getLast? = some (x + n * dX) := by
  rw [List.getLast?_eq_getElem?, linePoints_length]
  exact linePoints_get dX (n + 1) x n (by omega)

theorem delta_linePoints (dX : Rat) (n : Nat) (x : Rat) : delta (linePoints dX (n + 1) x) = n * dX := by
  unfold delta
  rw [linePoints_last]
  simp [linePoints]

end Jali.Factory
namespace Jali.Factory

/-- the source handed to the framework by a generating call -/
def switchOf (mstk : Bool) (procs : Nat) (env : Env) (o : Options) : Call → Prog
  | .box3 b => switch3 mstk procs env o b
  | .box2 b => switch2 mstk procs env o b
  | .points x => switch1 procs env o x
  | c => create mstk procs env o c

/-- one that is not the `(x0, x1, nx)` form -/
def NotLine (c : Call) : Prop := ∀ x0 x1 nx, c ≠ .line x0 x1 nx

theorem create3_valid (mstk : Bool) (procs : Nat) (env : Env) (o : Options) (b : Box3)
    (hv : ¬ (Call.box3 b).Invalid) (hm : ModelFits o (.box3 b)) :
    create3 mstk procs env o b = check 0 (check 0 (switch3 mstk procs env o b)) := by
  simp only [Call.Invalid, not_or] at hv
  obtain ⟨h1, h2, h3, h4, h5, h6⟩ := hv
  have hg := (modelFits_gmFits o (.box3 b) 3 rfl).2 hm
  unfold create3
  rw [if_neg (by simp [hg]), if_neg (by simp [h1, h2, h3])]
  dsimp only
  rw [if_neg (by simp only [rat_sub_le, not_or]; exact ⟨h4, h5, h6⟩)]

theorem create2_valid (mstk : Bool) (procs : Nat) (env : Env) (o : Options) (b : Box2)
    (hv : ¬ (Call.box2 b).Invalid) (hm : ModelFits o (.box2 b)) :
    create2 mstk procs env o b = check 0 (check 0 (switch2 mstk procs env o b)) := by
  simp only [Call.Invalid, not_or] at hv
  obtain ⟨h1, h2, h4, h5⟩ := hv
  have hg := (modelFits_gmFits o (.box2 b) 2 rfl).2 hm
  unfold create2
  rw [if_neg (by simp [hg]), if_neg (by simp [h1, h2])]
  dsimp only
  rw [if_neg (by simp only [rat_sub_le, not_or]; exact ⟨h4, h5⟩)]

theorem create1_valid (procs : Nat) (env : Env) (o : Options) (x : List Rat)
    (hv : ¬ (Call.points x).Invalid) (hm : ModelFits o (.points x)) :
    create1 procs env o x = check 0 (check 0 (check 0 (switch1 procs env o x))) := by
  simp only [Call.Invalid, not_or] at hv
  obtain ⟨h1, h2⟩ := hv
  have hg := (modelFits_gmFits o (.points x) 1 rfl).2 hm
  unfold create1
  rw [if_neg (by simp [hg])]
  dsimp only
  rw [if_neg h1, if_neg (by unfold delta; rw [rat_sub_le]; exact h2)]

theorem solo_check0 (n : Int) (k : Prog) : solo n (check 0 k) = solo n k := by
  rw [solo_check, if_neg (by simp)]

theorem run_check0 {α : Type} (rs : List α) (k : α → Prog) : run (rs.map fun r => check 0 (k r)) = run (rs.map k) := by
  rw [run_check rs (fun _ => 0) k, if_neg]
  rw [sum_const]; simp

theorem solo_valid (mstk : Bool) (n : Int) (procs : Nat) (env : Env) (o : Options) (c : Call)
    (hv : ¬ c.Invalid) (hm : ModelFits o c) (hl : NotLine c) :
    solo n (create mstk procs env o c) = solo n (switchOf mstk procs env o c) := by
  cases c with
  | box3 b => simp only [create, create3_valid mstk procs env o b hv hm, solo_check0, switchOf]
  | box2 b => simp only [create, create2_valid mstk procs env o b hv hm, solo_check0, switchOf]
  | points x => simp only [create, create1_valid procs env o x hv hm, solo_check0, switchOf]
  | line x0 x1 nx => exact absurd rfl (hl _ _ _)
  | file => rfl
  | sub => rfl

theorem run_valid (mstk : Bool) (rs : List Rank) (n : Nat) (o : Options) (c : Call)
    (h : ∀ r ∈ rs, r.opts = o ∧ r.call = c) (hv : ¬ c.Invalid) (hm : ModelFits o c) (hl : NotLine c) :
    run (rs.map fun r => create mstk n r.env r.opts r.call) =
      run (rs.map fun r => switchOf mstk n r.env o c) := by
  have h0 : (rs.map fun r => create mstk n r.env r.opts r.call) = rs.map fun r => create mstk n r.env o c :=
    List.map_congr_left fun r hr => by rw [(h r hr).1, (h r hr).2]
  rw [h0]
  cases c with
  | box3 b => simp only [create, create3_valid mstk n _ o b hv hm, run_check0, switchOf]
  | box2 b => simp only [create, create2_valid mstk n _ o b hv hm, run_check0, switchOf]
  | points x => simp only [create, create1_valid n _ o x hv hm, run_check0, switchOf]
  | line x0 x1 nx => exact absurd rfl (hl _ _ _)
  | file => rfl
  | sub => rfl

end Jali.Factory
namespace Jali.Factory

theorem solo_create1 (n : Int) (hn : 0 < n) (procs : Nat) (env : Env) (o : Options) (x : List Rat) :
    solo n (create1 procs env o x) =
      if gmFits o 1 = false ∨ x.length < 2 ∨ delta x ≤ 0 then .error else solo n (switch1 procs env o x) := by
  unfold create1
  dsimp only
  rw [solo_check, solo_check, solo_check]
  by_cases h1 : gmFits o 1 = false
  · rw [if_pos h1, if_pos (by omega), if_pos (Or.inl h1)]
  · rw [if_neg h1, if_neg (by simp)]
    by_cases h2 : x.length < 2
    · rw [if_pos h2, if_pos (by omega), if_pos (Or.inr (Or.inl h2))]
    · rw [if_neg h2, if_neg (by simp)]
      by_cases h3 : delta x ≤ 0
      · rw [if_pos h3, if_pos (by omega), if_pos (Or.inr (Or.inr h3))]
      · rw [if_neg h3, if_neg (by simp), if_neg (by tauto)]

theorem solo_finish1 (n : Int) (hn : 0 < n) : solo n (finish 1) = .error := by
  rw [solo_finish, if_pos (by omega)]

theorem solo_returnBuilt_mesh (n : Int) (hn : 0 < n) (b : Built) (m : Made)
    (h : solo n (returnBuilt b) = .mesh m) : b = .ok m := by
  cases b with
  | ok m' => injection h with h; rw [h]
  | throws => rw [returnBuilt, solo_finish1 n hn] at h; cases h
  | aborts => cases h

theorem construct_ok_source (env : Env) (s : Source) (a : Args) (m : Made) (h : construct env s a = .ok m) :
    m.source = s := by
  unfold construct at h
  cases s <;> dsimp only at h
  all_goals first
    | cases h; done
    | (split at h <;> first | (cases h; done) | (injection h with h; rw [← h]; rfl) | (split at h <;> first | (cases h; done) | (injection h with h; rw [← h]; rfl)))

theorem solo_switch1_mesh (n : Int) (hn : 0 < n) (procs : Nat) (env : Env) (o : Options) (x : List Rat) (m : Made)
    (h : solo n (switch1 procs env o x) = .mesh m) : m.source = .simple1 x := by
  unfold switch1 at h
  split at h
  · split at h
    · exact construct_ok_source _ _ _ _ (solo_returnBuilt_mesh n hn _ _ h)
    · rw [solo_finish1 n hn] at h; cases h
  · rw [solo_finish1 n hn] at h; cases h

end Jali.Factory
namespace Jali.Factory

theorem solo_check_mesh {n v : Int} {k : Prog} {m : Made} (h : solo n (check v k) = .mesh m) : solo n k = .mesh m := by
  rw [solo_check] at h
  split at h
  · cases h
  · exact h

/-- an outcome the program can have, whatever the sums -/
inductive Leaf : Prog → Outcome → Prop
  | ret (o : Outcome) : Leaf (.ret o) o
  | step (v : Int) (k : Int → Prog) (s : Int) (o : Outcome) : Leaf (k s) o → Leaf (.allreduce v k) o

theorem stuck_leaf {p : Prog} {o : Outcome} (h : p.stuck = .done o) : Leaf p o := by
  cases p with
  | ret o' => injection h with h; rw [h]; exact .ret o
  | allreduce v k => cases h

theorem resume_leaf {p : Prog} {s : Int} {o : Outcome} (h : Leaf (p.resume s) o) : Leaf p o := by
  cases p with
  | ret o' => exact h
  | allreduce v k => exact .step v k s o h

theorem runRanks_leaf (p : Prog) : ∀ (ps : List Prog) (i : Nat) (q : Prog) (o : Outcome),
    (p :: ps)[i]? = some q → (runRanks p ps)[i]? = some (.done o) → Leaf q o := by
  induction p with
  | ret o' =>
    intro ps i q o hq ho
    cases i with
    | zero =>
      simp [runRanks] at hq ho
      rw [← hq, ho]; exact .ret o
    | succ i =>
      simp only [runRanks, List.getElem?_cons_succ, List.getElem?_map] at hq ho
      rw [hq] at ho
      injection ho with ho
      exact stuck_leaf ho
  | allreduce v k ih =>
    intro ps i q o hq ho
    rw [runRanks] at ho
    split at ho
    · dsimp only at ho
      refine resume_leaf (ih _ _ i (q.resume (v + (ps.filterMap Prog.value?).sum)) o ?_ ho)
      cases i with
      | zero => simp at hq; rw [← hq]; rfl
      | succ i =>
        simp only [List.getElem?_cons_succ] at hq ⊢
        rw [List.getElem?_map, hq]; rfl
    · cases i with
      | zero => simp at ho
      | succ i =>
        simp only [List.getElem?_cons_succ, List.getElem?_map] at hq ho
        rw [hq] at ho
        injection ho with ho
        exact stuck_leaf ho

theorem run_leaf (ps : List Prog) (i : Nat) (q : Prog) (o : Outcome) (hq : ps[i]? = some q)
    (ho : (run ps)[i]? = some (.done o)) : Leaf q o := by
  cases ps with
  | nil => simp at hq
  | cons p ps => exact runRanks_leaf p ps i q o hq ho

theorem leaf_check {v : Int} {k : Prog} {m : Made} (h : Leaf (check v k) (.mesh m)) : Leaf k (.mesh m) := by
  unfold check at h
  cases h with
  | step v k s o h =>
    dsimp only at h
    split at h
    · cases h
    · exact h

theorem leaf_finish {v : Int} {m : Made} (h : Leaf (finish v) (.mesh m)) : False := by
  unfold finish at h
  cases h with
  | step v k s o h =>
    dsimp only at h
    split at h <;> cases h

theorem leaf_returnBuilt {b : Built} {m : Made} (h : Leaf (returnBuilt b) (.mesh m)) : b = .ok m := by
  cases b with
  | ok m' => cases h; rfl
  | throws => exact (leaf_finish h).elim
  | aborts => cases h

/-- the sources a call uses -/
def Comes (o : Options) (m : Made) (s : Source) : Call → Prop
  | .box3 _ => (∃ x0 y0 z0 x1 y1 z1 nx ny nz, s = .simple3 x0 y0 z0 x1 y1 z1 nx ny nz) ∨
          ∃ x0 y0 z0 x1 y1 z1 nx ny nz, s = .mstk3 x0 y0 z0 x1 y1 z1 nx ny nz
  | .box2 _ => ∃ x0 y0 x1 y1 nx ny, s = .mstk2 x0 y0 x1 y1 nx ny
  | .points _ => ∃ x, s = .simple1 x
  | .line .. => ∃ x, s = .simple1 x
  | .file f => s = .mstkFile f ∧ checkFileMesh o (.ok m) = .ok m
  | .sub .. => ∃ i t k f e, s = .mstkSub i t k f e

/-- where the meshes of a call come from -/
theorem leaf_create (mstk : Bool) (n : Nat) (env : Env) (o : Options) (c : Call) (m : Made)
    (h : Leaf (create mstk n env o c) (.mesh m)) :
    ∃ s a, construct env s a = .ok m ∧ (a = mstkArgs o ∨ a = simpleArgs o) ∧
      Comes o m s c := by
  have one : ∀ x, Leaf (create1 n env o x) (.mesh m) → construct env (.simple1 x) (simpleArgs o) = .ok m := by
    intro x h
    have h := leaf_check (leaf_check (leaf_check h))
    unfold switch1 at h
    split at h
    · split at h
      · exact leaf_returnBuilt h
      · exact (leaf_finish h).elim
    · exact (leaf_finish h).elim
  cases c with
  | points x => exact ⟨_, _, one x h, Or.inr rfl, x, rfl⟩
  | line x0 x1 nx =>
    simp only [create, createLine] at h
    split at h
    · cases h
    · exact ⟨_, _, one _ h, Or.inr rfl, _, rfl⟩
  | file f =>
    simp only [create, createFile] at h
    split at h
    · have h := leaf_returnBuilt h
      cases hc : construct env (.mstkFile f) (mstkArgs o) with
      | ok m' =>
        rw [hc] at h
        have hm : m' = m := by
          simp only [checkFileMesh] at h
          split at h
          · split at h
            · cases h
            · injection h
          · injection h
        rw [hm] at hc h
        exact ⟨_, _, hc, Or.inl rfl, rfl, h⟩
      | throws => rw [hc] at h; cases h
      | aborts => rw [hc] at h; cases h
    · exact (leaf_finish h).elim
  | sub i t k f e =>
    simp only [create, createSub] at h
    split at h
    · exact ⟨_, _, leaf_returnBuilt h, Or.inl rfl, i, t, k, f, e, rfl⟩
    · exact (leaf_finish h).elim
  | box3 b =>
    simp only [create, create3] at h
    split at h
    · cases h
    · have h := leaf_check (leaf_check h)
      unfold switch3 at h
      split at h
      · split at h
        · exact ⟨_, _, leaf_returnBuilt h, Or.inr rfl, Or.inl ⟨_, _, _, _, _, _, _, _, _, rfl⟩⟩
        · exact (leaf_finish h).elim
      · exact ⟨_, _, leaf_returnBuilt h, Or.inl rfl, Or.inr ⟨_, _, _, _, _, _, _, _, _, rfl⟩⟩
      · exact (leaf_finish h).elim
  | box2 b =>
    simp only [create, create2] at h
    split at h
    · cases h
    · have h := leaf_check (leaf_check h)
      unfold switch2 at h
      split at h
      · split at h
        · have := leaf_returnBuilt h
          simp [construct] at this
        · exact (leaf_finish h).elim
      · exact ⟨_, _, leaf_returnBuilt h, Or.inl rfl, _, _, _, _, _, _, rfl⟩
      · exact (leaf_finish h).elim

/-- what a constructor makes of its arguments -/
theorem construct_fields (env : Env) (s : Source) (a : Args) (m : Made) (h : construct env s a = .ok m) :
    m.numTiles = a.numTiles ∧ m.ghostLayersTile = a.ghostLayersTile ∧ m.ghostLayersDistmesh = a.ghostLayersDistmesh ∧
    m.partitioner = a.partitioner ∧ m.req = a.request ∧
    (((∀ x0 y0 z0 x1 y1 z1 nx ny nz, s ≠ .simple3 x0 y0 z0 x1 y1 z1 nx ny nz) ∧
      ∀ x0 y0 z0 x1 y1 z1 nx ny nz, s ≠ .mstk3 x0 y0 z0 x1 y1 z1 nx ny nz) → m.geomType = a.geomType) ∧
    (((∀ x, s ≠ .simple1 x) ∧ ∀ i t k f e, s ≠ .mstkSub i t k f e) → m.gm = a.gm) ∧
    ((∃ x, s = .simple1 x) → m.gm = none) ∧
    (((∃ x0 y0 z0 x1 y1 z1 nx ny nz, s = .simple3 x0 y0 z0 x1 y1 z1 nx ny nz) ∨
      ∃ x0 y0 z0 x1 y1 z1 nx ny nz, s = .mstk3 x0 y0 z0 x1 y1 z1 nx ny nz) → m.geomType = .CARTESIAN) := by
  unfold construct at h
  cases s <;> dsimp only at h
  case simple2 => cases h
  case simple3 =>
    split at h
    · cases h
    · split at h
      · injection h with h; subst h; refine ⟨rfl, rfl, rfl, rfl, rfl, ?_, ?_, ?_, ?_⟩ <;> simp [made]
      · cases h
  case simple1 =>
    split at h
    · cases h
    · split at h
      · injection h with h; subst h; refine ⟨rfl, rfl, rfl, rfl, rfl, ?_, ?_, ?_, ?_⟩ <;> simp [made]
      · cases h
  case mstkSub i t k f e =>
    split at h
    · injection h with h; subst h
      refine ⟨rfl, rfl, rfl, rfl, rfl, ?_, ?_, ?_, ?_⟩
      · simp [made]
      · intro hh; exact absurd rfl (hh.2 i t k f e)
      · simp
      · simp
    · cases h
  all_goals
    split at h
    · injection h with h; subst h; refine ⟨rfl, rfl, rfl, rfl, rfl, ?_, ?_, ?_, ?_⟩ <;> simp [made]
    · cases h

end Jali.Factory
