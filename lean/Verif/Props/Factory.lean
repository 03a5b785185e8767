import Verif.Proof.Factory
import Verif.Model.MeshSimple1D
import Mathlib.Tactic.FieldSimp
/-! Property theorems C45 – C47: options of the mesh factory, and the 1D mesh given by its number of cells. -/
namespace Jali.Factory

/-- **C45** (all kinds but SIDE without restriction). After any history of calls, `included_entities()` lists NODE, FACE
and CELL, lists EDGE, WEDGE and CORNER exactly if the last call that says something about them asks to include them, lists
nothing else, and nothing twice. For SIDE this is shown for histories without `reset_options`. -/
theorem included_entities_partial (h : List Op) :
    (∀ k ∈ [EntityKind.NODE, .FACE, .CELL], k ∈ includedEntities (after h)) ∧
    (∀ k ∈ [EntityKind.EDGE, .WEDGE, .CORNER], k ∈ includedEntities (after h) ↔ LastIncludes k h) ∧
    ((∀ op ∈ h, op ≠ Op.reset) → (EntityKind.SIDE ∈ includedEntities (after h) ↔ LastIncludes .SIDE h)) ∧
    (∀ k ∈ includedEntities (after h), k ∈ [EntityKind.NODE, .EDGE, .FACE, .SIDE, .WEDGE, .CORNER, .CELL]) ∧
    (includedEntities (after h)).Nodup := by
  refine ⟨?_, ?_, ?_, ?_, included_nodup _⟩
  · intro k hk
    rw [mem_included]
    simp only [List.mem_cons, List.not_mem_nil, or_false] at hk
    rcases hk with rfl | rfl | rfl
    · rfl
    · exact (always_after h).1
    · exact (always_after h).2
  · intro k hk
    rw [mem_included]
    simp only [List.mem_cons, List.not_mem_nil, or_false] at hk
    refine flag_after k (fun _ => True) (fun o op _ => flag_step k hk o op) ?_ h fun _ _ => trivial
    rcases hk with rfl | rfl | rfl <;> rfl
  · intro hr
    rw [mem_included]
    exact flag_after .SIDE (fun op => op ≠ .reset) flag_step_side rfl h hr
  · intro k hk
    rw [mem_included] at hk
    cases k <;> first | decide | (simp [flag] at hk)

example : EntityKind.WEDGE ∈ includedEntities (after [.includeKind .ALL_KIND, .reset, .includeList [.WEDGE, .EDGE],
    .excludeList [.EDGE, .FACE]]) ∧
    EntityKind.EDGE ∉ includedEntities (after [.includeKind .ALL_KIND, .reset, .includeList [.WEDGE, .EDGE],
    .excludeList [.EDGE, .FACE]]) := by decide

/-- C45 as stated is false of the code for SIDE: `reset_options` never changes whether sides are included. -/
theorem reset_keeps_sides (h : List Op) :
    EntityKind.SIDE ∈ includedEntities (after (h ++ [.reset])) ↔ EntityKind.SIDE ∈ includedEntities (after h) := by
  rw [mem_included, mem_included, after_append]; rfl

/-- C45, the witness: sides once included are reported after a reset, although the last call asks for the defaults. -/
theorem reset_sides_wrong : EntityKind.SIDE ∈ includedEntities (after [.includeKind .SIDE, .reset]) ∧
    ¬ LastIncludes .SIDE [.includeKind .SIDE, .reset] := by
  refine ⟨by decide, fun h => ?_⟩
  have := (lastIncludes_append .SIDE [.includeKind .SIDE] .reset).1 h
  simp [asks] at this

/-- **C46** (when sides were not included). After any history of calls in which sides are not included at the end,
`reset_options` makes the factory equal to a new one: every later call gives the same results. -/
theorem reset_options_partial (h : List Op) (hs : EntityKind.SIDE ∉ includedEntities (after h)) :
    after (h ++ [.reset]) = new := by
  rw [mem_included] at hs
  rw [after_append]
  simp only [flag, Bool.not_eq_true] at hs
  show resetOptions (after h) = new
  unfold resetOptions new
  rw [hs]

example : EntityKind.SIDE ∉ includedEntities (after [.includeKind .SIDE, .includeKind .EDGE, .numTiles 4, .framework .Simple,
    .excludeList [.SIDE]]) ∧ after [.includeKind .SIDE, .includeKind .EDGE, .numTiles 4, .framework .Simple,
    .excludeList [.SIDE]] ≠ new := by decide

/-- C46 as stated is false of the code: if sides were included, the factory after `reset_options` differs from a new one
exactly in that, and meshes made by it have sides, faces and edges that a new factory would not ask for. -/
theorem reset_options_wrong (h : List Op) (hs : EntityKind.SIDE ∈ includedEntities (after h)) :
    after (h ++ [.reset]) ≠ new ∧ after (h ++ [.reset]) = { new with sides := true } := by
  rw [mem_included] at hs
  have h2 : after (h ++ [.reset]) = { new with sides := true } := by
    rw [after_append]
    show resetOptions (after h) = { new with sides := true }
    simp only [flag] at hs
    unfold resetOptions new
    rw [hs]
  refine ⟨?_, h2⟩
  rw [h2]; decide

example : EntityKind.SIDE ∈ includedEntities (after [.includeKind .ALL_KIND]) := by decide

/-- The mesh made by `factory(x0, x1, nx)` on one rank comes from the points of the loop. -/
theorem line_source (mstk : Bool) (env : Env) (o : Options) (x0 x1 : Rat) (nx : Nat)
    (m : Made) (hm : createAll mstk [⟨env, o, .line x0 x1 nx⟩] = [.done (.mesh m)]) :
    2 ≤ nx ∧ m.source = .simple1 (linePoints ((x1 - x0) / nx) nx x0) := by
  have hs := createAll_same mstk [⟨env, o, .line x0 x1 nx⟩] env o (.line x0 x1 nx) (by simp)
  rw [hm] at hs
  simp only [List.map_cons, List.map_nil, List.cons.injEq, Final.done.injEq, and_true, List.length_singleton] at hs
  simp only [create, createLine] at hs
  rw [if_neg (by omega)] at hs
  rw [Int.toNat_natCast, solo_create1 _ (by decide)] at hs
  split at hs
  · cases hs
  · rename_i h
    rw [linePoints_length] at h
    exact ⟨by omega, solo_switch1_mesh _ (by decide) _ _ _ _ _ hs.symm⟩

/-- **C47** (what holds). `factory(x0, x1, nx)` with `x0 < x1`: if it yields a mesh, that is a 1D mesh on points with
first point `x0` and equal spacing `(x1 - x0) / nx`, all left of `x1`. -/
theorem line_points_partial (mstk : Bool) (env : Env) (o : Options) (x0 x1 : Rat) (nx : Nat) (hx : x0 < x1)
    (m : Made) (hm : createAll mstk [⟨env, o, .line x0 x1 nx⟩] = [.done (.mesh m)]) :
    ∃ x : List Rat, m.source = .simple1 x ∧ x.head? = some x0 ∧
      ∀ i, i < x.length → ∃ p, x[i]? = some p ∧ p = x0 + i * ((x1 - x0) / nx) ∧ p < x1 := by
  obtain ⟨hn, hs⟩ := line_source mstk env o x0 x1 nx m hm
  refine ⟨_, hs, ?_, ?_⟩
  · obtain ⟨k, rfl⟩ : ∃ k, nx = k + 1 := ⟨nx - 1, by omega⟩
    rfl
  · intro i hi
    rw [linePoints_length] at hi
    refine ⟨_, linePoints_get _ nx x0 i hi, rfl, ?_⟩
    have hn0 : (0 : Rat) < nx := by exact_mod_cast (by omega : 0 < nx)
    have hi' : (i : Rat) < nx := by exact_mod_cast hi
    have : (i : Rat) * ((x1 - x0) / nx) < x1 - x0 := by
      rw [← mul_div_assoc, div_lt_iff₀ hn0]
      nlinarith
    linarith

/-- An environment in which every constructor succeeds with a mesh of dimension 3. -/
def okEnv : Env := fun _ _ => some 3

example : ∃ m : Made, createAll false [⟨okEnv, { new with framework := .Simple }, .line 0 1 4⟩] = [.done (.mesh m)] ∧
    m.source = .simple1 [0, 1 / 4, 1 / 2, 3 / 4] := by
  refine ⟨made (.simple1 [0, 1 / 4, 1 / 2, 3 / 4]) { simpleArgs { new with framework := .Simple } with gm := none } 1, ?_, rfl⟩
  decide +kernel

/-- C47 as stated is false of the code: whatever the options, the mesh made by `factory(x0, x1, nx)` has `nx - 1` cells
(`nx` points) and its last node is one spacing short of `x1`. -/
theorem line_cells_wrong (mstk : Bool) (env : Env) (o : Options) (x0 x1 : Rat) (nx : Nat) (hx : x0 < x1)
    (m : Made) (hm : createAll mstk [⟨env, o, .line x0 x1 nx⟩] = [.done (.mesh m)]) :
    ∃ x : List Rat, m.source = .simple1 x ∧ Simple1D.numCells (x.length - 1) = nx - 1 ∧
      Simple1D.numCells (x.length - 1) ≠ nx ∧ x.getLast? = some (x1 - (x1 - x0) / nx) ∧ x.getLast? ≠ some x1 := by
  obtain ⟨hn, hs⟩ := line_source mstk env o x0 x1 nx m hm
  have hn0 : (0 : Rat) < nx := by exact_mod_cast (by omega : 0 < nx)
  have hl : (linePoints ((x1 - x0) / nx) nx x0).getLast? = some (x1 - (x1 - x0) / nx) := by
    obtain ⟨k, rfl⟩ : ∃ k, nx = k + 1 := ⟨nx - 1, by omega⟩
    rw [linePoints_last]
    congr 1
    field_simp
    push_cast
    ring
  refine ⟨_, hs, ?_, ?_, hl, ?_⟩
  · simp [Simple1D.numCells, linePoints_length]
  · simp only [Simple1D.numCells, linePoints_length]; omega
  · rw [hl]
    intro h
    injection h with h
    have : 0 < (x1 - x0) / nx := div_pos (by linarith) hn0
    linarith

/-- C47, one cell: `factory(x0, x1, 1)` raises an error whatever the options, on any number of ranks. -/
theorem line_one_cell_error (mstk : Bool) (env : Env) (o : Options) (x0 x1 : Rat) (rs : List Rank)
    (h : ∀ r ∈ rs, r.opts = o ∧ r.call = .line x0 x1 1 ∧ ∀ s a, r.env s a = env s a) : AllError (createAll mstk rs) := by
  rw [createAll_same mstk rs env o _ h]
  cases rs with
  | nil => intro f hf; cases hf
  | cons r rs =>
    have h1 : solo ((r :: rs).length : Nat) (create mstk (r :: rs).length env o (.line x0 x1 1)) = .error := by
      simp only [create, createLine]
      rw [if_neg (by decide)]
      rw [solo_create1 _ (by simp), if_pos]
      exact Or.inr (Or.inl (by simp [linePoints_length]))
    rw [h1]
    exact allError_map _

example : createAll false [⟨okEnv, { new with framework := .Simple }, .line 0 1 1⟩] = [.done .error] := by decide +kernel

end Jali.Factory
