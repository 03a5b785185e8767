import Verif.Props.Factory
/-! Property theorems C48, C85, C86: creating meshes with the factory on the ranks of a communicator. -/
namespace Jali.Factory

/-- All ranks call the factory alike, and the framework behaves alike on them. -/
def Alike (rs : List Rank) (env : Env) (o : Options) (c : Call) : Prop :=
  ∀ r ∈ rs, r.opts = o ∧ r.call = c ∧ ∀ s a, r.env s a = env s a

/-- **C48** (ranks behaving alike). On any number of ranks, every creating call ends with an error on all ranks or with a
mesh on all ranks; no null mesh, no waiting — provided the framework is part of the build or the call is not a 2D
generation, and boundary ghosts (an assertion of the Simple framework) are not requested with Simple. -/
theorem mesh_or_error_partial (mstk : Bool) (rs : List Rank) (env : Env) (o : Options) (c : Call)
    (h : Alike rs env o c) (hc : o.Compiled mstk ∨ ∀ b, c ≠ .box2 b)
    (hb : o.framework = .Simple → o.boundaryGhosts = false) :
    AllError (createAll mstk rs) ∨ AllMesh (createAll mstk rs) := by
  rw [createAll_same mstk rs env o c h]
  cases rs with
  | nil => left; intro f hf; cases hf
  | cons r rs =>
    rcases fine_cases (fine_create mstk (r :: rs).length (by simp) env o c hc hb) with h | ⟨m, h⟩
    · left; rw [h]; exact allError_map _
    · right
      rw [h]
      intro f hf
      obtain ⟨_, _, rfl⟩ := List.mem_map.1 hf
      exact ⟨m, rfl⟩

example : createAll true [⟨okEnv, new, .box2 ⟨0, 0, 1, 1, 2, 2⟩⟩, ⟨okEnv, new, .box2 ⟨0, 0, 1, 1, 2, 2⟩⟩] =
    List.replicate 2 (.done (.mesh (made (.mstk2 0 0 1 1 2 2) (mstkArgs new) 2))) := by decide +kernel

/-- C48, rejection in 3D: a non-positive number of cells or extent on any rank raises an error on all ranks, whatever the
other ranks ask for and whatever the frameworks do. -/
theorem invalid_box3_rejected (mstk : Bool) (rs : List Rank) (h3 : ∀ r ∈ rs, ∃ b, r.call = .box3 b)
    (hm : ∀ r ∈ rs, ModelFits r.opts r.call) (hi : ∃ r ∈ rs, r.call.Invalid) : AllError (createAll mstk rs) := by
  let box : Rank → Box3 := fun r => match r.call with | .box3 b => b | _ => ⟨0, 0, 0, 0, 0, 0, 0, 0, 0⟩
  let v : Rank → Int := fun r => if (box r).nx ≤ 0 ∨ (box r).ny ≤ 0 ∨ (box r).nz ≤ 0 then 1 else 0
  let w : Rank → Int := fun r =>
    if (box r).x1 - (box r).x0 ≤ 0 ∨ (box r).y1 - (box r).y0 ≤ 0 ∨ (box r).z1 - (box r).z0 ≤ 0 then v r + 1 else v r
  have hv : ∀ r, 0 ≤ v r := fun r => by simp only [v]; split <;> decide
  have hw : ∀ r, v r ≤ w r := fun r => by simp only [w]; split <;> omega
  have hmap : (rs.map fun r => create mstk rs.length r.env r.opts r.call) =
      rs.map fun r => check (v r) (check (w r) (switch3 mstk rs.length r.env r.opts (box r))) := by
    refine List.map_congr_left fun r hr => ?_
    obtain ⟨b, hb⟩ := h3 r hr
    have hbox : box r = b := by simp only [box, hb]
    have hg : gmFits r.opts 3 = true := (modelFits_gmFits r.opts r.call 3 (by rw [hb]; rfl)).2 (hm r hr)
    have hd : create mstk rs.length r.env r.opts r.call = create3 mstk rs.length r.env r.opts b := by rw [hb]; rfl
    rw [hd]
    unfold create3
    rw [if_neg (by simp [hg])]
    simp only [v, w, hbox]
  rw [createAll, hmap, run_check2 rs v w _ (fun r _ => hv r) (fun r _ => le_trans (hv r) (hw r))]
  · exact allError_map _
  · obtain ⟨r, hr, hI⟩ := hi
    obtain ⟨b, hb⟩ := h3 r hr
    have hbox : box r = b := by simp only [box, hb]
    refine ⟨r, hr, ?_⟩
    rw [hb] at hI
    by_cases hn : b.nx ≤ 0 ∨ b.ny ≤ 0 ∨ b.nz ≤ 0
    · left; simp only [v, hbox]; rw [if_pos hn]; decide
    · right
      have he : b.x1 ≤ b.x0 ∨ b.y1 ≤ b.y0 ∨ b.z1 ≤ b.z0 := by
        rcases hI with h | h | h | h
        · exact absurd (Or.inl h) hn
        · exact absurd (Or.inr (Or.inl h)) hn
        · exact absurd (Or.inr (Or.inr h)) hn
        · exact h
      have := hv r
      simp only [w, hbox, rat_sub_le]
      rw [if_pos he]; omega

example : createAll true [⟨okEnv, new, .box3 ⟨0, 0, 0, 1, 1, 1, 2, 2, 2⟩⟩, ⟨okEnv, new, .box3 ⟨0, 0, 0, 1, 1, 1, 2, 0, 2⟩⟩,
    ⟨okEnv, new, .box3 ⟨0, 0, 0, 1, 0, 1, 2, 2, 2⟩⟩] = List.replicate 3 (.done .error) := by decide +kernel

/-- C48, rejection in 2D: as in 3D. -/
theorem invalid_box2_rejected (mstk : Bool) (rs : List Rank) (h2 : ∀ r ∈ rs, ∃ b, r.call = .box2 b)
    (hm : ∀ r ∈ rs, ModelFits r.opts r.call) (hi : ∃ r ∈ rs, r.call.Invalid) : AllError (createAll mstk rs) := by
  let box : Rank → Box2 := fun r => match r.call with | .box2 b => b | _ => ⟨0, 0, 0, 0, 0, 0⟩
  let v : Rank → Int := fun r => if (box r).nx ≤ 0 ∨ (box r).ny ≤ 0 then 1 else 0
  let w : Rank → Int := fun r =>
    if (box r).x1 - (box r).x0 ≤ 0 ∨ (box r).y1 - (box r).y0 ≤ 0 then 1 else v r
  have hv : ∀ r, 0 ≤ v r := fun r => by simp only [v]; split <;> decide
  have hw : ∀ r, 0 ≤ w r := fun r => by simp only [w]; split <;> [decide; exact hv r]
  have hmap : (rs.map fun r => create mstk rs.length r.env r.opts r.call) =
      rs.map fun r => check (v r) (check (w r) (switch2 mstk rs.length r.env r.opts (box r))) := by
    refine List.map_congr_left fun r hr => ?_
    obtain ⟨b, hb⟩ := h2 r hr
    have hbox : box r = b := by simp only [box, hb]
    have hg : gmFits r.opts 2 = true := (modelFits_gmFits r.opts r.call 2 (by rw [hb]; rfl)).2 (hm r hr)
    have hd : create mstk rs.length r.env r.opts r.call = create2 mstk rs.length r.env r.opts b := by rw [hb]; rfl
    rw [hd]
    unfold create2
    rw [if_neg (by simp [hg])]
    simp only [v, w, hbox]
  rw [createAll, hmap, run_check2 rs v w _ (fun r _ => hv r) (fun r _ => hw r)]
  · exact allError_map _
  · obtain ⟨r, hr, hI⟩ := hi
    obtain ⟨b, hb⟩ := h2 r hr
    have hbox : box r = b := by simp only [box, hb]
    refine ⟨r, hr, ?_⟩
    rw [hb] at hI
    by_cases hn : b.nx ≤ 0 ∨ b.ny ≤ 0
    · left; simp only [v, hbox]; rw [if_pos hn]; decide
    · right
      have he : b.x1 ≤ b.x0 ∨ b.y1 ≤ b.y0 := by
        rcases hI with h | h | h
        · exact absurd (Or.inl h) hn
        · exact absurd (Or.inr h) hn
        · exact h
      simp only [w, hbox, rat_sub_le]
      rw [if_pos he]; decide

example : createAll false [⟨okEnv, new, .box2 ⟨0, 0, 1, 1, 2, 2⟩⟩, ⟨okEnv, new, .box2 ⟨0, 0, 1, -1, 2, 2⟩⟩] =
    List.replicate 2 (.done .error) := by decide +kernel

/-- C48, rejection in 1D: fewer than two points, or a last point not to the right of the first one, or a geometric model
of another dimension, on any rank raises an error on all ranks. -/
theorem invalid_points_rejected (mstk : Bool) (rs : List Rank) (h1 : ∀ r ∈ rs, ∃ x, r.call = .points x)
    (hi : ∃ r ∈ rs, r.call.Invalid ∨ ¬ ModelFits r.opts r.call) : AllError (createAll mstk rs) := by
  let pts : Rank → List Rat := fun r => match r.call with | .points x => x | _ => []
  let u : Rank → Int := fun r => if gmFits r.opts 1 = false then 1 else 0
  let v : Rank → Int := fun r => if (pts r).length < 2 then 1 else u r
  let w : Rank → Int := fun r => if delta (pts r) ≤ 0 then 1 else v r
  have hu : ∀ r, 0 ≤ u r := fun r => by simp only [u]; split <;> decide
  have hv : ∀ r, 0 ≤ v r := fun r => by simp only [v]; split <;> [decide; exact hu r]
  have hw : ∀ r, 0 ≤ w r := fun r => by simp only [w]; split <;> [decide; exact hv r]
  have hmap : (rs.map fun r => create mstk rs.length r.env r.opts r.call) =
      rs.map fun r => check (u r) (check (v r) (check (w r) (switch1 rs.length r.env r.opts (pts r)))) := by
    refine List.map_congr_left fun r hr => ?_
    obtain ⟨b, hb⟩ := h1 r hr
    have hbox : pts r = b := by simp only [pts, hb]
    have hd : create mstk rs.length r.env r.opts r.call = create1 rs.length r.env r.opts b := by rw [hb]; rfl
    rw [hd]
    unfold create1
    simp only [u, v, w, hbox]
  rw [createAll, hmap, run_check rs u]
  split
  · exact allError_map _
  · rename_i h0
    rw [run_check2 rs v w _ (fun r _ => hv r) (fun r _ => hw r)]
    · exact allError_map _
    · obtain ⟨r, hr, hI⟩ := hi
      obtain ⟨b, hb⟩ := h1 r hr
      have hbox : pts r = b := by simp only [pts, hb]
      rcases hI with hI | hI
      · refine ⟨r, hr, ?_⟩
        rw [hb] at hI
        rcases hI with h | h
        · left; simp only [v, hbox]; rw [if_pos h]; decide
        · right; simp only [w, hbox]
          rw [if_pos (by unfold delta; rw [rat_sub_le]; exact h)]; decide
      · exfalso
        apply h0
        refine sum_pos rs u (fun r _ => hu r) ⟨r, hr, ?_⟩
        have hg : gmFits r.opts 1 = false := by
          rw [← Bool.not_eq_true]
          intro hg
          exact hI ((modelFits_gmFits r.opts r.call 1 (by rw [hb]; rfl)).1 hg)
        simp only [u]; rw [if_pos hg]; decide

example : createAll false [⟨okEnv, { new with framework := .Simple }, .points [3, 1, 2]⟩] = [.done .error] := by
  decide +kernel

/-- C48, rejection of `factory(x0, x1, nx)`, the same call on all ranks. -/
theorem invalid_line_rejected (mstk : Bool) (rs : List Rank) (env : Env) (o : Options) (x0 x1 : Rat) (nx : Int)
    (h : Alike rs env o (.line x0 x1 nx)) (hi : (Call.line x0 x1 nx).Invalid) : AllError (createAll mstk rs) := by
  rw [createAll_same mstk rs env o _ h]
  cases rs with
  | nil => intro f hf; cases hf
  | cons r rs =>
    have h1 : solo ((r :: rs).length : Nat) (create mstk (r :: rs).length env o (.line x0 x1 nx)) = .error := by
      simp only [create, createLine]
      by_cases hn : nx < 0
      · rw [if_pos hn]; rfl
      · rw [if_neg hn, solo_create1 _ (by simp), if_pos]
        obtain ⟨k, rfl⟩ : ∃ k : Nat, nx = k := ⟨nx.toNat, by omega⟩
        rw [Int.toNat_natCast, linePoints_length]
        by_cases hk : k < 2
        · exact Or.inr (Or.inl hk)
        · right; right
          have hx : x1 ≤ x0 := by
            rcases hi with h | h
            · omega
            · exact h
          obtain ⟨j, rfl⟩ : ∃ j, k = j + 1 := ⟨k - 1, by omega⟩
          rw [delta_linePoints]
          refine mul_nonpos_of_nonneg_of_nonpos (by positivity) (div_nonpos_of_nonpos_of_nonneg (by linarith) ?_)
          exact_mod_cast Nat.zero_le _
    rw [h1]
    exact allError_map _

example : (Call.line 1 0 5).Invalid := Or.inr (by norm_num)

/-- C48 is false of the code in 2D: if the library is built without MSTK, a new factory (its default framework is MSTK)
returns a null mesh for every valid 2D request, on any number of ranks, without an error. -/
theorem box2_null (rs : List Rank) (env : Env) (o : Options) (b : Box2) (h : Alike rs env o (.box2 b))
    (hf : o.framework = .MSTK) (hv : ¬ (Call.box2 b).Invalid) (hm : ModelFits o (.box2 b)) :
    ∀ f ∈ createAll false rs, f = .done .null := by
  rw [createAll_same false rs env o _ h, solo_valid _ _ _ _ _ _ hv hm (by intro _ _ _ h; cases h)]
  intro f hf'
  obtain ⟨_, _, rfl⟩ := List.mem_map.1 hf'
  simp [switchOf, switch2, hf, solo_finish]

example : createAll false [⟨okEnv, new, .box2 ⟨0, 0, 1, 1, 2, 2⟩⟩] = [.done .null] := by decide +kernel

/-- C48 is false of the code when the framework fails on some ranks only: with MSTK, for every valid 2D or 3D request on
any number of ranks, if the constructor succeeds on one rank and fails on rank `i`, then rank `i` waits for ever, while
the ranks on which it succeeds return their mesh. -/
theorem failing_rank_waits (rs : List Rank) (o : Options) (c : Call) (hc : (∃ b, c = .box3 b) ∨ ∃ b, c = .box2 b)
    (h : ∀ r ∈ rs, r.opts = o ∧ r.call = c) (hf : o.framework = .MSTK) (hv : ¬ c.Invalid) (hm : ModelFits o c)
    (hok : ∃ r ∈ rs, ∀ s a, (r.env s a).isSome = true) (i : Nat) (r : Rank) (hi : rs[i]? = some r)
    (hbad : ∀ s a, r.env s a = none) :
    (createAll true rs)[i]? = some .waits ∧
      ∀ (j : Nat) (q : Rank), rs[j]? = some q → (∀ s a, (q.env s a).isSome = true) →
        ∃ m : Made, (createAll true rs)[j]? = some (.done (.mesh m)) := by
  have hl : NotLine c := by
    rcases hc with ⟨b, rfl⟩ | ⟨b, rfl⟩ <;> intro _ _ _ h <;> cases h
  obtain ⟨s, hs⟩ : ∃ s, (∀ e, switchOf true rs.length e o c = returnBuilt (construct e s (mstkArgs o))) ∧
      (∀ e : Env, e s (mstkArgs o) = none → construct e s (mstkArgs o) = .throws) ∧
      (∀ e : Env, (e s (mstkArgs o)).isSome = true → ∃ m, construct e s (mstkArgs o) = .ok m) := by
    rcases hc with ⟨b, rfl⟩ | ⟨b, rfl⟩
    · refine ⟨.mstk3 b.x0 b.y0 b.z0 b.x1 b.y1 b.z1 b.nx b.ny b.nz, fun e => ?_, fun e he => ?_, fun e he => ?_⟩
      · simp only [switchOf, switch3, hf]
      · simp only [construct, he]
      · obtain ⟨d, hd⟩ := Option.isSome_iff_exists.1 he
        simp only [construct, hd]; exact ⟨_, rfl⟩
    · refine ⟨.mstk2 b.x0 b.y0 b.x1 b.y1 b.nx b.ny, fun e => ?_, fun e he => ?_, fun e he => ?_⟩
      · simp only [switchOf, switch2, hf]
      · simp only [construct, he]
      · obtain ⟨d, hd⟩ := Option.isSome_iff_exists.1 he
        simp only [construct, hd]; exact ⟨_, rfl⟩
  obtain ⟨h1, h2, h3⟩ := hs
  have hrun : createAll true rs =
      (rs.map fun r => returnBuilt (construct r.env s (mstkArgs o))).map Prog.stuck := by
    rw [createAll, run_valid true rs rs.length o c h hv hm hl]
    have : (rs.map fun r => switchOf true rs.length r.env o c) =
        rs.map fun r => returnBuilt (construct r.env s (mstkArgs o)) :=
      List.map_congr_left fun r _ => h1 r.env
    rw [this]
    refine run_some_ret _ ?_
    obtain ⟨q, hq, hok⟩ := hok
    obtain ⟨m, hm'⟩ := h3 q.env (hok _ _)
    refine ⟨.mesh m, List.mem_map.2 ⟨q, hq, ?_⟩⟩
    rw [hm']; rfl
  refine ⟨?_, fun j q hq hqok => ?_⟩
  · rw [hrun, List.map_map, List.getElem?_map, hi]
    simp only [Option.map_some, Function.comp, h2 r.env (hbad _ _)]
    rfl
  · obtain ⟨m, hm'⟩ := h3 q.env (hqok _ _)
    refine ⟨m, ?_⟩
    rw [hrun, List.map_map, List.getElem?_map, hq]
    simp only [Option.map_some, Function.comp, hm']
    rfl

example : createAll true [⟨okEnv, new, .box3 ⟨0, 0, 0, 1, 1, 1, 2, 2, 2⟩⟩, ⟨fun _ _ => none, new, .box3 ⟨0, 0, 0, 1, 1, 1, 2, 2, 2⟩⟩] =
    [.done (.mesh (made (.mstk3 0 0 0 1 1 1 2 2 2) (mstkArgs new) 3)), .waits] := by decide +kernel

/-- C48 is false of the code when the geometric models differ: in a 2D or 3D generation, if the model of some rank has
another dimension, that rank raises an error at once and every rank whose model fits waits for ever. -/
theorem misfit_on_one_rank_waits (mstk : Bool) (rs : List Rank)
    (hc : (∀ r ∈ rs, ∃ b, r.call = .box3 b) ∨ ∀ r ∈ rs, ∃ b, r.call = .box2 b)
    (hbad : ∃ r ∈ rs, ¬ ModelFits r.opts r.call) (i : Nat) (r : Rank) (hi : rs[i]? = some r) :
    (ModelFits r.opts r.call → (createAll mstk rs)[i]? = some .waits) ∧
      (¬ ModelFits r.opts r.call → (createAll mstk rs)[i]? = some (.done .error)) := by
  have key : ∀ q ∈ rs, (¬ ModelFits q.opts q.call → create mstk rs.length q.env q.opts q.call = .ret .error) ∧
      (ModelFits q.opts q.call → (create mstk rs.length q.env q.opts q.call).stuck = .waits) := by
    intro q hq
    rcases hc with h | h
    · obtain ⟨b, hb⟩ := h q hq
      have hg := modelFits_gmFits q.opts q.call 3 (by rw [hb]; rfl)
      have hd : create mstk rs.length q.env q.opts q.call = create3 mstk rs.length q.env q.opts b := by rw [hb]; rfl
      refine ⟨fun hn => ?_, fun hy => ?_⟩
      · rw [hd, create3, if_pos]
        rw [← Bool.not_eq_true]; exact fun h => hn (hg.1 h)
      · rw [hd, create3, if_neg (by simp [hg.2 hy])]; rfl
    · obtain ⟨b, hb⟩ := h q hq
      have hg := modelFits_gmFits q.opts q.call 2 (by rw [hb]; rfl)
      have hd : create mstk rs.length q.env q.opts q.call = create2 mstk rs.length q.env q.opts b := by rw [hb]; rfl
      refine ⟨fun hn => ?_, fun hy => ?_⟩
      · rw [hd, create2, if_pos]
        rw [← Bool.not_eq_true]; exact fun h => hn (hg.1 h)
      · rw [hd, create2, if_neg (by simp [hg.2 hy])]; rfl
  have hrun : createAll mstk rs = (rs.map fun r => create mstk rs.length r.env r.opts r.call).map Prog.stuck := by
    refine run_some_ret _ ?_
    obtain ⟨q, hq, hb⟩ := hbad
    exact ⟨.error, List.mem_map.2 ⟨q, hq, (key q hq).1 hb⟩⟩
  have hr : r ∈ rs := List.mem_of_getElem? hi
  rw [hrun, List.map_map, List.getElem?_map, hi]
  refine ⟨fun hy => ?_, fun hn => ?_⟩
  · simp only [Option.map_some, Function.comp, (key r hr).2 hy]
  · simp only [Option.map_some, Function.comp, (key r hr).1 hn]
    rfl

example : createAll true [⟨okEnv, { new with geometricModel := some ⟨0, 2⟩ }, .box3 ⟨0, 0, 0, 1, 1, 1, 2, 2, 2⟩⟩,
    ⟨okEnv, new, .box3 ⟨0, 0, 0, 1, 1, 1, 2, 2, 2⟩⟩] = [.done .error, .waits] := by decide +kernel

end Jali.Factory
