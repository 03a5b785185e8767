import Verif.Model.Regions
import Verif.Proof.Regions
import Mathlib.Data.List.Induction
/-! Property theorems C55 (geometric models and domains) and C56 (copies of regions). -/
namespace Jali.Geom
open Point Jali.Reg

theorem findLoop_some (p : RegionInfo → Bool) (r : RegionInfo) : ∀ l : List RegionInfo, GModel.findLoop p l = some r ↔
    ∃ i : Nat, l[i]? = some r ∧ p r = true ∧ ∀ j < i, ∀ r', l[j]? = some r' → p r' = false := by
  intro l
  induction l with
  | nil => simp [GModel.findLoop]
  | cons a l ih =>
    unfold GModel.findLoop
    by_cases h : p a = true
    · rw [if_pos h]
      constructor
      · intro e
        cases e
        exact ⟨0, rfl, h, by simp⟩
      · rintro ⟨i, hi, hp, hj⟩
        match i with
        | 0 => simpa using hi
        | i + 1 => have := hj 0 (by omega) a rfl; rw [h] at this; cases this
    · rw [if_neg h, ih]
      constructor
      · rintro ⟨i, hi, hp, hj⟩
        refine ⟨i + 1, by simpa using hi, hp, ?_⟩
        intro j hjl r' hr'
        match j with
        | 0 =>
          have : a = r' := by simpa using hr'
          subst this
          exact Bool.eq_false_iff.2 h
        | j + 1 => exact hj j (by omega) r' (by simpa using hr')
      · rintro ⟨i, hi, hp, hj⟩
        match i with
        | 0 =>
          have : a = r := by simpa using hi
          subst this
          exact absurd hp h
        | i + 1 =>
          exact ⟨i, by simpa using hi, hp, fun j hjl r' hr' => hj (j + 1) (by omega) r' (by simpa using hr')⟩

theorem findLoop_none (p : RegionInfo → Bool) : ∀ l : List RegionInfo, GModel.findLoop p l = none ↔ ∀ r ∈ l, p r = false := by
  intro l
  induction l with
  | nil => simp [GModel.findLoop]
  | cons a l ih =>
    unfold GModel.findLoop
    by_cases h : p a = true
    · rw [if_pos h]; simp [h]
    · rw [if_neg h, ih]
      simp [Bool.eq_false_iff.2 h]

theorem findLoop_append (p : RegionInfo → Bool) (l l' : List RegionInfo) (r : RegionInfo) (h : GModel.findLoop p l = some r) :
    GModel.findLoop p (l ++ l') = some r := by
  induction l with
  | nil => cases h
  | cons a l ih =>
    rw [List.cons_append]
    unfold GModel.findLoop at h ⊢
    split
    · rename_i ha; rw [if_pos ha] at h; exact h
    · rename_i ha; rw [if_neg ha] at h; exact ih h

/-- **C55, looking up a region by name.** The result is the first region with the name, and null exactly if there is none. -/
theorem find_region_by_name (g : GModel) (name : String) :
    (∀ r, g.findName name = some r ↔
      ∃ i : Nat, g.region_i i = some r ∧ r.name = name ∧ ∀ j < i, ∀ r', g.region_i j = some r' → r'.name ≠ name) ∧
    (g.findName name = none ↔ ∀ r ∈ g.regions, r.name ≠ name) := by
  constructor
  · intro r
    unfold GModel.findName
    rw [findLoop_some]
    simp only [beq_iff_eq, beq_eq_false_iff_ne]
    rfl
  · unfold GModel.findName
    rw [findLoop_none]
    simp only [beq_eq_false_iff_ne]

/-- **C55, looking up a region by number.** For every number an `int` can hold: the result is the first region with the number,
and null exactly if there is none. A negative number stands for the number 2^32 larger. -/
theorem find_region_by_id (g : GModel) (id : Int) (hlo : -2147483648 ≤ id) (hhi : id < 2147483648) :
    (∀ r, g.findId id = some r ↔
      ∃ i : Nat, g.region_i i = some r ∧ (r.id : Int) = (if 0 ≤ id then id else id + 4294967296) ∧
        ∀ j < i, ∀ r', g.region_i j = some r' → (r'.id : Int) ≠ (if 0 ≤ id then id else id + 4294967296)) ∧
    (g.findId id = none ↔ ∀ r ∈ g.regions, (r.id : Int) ≠ (if 0 ≤ id then id else id + 4294967296)) := by
  have hm : id % 4294967296 = (if 0 ≤ id then id else id + 4294967296) := by split <;> omega
  constructor
  · intro r
    unfold GModel.findId
    rw [findLoop_some, hm]
    simp only [beq_iff_eq, beq_eq_false_iff_ne]
    rfl
  · unfold GModel.findId
    rw [findLoop_none, hm]
    simp only [beq_eq_false_iff_ne]

/-- a sequence of attempts to add regions; an attempt that throws changes nothing -/
def addAll (g : GModel) (rs : List RegionInfo) : GModel := rs.foldl (fun g r => (g.addRegion r).getD g) g

theorem addAll_eq (g : GModel) (rs : List RegionInfo) :
    addAll g rs = ⟨g.topoDim, g.regions ++ rs.filter fun r => decide (r.dim ≤ g.topoDim)⟩ := by
  induction rs using List.reverseRecOn with
  | nil => simp [addAll]
  | append_singleton rs r ih =>
    have : addAll g (rs ++ [r]) = ((addAll g rs).addRegion r).getD (addAll g rs) := by
      unfold addAll; rw [List.foldl_append]; rfl
    rw [this, ih, List.filter_append]
    unfold GModel.addRegion
    dsimp only
    by_cases h : r.dim ≤ g.topoDim
    · rw [if_neg (by omega), List.filter_cons_of_pos (by simpa using h), List.filter_nil, ← List.append_assoc]
      rfl
    · rw [if_pos (by omega), List.filter_cons_of_neg (by simpa using h), List.filter_nil, List.append_nil]
      rfl

/-- **C55, all histories of additions.** A geometric model of dimension 2 or 3 (others are rejected) holds, after any sequence
of additions, exactly the regions of at most its dimension, in the order of the additions; the others were rejected. What a
look-up found stays the answer after further additions. -/
theorem geometric_model_history (dim : Nat) (rs rs' : List RegionInfo) :
    (GModel.make dim = none ↔ dim ≠ 2 ∧ dim ≠ 3) ∧
    (∀ g, GModel.make dim = some g →
      (addAll g rs).topoDim = dim ∧
      (addAll g rs).regions = rs.filter (fun r => decide (r.dim ≤ dim)) ∧
      (∀ r, (addAll g rs).addRegion r = none ↔ dim < r.dim) ∧
      (∀ name r, (addAll g rs).findName name = some r → (addAll g (rs ++ rs')).findName name = some r) ∧
      (∀ id r, (addAll g rs).findId id = some r → (addAll g (rs ++ rs')).findId id = some r)) := by
  constructor
  · unfold GModel.make
    split
    · rename_i h; exact ⟨fun _ => h, fun _ => rfl⟩
    · rename_i h; exact ⟨(fun e => by cases e), fun e => absurd e h⟩
  · intro g hg
    unfold GModel.make at hg
    split at hg
    · cases hg
    · cases hg
      refine ⟨by rw [addAll_eq], by rw [addAll_eq]; rfl, ?_, ?_, ?_⟩
      · intro r
        rw [addAll_eq]
        unfold GModel.addRegion
        dsimp only
        split
        · rename_i h; exact ⟨fun _ => h, fun _ => rfl⟩
        · rename_i h; exact ⟨(fun e => by cases e), fun e => absurd e h⟩
      · intro name r hr
        rw [addAll_eq] at hr ⊢
        unfold GModel.findName at hr ⊢
        dsimp only at hr ⊢
        rw [List.filter_append, ← List.append_assoc]
        exact findLoop_append _ _ _ _ hr
      · intro id r hr
        rw [addAll_eq] at hr ⊢
        unfold GModel.findId at hr ⊢
        dsimp only at hr ⊢
        rw [List.filter_append, ← List.append_assoc]
        exact findLoop_append _ _ _ _ hr

def rTop : RegionInfo := ⟨100, "top", 7, 2⟩
def rVol : RegionInfo := ⟨101, "all", 8, 3⟩
def rTop2 : RegionInfo := ⟨102, "top", 9, 1⟩

example : (addAll ⟨2, []⟩ [rTop, rVol, rTop2]).regions = [rTop, rTop2] ∧
    (addAll ⟨2, []⟩ [rTop, rVol, rTop2]).findName "top" = some rTop ∧
    (addAll ⟨2, []⟩ [rTop, rVol, rTop2]).findId 9 = some rTop2 ∧
    (addAll ⟨2, []⟩ [rTop, rVol, rTop2]).findName "all" = none := by decide

theorem copy_fold {α β : Type} (l : List α) (upd : β → List α → β) (get : β → List α) (b : β)
    (hu : ∀ b xs ys, upd (upd b xs) ys = upd b ys) (hg : ∀ b xs, get (upd b xs) = xs) (h0 : upd b [] = b) :
    (List.range l.length).foldl (fun c i => upd c (get c ++ (l[i]?).toList)) b = upd b l := by
  have key : ∀ n, n ≤ l.length → (List.range n).foldl (fun c i => upd c (get c ++ (l[i]?).toList)) b = upd b (l.take n) := by
    intro n
    induction n with
    | zero => intro _; simp [h0]
    | succ n ih =>
      intro hn
      rw [List.range_succ, List.foldl_append, ih (by omega)]
      simp only [List.foldl_cons, List.foldl_nil]
      rw [hu, hg, List.take_add_one]
  rw [key _ (Nat.le_refl _), List.take_length]

/-- **C55, copies.** A copied geometric model and a copied domain hold the same regions and models. -/
theorem model_copy (g : GModel) (o : Dom) : g.copy = g ∧ o.copy = o := by
  constructor
  · unfold GModel.copy
    have := copy_fold g.regions (fun (h : GModel) l => ⟨h.topoDim, l⟩) GModel.regions ⟨g.topoDim, []⟩
      (fun _ _ _ => rfl) (fun _ _ => rfl) rfl
    exact this
  · unfold Dom.copy
    have h1 := copy_fold o.models (fun (h : Dom) l => { h with models := l }) Dom.models ⟨o.spatialDim, [], []⟩
      (fun _ _ _ => rfl) (fun _ _ => rfl) rfl
    have h2 := copy_fold o.freeRegions (fun (h : Dom) l => { h with freeRegions := l }) Dom.freeRegions ⟨o.spatialDim, o.models, []⟩
      (fun _ _ _ => rfl) (fun _ _ => rfl) rfl
    exact (congrArg (fun d => (List.range o.freeRegions.length).foldl
      (fun (d : Dom) i => { d with freeRegions := d.freeRegions ++ (o.freeRegions[i]?).toList }) d) h1).trans h2

example : (GModel.makeList 3 [rTop, rVol]).copy = ⟨3, [rTop, rVol]⟩ := by decide

/-- **C55 does not hold for domains built from lists.** The constructor with lists throws for every dimension, also 2 and 3. -/
theorem domain_list_constructor_false (dim : Nat) (gs : List GModel) (rs : List RegionInfo) : Dom.makeList dim gs rs = none := by
  unfold Dom.makeList
  rw [if_pos (by omega)]

/-- adding lists of models and regions to a domain one by one; `none` if one of the calls throws -/
def addModels (o : Dom) (gs : List GModel) : Option Dom := gs.foldlM (fun o g => o.addModel g) o
def addFrees (o : Dom) (rs : List RegionInfo) : Option Dom := rs.foldlM (fun o r => o.addFree r) o

theorem addModels_eq (gs : List GModel) : ∀ o : Dom, addModels o gs =
    if ∀ g ∈ gs, g.topoDim = o.spatialDim then some { o with models := o.models ++ gs } else none := by
  induction gs with
  | nil => intro o; simp [addModels]
  | cons g gs ih =>
    intro o
    show (o.addModel g >>= fun o => addModels o gs) = _
    unfold Dom.addModel
    by_cases h : o.spatialDim = g.topoDim
    · rw [if_neg (not_not.2 h)]
      show addModels _ gs = _
      rw [ih]
      simp [h]
    · rw [if_pos h, if_neg (fun hh => h (hh g List.mem_cons_self).symm)]
      rfl

theorem addFrees_eq (rs : List RegionInfo) : ∀ o : Dom, addFrees o rs =
    if ∀ r ∈ rs, r.dim ≤ o.spatialDim then some { o with freeRegions := o.freeRegions ++ rs } else none := by
  induction rs with
  | nil => intro o; simp [addFrees]
  | cons r rs ih =>
    intro o
    show (o.addFree r >>= fun o => addFrees o rs) = _
    unfold Dom.addFree
    by_cases h : r.dim ≤ o.spatialDim
    · rw [if_neg (by omega)]
      show addFrees _ rs = _
      rw [ih]
      simp [h]
    · rw [if_pos (by omega), if_neg (fun hh => h (hh r List.mem_cons_self))]
      rfl

/-- **C55, domains, partial.** The constructor without lists accepts exactly the dimensions 2 and 3; adding models and free
regions one by one to it succeeds exactly if the models have the dimension of the domain and the regions no higher one, and
gives the domain with these lists. Missing: the constructor with lists (`domain_list_constructor_false`). -/
theorem domain_construction_partial (dim : Nat) (gs : List GModel) (rs : List RegionInfo) :
    (Dom.make dim = none ↔ dim ≠ 2 ∧ dim ≠ 3) ∧
    (∀ o, Dom.make dim = some o → (addModels o gs).bind (addFrees · rs) =
      if (∀ g ∈ gs, g.topoDim = dim) ∧ (∀ r ∈ rs, r.dim ≤ dim) then some ⟨dim, gs, rs⟩ else none) := by
  constructor
  · unfold Dom.make
    split
    · rename_i h; exact ⟨fun _ => by omega, fun _ => rfl⟩
    · rename_i h; exact ⟨(fun e => by cases e), fun e => by omega⟩
  · intro o ho
    unfold Dom.make at ho
    split at ho
    · cases ho
    · cases ho
      rw [addModels_eq]
      by_cases hg : ∀ g ∈ gs, g.topoDim = dim
      · rw [if_pos hg]
        show addFrees _ rs = _
        rw [addFrees_eq]
        by_cases hr : ∀ r ∈ rs, r.dim ≤ dim
        · rw [if_pos hr, if_pos ⟨hg, hr⟩]; rfl
        · rw [if_neg hr, if_neg (fun h => hr h.2)]
      · rw [if_neg hg, if_neg (fun h => hg h.1)]
        rfl

example : (Dom.make 3).bind (fun o => (addModels o [⟨3, [rVol]⟩]).bind (addFrees · [rTop])) = some ⟨3, [⟨3, [rVol]⟩], [rTop]⟩ := by
  decide

/-! ### C56: copies of regions -/

/-- all that a region can be asked for -/
def SameAnswers (r s : AnyRegion) : Prop :=
  r.name = s.name ∧ r.id = s.id ∧ r.dimension = s.dimension ∧ r.lifecycle = s.lifecycle ∧ r.type = s.type ∧
  (∀ p, r.inside p = s.inside p) ∧ r.operation = s.operation ∧ r.components = s.components ∧ r.labelOf = s.labelOf

/-- **C56, partial.** A copy of a region defined by geometry (box, plane, point, polygon) answers all queries like the original; a
copy of any region keeps name, number, dimension, life cycle, kind and membership. Missing: the operation and components of
logical regions, the entity kind and label of labeled sets (`region_copy_false`). -/
theorem region_copy_partial (r : AnyRegion) :
    ((copyRegion r).name = r.name ∧ (copyRegion r).id = r.id ∧ (copyRegion r).dimension = r.dimension ∧
      (copyRegion r).lifecycle = r.lifecycle ∧ (copyRegion r).type = r.type ∧ ∀ p, (copyRegion r).inside p = r.inside p) ∧
    (r.type ≠ .LOGICAL → r.type ≠ .LABELEDSET → SameAnswers (copyRegion r) r) := by
  constructor
  · cases r <;> exact ⟨rfl, rfl, rfl, rfl, rfl, fun _ => rfl⟩
  · intro h1 h2
    cases r
    case logical => exact absurd rfl h1
    case labeled => exact absurd rfl h2
    all_goals exact ⟨rfl, rfl, rfl, rfl, rfl, fun _ => rfl, rfl, rfl, rfl⟩

/-- **C56 does not hold** for any logical region with components, and for any labeled set with a label: the copy has lost the
components and its operation is indeterminate; it has lost the entity kind and the label. -/
theorem region_copy_false (b : Base) :
    (∀ op names, names ≠ [] → (copyRegion (.logical b (some op) names)).components ≠ names ∧
      (copyRegion (.logical b (some op) names)).operation = .undefined) ∧
    (∀ e f g l, l ≠ "" → (copyRegion (.labeled b e f g l)).labelOf ≠ (AnyRegion.labeled b e f g l).labelOf) := by
  constructor
  · intro op names h
    exact ⟨fun e => h e.symm, rfl⟩
  · intro e f g l h he
    have : "" = l := congrArg Prod.snd he
    exact h this.symm

example : SameAnswers (copyRegion (.box ⟨"B", 1, 2, .PERMANENT⟩ (mk2 0 0) (mk2 1 1))) (.box ⟨"B", 1, 2, .PERMANENT⟩ (mk2 0 0) (mk2 1 1)) :=
  (region_copy_partial _).2 (by intro h; cases h) (by intro h; cases h)

example : ¬ SameAnswers (copyRegion (.logical ⟨"U", 4, 3, .PERMANENT⟩ (some .UNION) ["A", "B"]))
    (.logical ⟨"U", 4, 3, .PERMANENT⟩ (some .UNION) ["A", "B"]) :=
  fun h => ((region_copy_false _).1 .UNION ["A", "B"] (by decide)).1 h.2.2.2.2.2.2.2.1

end Jali.Geom
