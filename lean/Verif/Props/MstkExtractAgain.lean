import Verif.Spec.MstkExtractAgain
import Verif.Props.MstkExtract2
import Verif.Props.MstkExtractMesh3
/-
C163: extraction from a mesh that was extracted.
-/
namespace Jali.Mstk

variable {α : Type} [Zero α]

theorem mapM_bind {β γ δ : Type} (f : β → Option γ) (g : γ → Option δ) (l : List β) :
    l.mapM (fun i => (f i).bind g) = (l.mapM f).bind fun l' => l'.mapM g := by
  induction l with
  | nil => rfl
  | cons a l ih =>
    simp only [List.mapM_cons, Option.bind_eq_bind, ih]
    cases hf : f a with
    | none => rfl
    | some b =>
      simp only [Option.bind_some]
      cases hl : l.mapM f with
      | none =>
        cases hg : g b <;> rfl
      | some l' =>
        simp only [Option.bind_some, Option.pure_def, List.mapM_cons, Option.bind_eq_bind]

theorem translated_bind (f g : Nat → Option Nat) (o : Option (List Nat)) :
    translated (fun i => (f i).bind g) o = translated g (translated f o) := by
  cases o with
  | none => rfl
  | some l => exact mapM_bind f g l

theorem translatedDirs_bind (f g : Nat → Option Nat) (o : Option (List (Nat × Int))) :
    translatedDirs (fun i => (f i).bind g) o = translatedDirs g (translatedDirs f o) := by
  cases o with
  | none => rfl
  | some l =>
    have := mapM_bind (fun p : Nat × Int => (f p.1).map fun q => (q, p.2)) (fun p : Nat × Int => (g p.1).map fun q => (q, p.2)) l
    refine Eq.trans ?_ this
    show l.mapM _ = l.mapM _
    congr 1
    funext p
    show ((f p.1).bind g).map _ = _
    cases f p.1 <;> rfl

theorem translated_some (o : Option (List Nat)) : translated (fun i => some i) o = o := by
  cases o with
  | none => rfl
  | some l =>
    show l.mapM _ = _
    induction l with
    | nil => rfl
    | cons a l ih => rw [List.mapM_cons, ih]; rfl

theorem translatedDirs_some (o : Option (List (Nat × Int))) : translatedDirs (fun i => some i) o = o := by
  cases o with
  | none => rfl
  | some l =>
    show l.mapM _ = _
    induction l with
    | nil => rfl
    | cons a l ih => rw [List.mapM_cons, ih]; rfl

theorem translated_of_bind (g : Nat → Option Nat) (a : Option Nat) (q : Nat → Option (List Nat)) :
    translated g (a.bind q) = a.bind fun c => translated g (q c) := by
  cases a <;> rfl

theorem translatedDirs_of_bind (g : Nat → Option Nat) (a : Option Nat) (q : Nat → Option (List (Nat × Int))) :
    translatedDirs g (a.bind q) = a.bind fun c => translatedDirs g (q c) := by
  cases a <;> rfl

/-- what is said of the descendant `t` of a 3D mesh -/
structure Faithful3 (src t : Source α) (par : EntityKind → Nat → Option Nat) : Prop where
  nodes : ∀ c, translated (par .NODE) (t.j.cellNodes3 c) = (par .CELL c).bind src.j.cellNodes3
  faces : ∀ c, translatedDirs (par .FACE) (t.j.cellFaces3 c) = (par .CELL c).bind src.j.cellFaces3
  faceNodes : ∀ f, translated (par .NODE) (t.j.faceNodes3 f) = (par .FACE f).bind src.j.faceNodes3
  coords : ∀ n, t.nodeCoords n = (par .NODE n).bind src.nodeCoords
  types : ∀ c, t.j.cellType3 c = (par .CELL c).bind src.j.cellType3
  differ : (∀ n n' p, par .NODE n = some p → par .NODE n' = some p → n = n') ∧
    ∀ f f' p, par .FACE f = some p → par .FACE f' = some p → f = f'

theorem extracted_ready3 {t : Source α} (hd : t.dim3 = true) {edges : Bool} {ids : List Nat} {x : Extracted t}
    (h : extract t .CELL false false true edges ids = .made x) : x.asSource.Ready3 := by
  obtain ⟨hf, _, l, hl⟩ := extract_cells_from hd h
  refine ⟨hl.dim, hl.ready hf, ?_⟩
  intro b hb
  have : b ∈ (if x.faces then List.replicate (if x.dim3 then x.built.mesh.nf else x.built.mesh.ne) false else []) := hb
  rw [if_pos hf] at this
  exact List.eq_of_mem_replicate this

theorem descends3 {src t : Source α} {par : EntityKind → Nat → Option Nat} (hs : src.Ready3) (h : Descends src t par) :
    t.Ready3 ∧ Faithful3 src t par := by
  induction h with
  | self =>
    refine ⟨hs, ⟨fun c => by rw [translated_some]; rfl, fun c => by rw [translatedDirs_some]; rfl, fun f => by rw [translated_some]; rfl,
      fun _ => rfl, fun _ => rfl, ?_, ?_⟩⟩ <;>
    · intro n n' p h1 h2
      injection h1 with h1
      injection h2 with h2
      rw [h1, h2]
  | @again t par ht edges ids x hx ih =>
    obtain ⟨hr, ih⟩ := ih
    refine ⟨extracted_ready3 hr.dim hx, ?_⟩
    refine ⟨fun c => ?_, fun c => ?_, fun f => ?_, fun n => ?_, fun c => ?_, ?_, ?_⟩
    · rw [translated_bind, cells_nodes t hr.dim hx, translated_of_bind]
      simp only [ih.nodes, Option.bind_assoc]
    · rw [translatedDirs_bind, cells_faces t hr hx, translatedDirs_of_bind]
      simp only [ih.faces, Option.bind_assoc]
    · rw [translated_bind, cells_face_nodes t hr hx, translated_of_bind]
      simp only [ih.faceNodes, Option.bind_assoc]
    · have := cells_coordinates t hr.dim hx n
      simp only [ih.coords] at this
      rw [Option.bind_assoc]
      exact this
    · have := cells_types t hr.dim hx c
      rw [← (cells_parents t hr.dim hx).2] at this
      simp only [ih.types] at this
      rw [Option.bind_assoc]
      exact this
    · intro n n' p h1 h2
      obtain ⟨q, a1, a2⟩ := Option.bind_eq_some_iff.mp h1
      obtain ⟨q', b1, b2⟩ := Option.bind_eq_some_iff.mp h2
      have := ih.differ.1 q q' p a2 b2
      subst this
      exact (cells_parents_differ t hr hx).1 n n' q a1 b1
    · intro n n' p h1 h2
      obtain ⟨q, a1, a2⟩ := Option.bind_eq_some_iff.mp h1
      obtain ⟨q', b1, b2⟩ := Option.bind_eq_some_iff.mp h2
      have := ih.differ.2 q q' p a2 b2
      subst this
      exact (cells_parents_differ t hr hx).2 n n' q a1 b1

/-- **C163** Whatever cells are extracted from a 3D mesh, then from the result, and so on: asking for parents again and again leads from every
entity of the last mesh to the entity of the first mesh that it is a copy of. Cells have the nodes, in order, the faces, with their directions,
and the type, faces have the nodes, in order, and nodes have the coordinates of the ancestor; different nodes and faces have different
ancestors. -/
theorem extracted_again (src t : Source α) (par : EntityKind → Nat → Option Nat) (hs : src.Ready3) (h : Descends src t par) :
    (∀ c, translated (par .NODE) (t.j.cellNodes3 c) = (par .CELL c).bind src.j.cellNodes3) ∧
    (∀ c, translatedDirs (par .FACE) (t.j.cellFaces3 c) = (par .CELL c).bind src.j.cellFaces3) ∧
    (∀ f, translated (par .NODE) (t.j.faceNodes3 f) = (par .FACE f).bind src.j.faceNodes3) ∧
    (∀ n, t.nodeCoords n = (par .NODE n).bind src.nodeCoords) ∧
    (∀ c, t.j.cellType3 c = (par .CELL c).bind src.j.cellType3) ∧
    (∀ n n' p, par .NODE n = some p → par .NODE n' = some p → n = n') ∧
    ∀ f f' p, par .FACE f = some p → par .FACE f' = some p → f = f' := by
  have := (descends3 hs h).2
  exact ⟨this.nodes, this.faces, this.faceNodes, this.coords, this.types, this.differ⟩

theorem extracted_nr {t : Source α} (hd : t.dim3 = true) {rf re : Bool} {ids : List Nat} {x : Extracted t}
    (h : extract t .CELL false false rf re ids = .made x) : x.j.m.nr = ids.length := by
  obtain ⟨_, _, l, hl⟩ := extract_cells_from hd h
  rw [hl.ids, List.length_map, ← hl.copy.nr]

/-- **C163** The cells of the last mesh are the ancestors of the cells listed last, in that order; every cell has an ancestor. -/
theorem extracted_again_cells {src t : Source α} {par : EntityKind → Nat → Option Nat} (hs : src.Ready3) (h : Descends src t par) :
    (∀ c < t.j.m.nr, ∃ p < src.j.m.nr, par .CELL c = some p) ∧
    ∀ (edges : Bool) (ids : List Nat) (x : Extracted t), extract t .CELL false false true edges ids = .made x →
      Descends src x.asSource (fun k i => (x.parent k i).bind (par k)) ∧ x.j.m.nr = ids.length ∧
      ∀ c, (x.parent .CELL c).bind (par .CELL) = (ids[c]?).bind (par .CELL) := by
  refine ⟨?_, fun edges ids x hx => ⟨.again h edges ids x hx, extracted_nr (descends3 hs h).1.dim hx,
    fun c => by rw [(cells_parents t (descends3 hs h).1.dim hx).2]⟩⟩
  induction h with
  | self => exact fun c hc => ⟨c, hc, rfl⟩
  | @again t par ht edges ids x hx ih =>
    intro c hc
    have hd := (descends3 hs ht).1.dim
    have hc' : c < ids.length := by rw [← extracted_nr hd hx]; exact hc
    have hlt := (cells_extracted_iff t hd true edges ids).mp ⟨x, hx⟩ ids[c] (List.getElem_mem hc')
    obtain ⟨p, hp, e⟩ := ih ids[c] hlt
    refine ⟨p, hp, ?_⟩
    show (x.parent .CELL c).bind _ = _
    rw [(cells_parents t hd hx).2, List.getElem?_eq_getElem hc', Option.bind_some, e]

theorem mapM_forall2 {β γ : Type} {f : β → Option γ} : ∀ {l : List β} {l' : List γ}, l.mapM f = some l' →
    List.Forall₂ (fun a b => f a = some b) l l'
  | [], l', h => by
    have : l' = [] := by injection h with h; exact h.symm
    subst this
    exact .nil
  | a :: l, l', h => by
    rw [List.mapM_cons] at h
    obtain ⟨b, hb, h⟩ := Option.bind_eq_some_iff.mp h
    obtain ⟨bs, hbs, h⟩ := Option.bind_eq_some_iff.mp h
    have : l' = b :: bs := by injection h with h; exact h.symm
    subst this
    exact .cons hb (mapM_forall2 hbs)

theorem has_translated {g : Nat → Option Nat} {o : Option (List Nat)} {p : Nat} :
    Has (translated g o) p ↔ (translated g o).isSome ∧ ∃ n, Has o n ∧ g n = some p := by
  cases o with
  | none => exact ⟨(fun ⟨_, h, _⟩ => by cases h), (fun ⟨h, _⟩ => by cases h)⟩
  | some l =>
    constructor
    · rintro ⟨l', h, hp⟩
      have h2 := mapM_forall2 (show l.mapM g = some l' from h)
      obtain ⟨i, hi, rfl⟩ := List.mem_iff_getElem.mp hp
      have hl : i < l.length := by rw [h2.length_eq]; exact hi
      exact ⟨by rw [h]; rfl, l[i], ⟨l, rfl, List.getElem_mem hl⟩, h2.get hl hi⟩
    · rintro ⟨hs, n, ⟨_, e, hn⟩, hg⟩
      injection e with e
      subst e
      obtain ⟨l', h⟩ := Option.isSome_iff_exists.mp hs
      have h2 := mapM_forall2 (show l.mapM g = some l' from h)
      obtain ⟨i, hi, rfl⟩ := List.mem_iff_getElem.mp hn
      have hl : i < l'.length := by rw [← h2.length_eq]; exact hi
      have := h2.get hi hl
      rw [show l.get ⟨i, hi⟩ = l[i] from rfl, hg] at this
      injection this with this
      exact ⟨l', h, by rw [this]; exact List.getElem_mem hl⟩

theorem hasFst_translated {g : Nat → Option Nat} {o : Option (List (Nat × Int))} {p : Nat} :
    HasFst (translatedDirs g o) p ↔ (translatedDirs g o).isSome ∧ ∃ n, HasFst o n ∧ g n = some p := by
  cases o with
  | none => exact ⟨(fun ⟨_, h, _⟩ => by cases h), (fun ⟨h, _⟩ => by cases h)⟩
  | some l =>
    constructor
    · rintro ⟨l', h, d, hp⟩
      have h2 := mapM_forall2 (show l.mapM (fun p => (g p.1).map fun q => (q, p.2)) = some l' from h)
      obtain ⟨i, hi, e⟩ := List.mem_iff_getElem.mp hp
      have hl : i < l.length := by rw [h2.length_eq]; exact hi
      have := h2.get hl hi
      rw [show l'.get ⟨i, hi⟩ = l'[i] from rfl, e] at this
      obtain ⟨q, hq, hq'⟩ := Option.map_eq_some_iff.mp this
      injection hq' with hq1 hq2
      subst hq1
      exact ⟨by rw [h]; rfl, l[i].1, ⟨l, rfl, l[i].2, List.getElem_mem hl⟩, hq⟩
    · rintro ⟨hs, n, ⟨_, e, d, hn⟩, hg⟩
      injection e with e
      subst e
      obtain ⟨l', h⟩ := Option.isSome_iff_exists.mp hs
      have h2 := mapM_forall2 (show l.mapM (fun p => (g p.1).map fun q => (q, p.2)) = some l' from h)
      obtain ⟨i, hi, e⟩ := List.mem_iff_getElem.mp hn
      have hl : i < l'.length := by rw [← h2.length_eq]; exact hi
      have := h2.get hi hl
      rw [show l.get ⟨i, hi⟩ = l[i] from rfl, e] at this
      simp only [hg, Option.map_some] at this
      injection this with this
      exact ⟨l', h, d, by rw [this]; exact List.getElem_mem hl⟩

/-- **C163** the last mesh has the nodes and faces of the cells listed last, and no others -/
theorem extracted_again_nothing_else {src t : Source α} {par : EntityKind → Nat → Option Nat} (hs : src.Ready3) (h : Descends src t par)
    {edges : Bool} {ids : List Nat} {x : Extracted t} (hx : extract t .CELL false false true edges ids = .made x) (p : Nat) :
    ((∃ n, (x.parent .NODE n).bind (par .NODE) = some p) ↔
      ∃ c ∈ ids, ∃ pc, par .CELL c = some pc ∧ Has (src.j.cellNodes3 pc) p) ∧
    ((∃ f, (x.parent .FACE f).bind (par .FACE) = some p) ↔
      ∃ c ∈ ids, ∃ pc, par .CELL c = some pc ∧ HasFst (src.j.cellFaces3 pc) p) := by
  obtain ⟨hr, hf⟩ := descends3 hs h
  have hcell : ∀ c ∈ ids, ∃ pc, par .CELL c = some pc ∧ (src.j.cellNodes3 pc).isSome ∧ (src.j.cellFaces3 pc).isSome := by
    intro c hc
    obtain ⟨pc, hpc, e⟩ := (extracted_again_cells hs h).1 c ((cells_extracted_iff t hr.dim true edges ids).mp ⟨x, hx⟩ c hc)
    exact ⟨pc, e, Option.isSome_iff_exists.mpr ((answers3 src.j hs.ready pc).2.mpr hpc),
      Option.isSome_iff_exists.mpr ((answers3 src.j hs.ready pc).1.mpr hpc)⟩
  constructor
  · constructor
    · rintro ⟨n, hn⟩
      obtain ⟨q, a1, a2⟩ := Option.bind_eq_some_iff.mp hn
      obtain ⟨c, hc, hq⟩ := (cells_nothing_else t hr hx q).1.mp ⟨n, a1⟩
      obtain ⟨pc, e, b1, _⟩ := hcell c hc
      have hn := hf.nodes c
      rw [e, Option.bind_some] at hn
      refine ⟨c, hc, pc, e, ?_⟩
      rw [← hn] at b1 ⊢
      exact has_translated.mpr ⟨b1, q, hq, a2⟩
    · rintro ⟨c, hc, pc, e, hp⟩
      have hn := hf.nodes c
      rw [e, Option.bind_some] at hn
      rw [← hn] at hp
      obtain ⟨_, q, hq, a2⟩ := has_translated.mp hp
      obtain ⟨n, a1⟩ := (cells_nothing_else t hr hx q).1.mpr ⟨c, hc, hq⟩
      exact ⟨n, by rw [a1]; exact a2⟩
  · constructor
    · rintro ⟨n, hn⟩
      obtain ⟨q, a1, a2⟩ := Option.bind_eq_some_iff.mp hn
      obtain ⟨c, hc, hq⟩ := (cells_nothing_else t hr hx q).2.mp ⟨n, a1⟩
      obtain ⟨pc, e, _, b1⟩ := hcell c hc
      have hn := hf.faces c
      rw [e, Option.bind_some] at hn
      refine ⟨c, hc, pc, e, ?_⟩
      rw [← hn] at b1 ⊢
      exact hasFst_translated.mpr ⟨b1, q, hq, a2⟩
    · rintro ⟨c, hc, pc, e, hp⟩
      have hn := hf.faces c
      rw [e, Option.bind_some] at hn
      rw [← hn] at hp
      obtain ⟨_, q, hq, a2⟩ := hasFst_translated.mp hp
      obtain ⟨n, a1⟩ := (cells_nothing_else t hr hx q).2.mpr ⟨c, hc, hq⟩
      exact ⟨n, by rw [a1]; exact a2⟩

/-- **C163** A surface of faces of the last mesh: its cells have the nodes, in order, and its nodes have the coordinates of the faces and nodes
of the first mesh that they descend from. -/
theorem surface_extracted_again {src t : Source α} {par : EntityKind → Nat → Option Nat} (hs : src.Ready3) (hd : src.spaceDim = 3)
    (h : Descends src t par) {flatten faces edges : Bool} {ids : List Nat} {x : Extracted t}
    (hx : extract t .FACE flatten false faces edges ids = .made x) :
    (∀ c, translated (fun n => (x.parent .NODE n).bind (par .NODE)) (x.j.cellNodes2 c) =
      ((ids[c]?).bind (par .FACE)).bind src.j.faceNodes3) ∧
    ∀ n, x.nodeCoords n = (((x.parent .NODE n).bind (par .NODE)).bind src.nodeCoords).map fun p => if flatten then p.dropLast else p := by
  obtain ⟨hr, hf⟩ := descends3 hs h
  have hdt : t.spaceDim = 3 := by
    clear hx x hr hf
    induction h with
    | self => exact hd
    | @again t par ht edges ids x hx ih =>
      obtain ⟨_, _, l, hl⟩ := extract_cells_from (descends3 hs ht).1.dim hx
      exact hl.space.trans ih
  refine ⟨fun c => ?_, fun n => ?_⟩
  · rw [translated_bind, surface_nodes t hr hx, translated_of_bind]
    simp only [hf.faceNodes, Option.bind_assoc]
  · rw [surface_coordinates t hr hdt hx]
    simp only [hf.coords, Option.bind_assoc]

/-! ### 2D meshes -/

theorem extracted_ready2 {t : Source α} (hd : t.dim3 = false) {edges : Bool} {ids : List Nat} {x : Extracted t}
    (h : extract t .CELL false false true edges ids = .made x) : x.asSource.Ready2 := by
  obtain ⟨hf, _, l, hl⟩ := cells2_from hd h
  refine ⟨hl.dim, hl.ready hf, ?_⟩
  intro b hb
  have : b ∈ (if x.faces then List.replicate (if x.dim3 then x.built.mesh.nf else x.built.mesh.ne) false else []) := hb
  rw [if_pos hf] at this
  exact List.eq_of_mem_replicate this

theorem descends2_ready {src t : Source α} {par : EntityKind → Nat → Option Nat} (hs : src.Ready2) (h : Descends src t par) : t.Ready2 := by
  induction h with
  | self => exact hs
  | again ht edges ids x hx ih => exact extracted_ready2 ih.dim hx

theorem descends2_space {src t : Source α} {par : EntityKind → Nat → Option Nat} (hs : src.Ready2) (h : Descends src t par) :
    t.spaceDim = src.spaceDim := by
  induction h with
  | self => rfl
  | again ht edges ids x hx ih =>
    obtain ⟨_, _, l, hl⟩ := cells2_from (descends2_ready hs ht).dim hx
    exact hl.space.trans ih

/-- **C163** The same for 2D meshes. -/
theorem extracted_again_2d (src t : Source α) (par : EntityKind → Nat → Option Nat) (hs : src.Ready2) (hd : src.spaceDim ≤ 3)
    (h : Descends src t par) :
    (∀ c, translated (par .NODE) (t.j.cellNodes2 c) = (par .CELL c).bind src.j.cellNodes2) ∧
    (∀ c, translatedDirs (par .FACE) (t.j.cellFaces2 c) = (par .CELL c).bind src.j.cellFaces2) ∧
    (∀ f, translated (par .NODE) (t.j.faceNodes2 f) = (par .FACE f).bind src.j.faceNodes2) ∧
    (∀ n, t.nodeCoords n = (par .NODE n).bind src.nodeCoords) ∧
    (∀ c, t.j.cellType2 c = (par .CELL c).bind src.j.cellType2) ∧
    (∀ n n' p, par .NODE n = some p → par .NODE n' = some p → n = n') ∧
    ∀ f f' p, par .FACE f = some p → par .FACE f' = some p → f = f' := by
  induction h with
  | self =>
    refine ⟨fun c => by rw [translated_some]; rfl, fun c => by rw [translatedDirs_some]; rfl, fun f => by rw [translated_some]; rfl,
      fun _ => rfl, fun _ => rfl, ?_, ?_⟩ <;>
    · intro n n' p h1 h2
      injection h1 with h1
      injection h2 with h2
      rw [h1, h2]
  | @again t par ht edges ids x hx ih =>
    obtain ⟨i1, i2, i3, i4, i5, i6, i7⟩ := ih
    have hr := descends2_ready hs ht
    obtain ⟨hf, _, l, hl⟩ := cells2_from hr.dim hx
    have hdiff := differ2 hl hf (edgeId_of_faces hr)
    refine ⟨fun c => ?_, fun c => ?_, fun f => ?_, fun n => ?_, fun c => ?_, ?_, ?_⟩
    · rw [translated_bind, cells2_nodes t hr.dim hx, ← (cells2_parents t hr.dim hx).2, translated_of_bind]
      simp only [i1, Option.bind_assoc]
    · rw [translatedDirs_bind, cells2_faces t hr hx, ← (cells2_parents t hr.dim hx).2, translatedDirs_of_bind]
      simp only [i2, Option.bind_assoc]
    · rw [translated_bind, cells2_face_nodes t hr hx, translated_of_bind]
      simp only [i3, Option.bind_assoc]
    · have := cells2_coordinates t hr.dim (by rw [descends2_space hs ht]; exact hd) hx n
      simp only [i4, Bool.false_eq_true, if_false, Option.map_id'] at this
      rw [Option.bind_assoc]
      exact this
    · have := cells2_types t hr.dim hx c
      rw [← (cells2_parents t hr.dim hx).2] at this
      simp only [i5] at this
      rw [Option.bind_assoc]
      exact this
    · intro n n' p h1 h2
      obtain ⟨q, a1, a2⟩ := Option.bind_eq_some_iff.mp h1
      obtain ⟨q', b1, b2⟩ := Option.bind_eq_some_iff.mp h2
      have := i6 q q' p a2 b2
      subst this
      exact hdiff.1 n n' q a1 b1
    · intro n n' p h1 h2
      obtain ⟨q, a1, a2⟩ := Option.bind_eq_some_iff.mp h1
      obtain ⟨q', b1, b2⟩ := Option.bind_eq_some_iff.mp h2
      have := i7 q q' p a2 b2
      subst this
      exact hdiff.2 n n' q a1 b1

/-! ### An example: both tetrahedra in reverse order, then the second of them, which is the first of the original mesh -/

set_option synthInstance.maxHeartbeats 400000 in
set_option maxRecDepth 4000 in
example : (extract twoTetsSrc .CELL false false true true [1, 0]).get?.bind (fun x =>
    (extract x.asSource .CELL false false true true [1]).get?.map fun y =>
      ((List.range 5).map (fun n => (y.parent .NODE n).bind (x.parent .NODE)), (y.parent .CELL 0).bind (x.parent .CELL), y.nodeCoords 3)) =
    some ([some 0, some 2, some 1, some 3, none], some 0, some [0, 0, 1]) := by
  decide +kernel

example : ∃ x y, Descends twoTetsSrc (Extracted.asSource (src := Extracted.asSource (src := twoTetsSrc) x) y)
    (fun k i => (y.parent k i).bind fun i => (x.parent k i).bind fun i => some i) := by
  obtain ⟨x, hx⟩ := (cells_extracted_iff twoTetsSrc rfl true true [1, 0]).mpr (by decide)
  have hn : x.j.m.nr = 2 := extracted_nr rfl hx
  have hd := (extracted_ready3 rfl hx).dim
  obtain ⟨y, hy⟩ := (cells_extracted_iff x.asSource hd true true [1]).mpr (by
    intro i hi
    have : i = 1 := by simpa using hi
    show i < x.j.m.nr
    omega)
  exact ⟨x, y, .again (.again .self true [1, 0] x hx) true [1] y hy⟩

end Jali.Mstk
