import Verif.Model.MstkSets
import Verif.Proof.MstkIsCopy2
/- Lemmas about the sets of an extracted mesh. -/
namespace Jali.Mstk

variable {m : MMesh} {α : Type} [Zero α]

/-! ### The attribute `copyatt` after the copy -/

theorem mapS_keep {σ β γ δ : Type} {f : σ → β → σ × γ} {g : σ → δ} (h : ∀ s a, g (f s a).1 = g s) :
    ∀ (l : List β) (s : σ), g (mapS f s l).1 = g s
  | [], _ => rfl
  | a :: l, s => (mapS_keep h l (f s a).1).trans (h s a)

theorem copyVertex_keep (xyz : Fin m.nv → Xyz α) (flatten : Bool) (s : Copy m α) (v : Fin m.nv) :
    ((copyVertex xyz flatten s v).1.ce, (copyVertex xyz flatten s v).1.cf, (copyVertex xyz flatten s v).1.cr) = (s.ce, s.cf, s.cr) := by
  unfold copyVertex
  split <;> rfl

omit [Zero α] in
theorem joinVertices_keep (s : Copy m α) (p : Nat × Nat) :
    ((joinVertices s p).1.ce, (joinVertices s p).1.cf, (joinVertices s p).1.cr) = (s.ce, s.cf, s.cr) := by
  unfold joinVertices
  split <;> rfl

theorem copyFace3_keep (xyz : Fin m.nv → Xyz α) (s : Copy m α) (f : Fin m.nf) :
    ((copyFace3 xyz s f).1.ce, (copyFace3 xyz s f).1.cr) = (s.ce, s.cr) := by
  unfold copyFace3
  split
  · rfl
  · have h1 := mapS_keep (g := fun s : Copy m α => (s.ce, s.cf, s.cr)) (copyVertex_keep xyz false) (m.mfVertices (m.face f) true) s
    have h2 := mapS_keep (g := fun s : Copy m α => (s.ce, s.cf, s.cr)) (joinVertices_keep)
      (nextPairs (mapS (copyVertex xyz false) s (m.mfVertices (m.face f) true)).2)
      (mapS (copyVertex xyz false) s (m.mfVertices (m.face f) true)).1
    have h3 := h2.trans h1
    simp only [Prod.mk.injEq] at h3 ⊢
    exact ⟨h3.1, h3.2.2⟩

theorem copyEdge_keep (xyz : Fin m.nv → Xyz α) (flatten : Bool) (s : Copy m α) (e : Fin m.ne) :
    ((copyEdge xyz flatten s e).1.cf, (copyEdge xyz flatten s e).1.cr) = (s.cf, s.cr) := by
  unfold copyEdge
  split
  · rfl
  · have h1 := copyVertex_keep xyz flatten s (m.edge e).v0
    have h2 := copyVertex_keep xyz flatten (copyVertex xyz flatten s (m.edge e).v0).1 (m.edge e).v1
    have h3 := h2.trans h1
    simp only [Prod.mk.injEq] at h3 ⊢
    exact ⟨h3.2.1, h3.2.2⟩

theorem copyRegion_attr (xyz : Fin m.nv → Xyz α) (s : Copy m α) (r : Fin m.nr) :
    (copyRegion xyz s r).ce = s.ce ∧ ∃ n, (copyRegion xyz s r).cr = Function.update s.cr r (some n) ∧
      (copyRegion xyz s r).rs.length = n + 1 := by
  unfold copyRegion
  have h := mapS_keep (f := fun s (p : Fin m.nf × Bool) => ((copyFace3 xyz s p.1).1, ((copyFace3 xyz s p.1).2, p.2)))
    (g := fun s : Copy m α => (s.ce, s.cr)) (fun s p => copyFace3_keep xyz s p.1) (m.region r).faces s
  generalize mapS (fun s (p : Fin m.nf × Bool) => ((copyFace3 xyz s p.1).1, ((copyFace3 xyz s p.1).2, p.2))) s (m.region r).faces = A at *
  obtain ⟨h1, h2⟩ := Prod.mk.inj h
  dsimp only
  refine ⟨h1, A.1.rs.length, by rw [h2], ?_⟩
  rw [List.length_append]; rfl

theorem copyFace2_attr (xyz : Fin m.nv → Xyz α) (flatten : Bool) (s : Copy m α) (f : Fin m.nf) :
    (copyFace2 xyz flatten s f).cr = s.cr ∧ ∃ n, (copyFace2 xyz flatten s f).cf = Function.update s.cf f (some n) ∧
      (copyFace2 xyz flatten s f).fs.length = n + 1 := by
  unfold copyFace2
  have h := mapS_keep (f := fun s (p : Fin m.ne × Bool) => ((copyEdge xyz flatten s p.1).1, ((copyEdge xyz flatten s p.1).2, p.2)))
    (g := fun s : Copy m α => (s.cf, s.cr)) (fun s p => copyEdge_keep xyz flatten s p.1) (m.face f).edges s
  generalize mapS (fun s (p : Fin m.ne × Bool) => ((copyEdge xyz flatten s p.1).1, ((copyEdge xyz flatten s p.1).2, p.2))) s
    (m.face f).edges = A at *
  obtain ⟨h1, h2⟩ := Prod.mk.inj h
  dsimp only
  refine ⟨h2, A.1.fs.length, by rw [h1], ?_⟩
  rw [List.length_append]; rfl

/-- entries of an attribute that is set once for each entity of a list without repetitions -/
def Recorded {n : Nat} (c : Fin n → Option Nat) (d : List (Fin n)) : Prop := d.Nodup → ∀ a k, c a = some k ↔ d[k]? = some a

theorem Recorded.snoc {n : Nat} {c : Fin n → Option Nat} {d : List (Fin n)} (h : Recorded c d) (a : Fin n) :
    Recorded (Function.update c a (some d.length)) (d ++ [a]) := by
  intro hn x k
  have hd : d.Nodup := (List.nodup_append.mp hn).1
  have ha : a ∉ d := fun hm => (List.nodup_append.mp hn).2.2 a hm a (List.mem_singleton.mpr rfl) rfl
  have hc := h hd x k
  by_cases hx : x = a
  · subst hx
    rw [Function.update_self]
    constructor
    · intro h'
      rw [← Option.some.inj h']
      simp
    · intro h'
      rcases Nat.lt_or_ge k d.length with hk | hk
      · rw [List.getElem?_append_left hk] at h'
        exact absurd (List.mem_of_getElem? h') ha
      · rw [List.getElem?_append_right hk] at h'
        have : k - d.length = 0 := by
          by_contra hne
          rw [List.getElem?_eq_none (by simp; omega)] at h'
          cases h'
        congr 1
        omega
  · rw [Function.update_of_ne hx, hc]
    rcases Nat.lt_or_ge k d.length with hk | hk
    · rw [List.getElem?_append_left hk]
    · rw [List.getElem?_append_right hk, List.getElem?_eq_none hk]
      constructor
      · intro h'; cases h'
      · intro h'
        have := List.mem_singleton.mp (List.mem_of_getElem? h')
        exact absurd this hx

theorem copyRegions_attr (xyz : Fin m.nv → Xyz α) (l : List (Fin m.nr)) :
    (∀ e, (l.foldl (copyRegion xyz) ({} : Copy m α)).ce e = none) ∧ Recorded (l.foldl (copyRegion xyz) ({} : Copy m α)).cr l := by
  have := foldl_snoc_spec (f := copyRegion xyz)
    (P := fun d (s : Copy m α) => s.After3 xyz d ∧ (∀ e, s.ce e = none) ∧ Recorded s.cr d)
    (fun d s a h => by
      obtain ⟨h1, n, h2, h3⟩ := copyRegion_attr xyz s a
      have hs := copyRegion_spec h.1 a
      have hn : n = d.length := by
        have := congrArg List.length hs.list
        rw [List.length_map, h3, List.length_append, List.length_singleton] at this
        omega
      subst hn
      exact ⟨hs, fun e => by rw [h1]; exact h.2.1 e, by rw [h2]; exact h.2.2.snoc a⟩) l [] {}
    ⟨After3_nil xyz, fun _ => rfl, fun _ a k => by simp⟩
  rw [List.nil_append] at this
  exact this.2

theorem copyFaces_attr (xyz : Fin m.nv → Xyz α) (flatten : Bool) (l : List (Fin m.nf)) :
    (∀ r, (l.foldl (copyFace2 xyz flatten) ({} : Copy m α)).cr r = none) ∧
      Recorded (l.foldl (copyFace2 xyz flatten) ({} : Copy m α)).cf l := by
  have := foldl_snoc_spec (f := copyFace2 xyz flatten)
    (P := fun d (s : Copy m α) => s.After2 xyz flatten d ∧ (∀ e, s.cr e = none) ∧ Recorded s.cf d)
    (fun d s a h => by
      obtain ⟨h1, n, h2, h3⟩ := copyFace2_attr xyz flatten s a
      have hs := copyFace2_spec h.1 a
      have hn : n = d.length := by
        have := congrArg List.length hs.list
        rw [List.length_map, h3, List.length_append, List.length_singleton] at this
        omega
      subst hn
      exact ⟨hs, fun e => by rw [h1]; exact h.2.1 e, by rw [h2]; exact h.2.2.snoc a⟩) l [] {}
    ⟨After2_nil xyz flatten, fun _ => rfl, fun _ a k => by simp⟩
  rw [List.nil_append] at this
  exact this.2

theorem builtFrom3 (xyz : Fin m.nv → Xyz α) (l : List (Fin m.nr)) {b : Built m α}
    (hb : (l.foldl (copyRegion xyz) ({} : Copy m α)).build = some b) : BuiltFrom (l.foldl (copyRegion xyz) ({} : Copy m α)) b := by
  have hin := (copyRegions_spec (α := α) xyz l).inv
  obtain ⟨b', hb', hs⟩ := build_spec (l.foldl (copyRegion xyz) ({} : Copy m α)) hin.e.ends (by
      intro f hf p hp
      obtain ⟨ks, _, h2⟩ := hin.face f.1 f.2 hf
      obtain ⟨q, _, hq⟩ := forall₂_mem_right h2 hp
      exact hq.lt) (by
      intro r hr p hp
      obtain ⟨q, _, hq⟩ := forall₂_mem_right (hin.region r.1 r.2 hr) hp
      exact hq.1.lt)
  rw [← Option.some.inj (hb'.symm.trans hb)]
  exact hs

theorem builtFrom2 (xyz : Fin m.nv → Xyz α) (flatten : Bool) (l : List (Fin m.nf)) {b : Built m α}
    (hb : (l.foldl (copyFace2 xyz flatten) ({} : Copy m α)).build = some b) :
    BuiltFrom (l.foldl (copyFace2 xyz flatten) ({} : Copy m α)) b := by
  have hin := (copyFaces_spec (α := α) xyz flatten l).inv
  obtain ⟨b', hb', hs⟩ := build_spec (l.foldl (copyFace2 xyz flatten) ({} : Copy m α)) (by
      intro e he
      obtain ⟨e', _, h1, h2⟩ := hin.edge e.1 e.2 he
      exact ⟨h1.lt, h2.lt⟩) (by
      intro r hr p hp
      obtain ⟨q, _, hq⟩ := forall₂_mem_right (hin.face r.1 r.2 hr) hp
      exact hq.1.lt) (by intro r hr; rw [hin.nors] at hr; cases hr)
  rw [← Option.some.inj (hb'.symm.trans hb)]
  exact hs

/-! ### Copies and parents -/

/-- the parent of an entity of the new mesh -/
def Built.par {m : MMesh} (b : Built m α) : Ent b.mesh → Option (Ent m)
  | .v i => (b.vpar i).map .v
  | .e i => (b.epar i).map .e
  | .f i => (b.fpar i).map .f
  | .r i => (b.rpar i).map .r

/-- the copy of an entity is the entity whose parent it is -/
def CopyOk (s : Copy m α) (b : Built m α) : Prop := ∀ x y, s.copyOf b x = some y ↔ b.par y = some x

omit [Zero α] in
theorem handle_iff {n' : Nat} {c : Option Nat} {y : Fin n'} : (c.bind fun k => toHandle n' k) = some y ↔ c = some y.val := by
  constructor
  · intro h
    obtain ⟨k, h1, h2⟩ := Option.bind_eq_some_iff.mp h
    rw [h1, toHandle_eq h2]
  · intro h
    rw [h, Option.bind_some, toHandle_lt y.isLt]

omit [Zero α] in
theorem copyOk_of {s : Copy m α} {b : Built m α}
    (hv : ∀ (y : Fin b.mesh.nv) x, s.cv x = some y.val ↔ b.vpar y = some x)
    (he : ∀ (y : Fin b.mesh.ne) x, s.ce x = some y.val ↔ b.epar y = some x)
    (hf : ∀ (y : Fin b.mesh.nf) x, s.cf x = some y.val ↔ b.fpar y = some x)
    (hr : ∀ (y : Fin b.mesh.nr) x, s.cr x = some y.val ↔ b.rpar y = some x) : CopyOk s b := by
  have key : ∀ {n n' : Nat} (c : Fin n → Option Nat) (x : Fin n) (mk : Fin n' → Ent b.mesh) (y : Ent b.mesh),
      ((c x).bind fun k => (toHandle n' k).map mk) = some y ↔ ∃ z, c x = some z.val ∧ mk z = y := by
    intro n n' c x mk y
    constructor
    · intro h
      obtain ⟨k, h1, h2⟩ := Option.bind_eq_some_iff.mp h
      obtain ⟨z, h3, h4⟩ := Option.map_eq_some_iff.mp h2
      exact ⟨z, by rw [h1, toHandle_eq h3], h4⟩
    · rintro ⟨z, h1, h2⟩
      rw [h1, Option.bind_some, toHandle_lt z.isLt, Option.map_some, h2]
  intro x y
  cases x with
  | v x =>
    refine (key s.cv x Ent.v y).trans ?_
    cases y with
    | v y => simp only [Ent.v.injEq, exists_eq_right, hv, Built.par, Option.map_eq_some_iff]
    | e y => simp [Built.par]
    | f y => simp [Built.par]
    | r y => simp [Built.par]
  | e x =>
    refine (key s.ce x Ent.e y).trans ?_
    cases y with
    | e y => simp only [Ent.e.injEq, exists_eq_right, he, Built.par, Option.map_eq_some_iff]
    | v y => simp [Built.par]
    | f y => simp [Built.par]
    | r y => simp [Built.par]
  | f x =>
    refine (key s.cf x Ent.f y).trans ?_
    cases y with
    | f y => simp only [Ent.f.injEq, exists_eq_right, hf, Built.par, Option.map_eq_some_iff]
    | v y => simp [Built.par]
    | e y => simp [Built.par]
    | r y => simp [Built.par]
  | r x =>
    refine (key s.cr x Ent.r y).trans ?_
    cases y with
    | r y => simp only [Ent.r.injEq, exists_eq_right, hr, Built.par, Option.map_eq_some_iff]
    | v y => simp [Built.par]
    | e y => simp [Built.par]
    | f y => simp [Built.par]

theorem copyOk3 {xyz : Fin m.nv → Xyz α} {l : List (Fin m.nr)} (hn : l.Nodup) {b : Built m α}
    (hb : (l.foldl (copyRegion xyz) ({} : Copy m α)).build = some b) : CopyOk (l.foldl (copyRegion xyz) ({} : Copy m α)) b := by
  obtain ⟨b', hb', hc⟩ := isCopy3 (α := α) xyz l
  have hbf := builtFrom3 xyz l hb
  have : b' = b := Option.some.inj (hb'.symm.trans hb)
  subst this
  have h := copyRegions_spec (α := α) xyz l
  have ha := copyRegions_attr (α := α) xyz l
  apply copyOk_of
  · intro y x
    rw [h.inv.v.cv, hbf.vrel]
  · intro y x
    rw [ha.1, hc.enone]; simp
  · intro y x
    rw [h.inv.cf, hbf.frel]
  · intro y x
    rw [ha.2 hn, hc.rpar]

theorem copyOk2 {xyz : Fin m.nv → Xyz α} {flatten : Bool} {l : List (Fin m.nf)} (hn : l.Nodup) {b : Built m α}
    (hb : (l.foldl (copyFace2 xyz flatten) ({} : Copy m α)).build = some b) :
    CopyOk (l.foldl (copyFace2 xyz flatten) ({} : Copy m α)) b := by
  obtain ⟨b', hb', hc⟩ := isCopy2 (α := α) xyz flatten l
  have hbf := builtFrom2 xyz flatten l hb
  have : b' = b := Option.some.inj (hb'.symm.trans hb)
  subst this
  have h := copyFaces_spec (α := α) xyz flatten l
  have ha := copyFaces_attr (α := α) xyz flatten l
  apply copyOk_of
  · intro y x
    rw [h.inv.v.cv, hbf.vrel]
  · intro y x
    rw [h.inv.ce, hbf.erel]
  · intro y x
    rw [ha.2 hn, hc.fpar]
  · intro y x
    have h1 := y.isLt
    have h2 := hc.nr
    omega

end Jali.Mstk
