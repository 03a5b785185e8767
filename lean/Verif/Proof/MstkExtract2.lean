import Verif.Proof.MstkExtract3
/- Lemmas about extraction of a surface. -/
namespace Jali.Mstk

variable {m : MMesh} {α : Type}

/-- a use of an edge by a face, copied -/
def Copy.EUse (s : Copy m α) (q : Fin m.ne × Bool) (p : Nat × Bool) : Prop := s.ERel q.1 p.1 ∧ p.2 = q.2

/-- the state between the faces of the list, and between the edges of a face -/
structure Copy.Inv2 [Zero α] (xyz : Fin m.nv → Xyz α) (flatten : Bool) (s : Copy m α) : Prop where
  v : s.VInv xyz flatten
  ce : ∀ e k, s.ce e = some k ↔ s.ERel e k
  edge : ∀ q oe, (q, oe) ∈ s.es → ∃ e, oe = some e ∧ s.VRel (m.edge e).v0 q.1 ∧ s.VRel (m.edge e).v1 q.2
  face : ∀ l f, (l, f) ∈ s.fs → List.Forall₂ s.EUse (m.face f).edges l
  vused : ∀ k < s.vs.length, ∃ q oe, (q, oe) ∈ s.es ∧ (q.1 = k ∨ q.2 = k)
  nors : s.rs = []

theorem copyEdge_spec [Zero α] {xyz : Fin m.nv → Xyz α} {flatten : Bool} {s : Copy m α} (h : s.Inv2 xyz flatten) (e : Fin m.ne) :
    (copyEdge xyz flatten s e).1.Inv2 xyz flatten ∧ s.Le (copyEdge xyz flatten s e).1 ∧
    (copyEdge xyz flatten s e).1.ERel e (copyEdge xyz flatten s e).2 ∧ (copyEdge xyz flatten s e).1.fs = s.fs ∧
    ∀ e' k, (copyEdge xyz flatten s e).1.ERel e' k → s.ERel e' k ∨ e' = e := by
  unfold copyEdge
  cases hc : s.ce e with
  | some k => exact ⟨h, .refl s, (h.ce e k).mp hc, rfl, fun _ _ => Or.inl⟩
  | none =>
    dsimp only
    obtain ⟨a1, a2, a4, a3⟩ := copyVertex_spec h.v (m.edge e).v0
    have an := copyVertex_new (xyz := xyz) (flatten := flatten) s (m.edge e).v0
    generalize copyVertex xyz flatten s (m.edge e).v0 = A at *
    obtain ⟨b1, b2, b4, b3⟩ := copyVertex_spec a1 (m.edge e).v1
    have bn := copyVertex_new (xyz := xyz) (flatten := flatten) A.1 (m.edge e).v1
    generalize copyVertex xyz flatten A.1 (m.edge e).v1 = B at *
    have ees : B.1.es = s.es := b3.1.trans a3.1
    have efs : B.1.fs = s.fs := b3.2.1.trans a3.2.1
    have ers : B.1.rs = s.rs := b3.2.2.1.trans a3.2.2.1
    have ece : B.1.ce = s.ce := b3.2.2.2.1.trans a3.2.2.2.1
    have hle : s.Le B.1 := a2.trans b2
    have hle' : B.1.Le { B.1 with es := B.1.es ++ [((A.2, B.2), some e)], ce := Function.update B.1.ce e (some B.1.es.length) } :=
      ⟨List.prefix_refl _, List.prefix_append _ _, List.prefix_refl _, List.prefix_refl _⟩
    refine ⟨⟨⟨b1.cv, b1.xyz⟩, ?_, ?_, ?_, ?_, ?_⟩, hle.trans hle', ?_, efs, ?_⟩
    · intro e' k
      exact memo_snoc (i := some) (Option.some_injective _) (c := B.1.ce) (l := B.1.es) (g := Prod.snd)
        (fun f k => by rw [ece, ees]; exact h.ce f k) (x := e) (y := ((A.2, B.2), some e)) rfl (by rw [ece]; exact hc) e' k
    · intro q oe hm
      rcases List.mem_append.mp hm with hm | hm
      · rw [ees] at hm
        obtain ⟨e', h1, h2, h3⟩ := h.edge q oe hm
        exact ⟨e', h1, (h2.mono hle).mono hle', (h3.mono hle).mono hle'⟩
      · obtain ⟨rfl, rfl⟩ := Prod.mk.inj (List.mem_singleton.mp hm)
        exact ⟨e, rfl, (a4.mono b2).mono hle', b4.mono hle'⟩
    · intro l f hm
      have hm : (l, f) ∈ B.1.fs := hm
      rw [efs] at hm
      exact (h.face l f hm).imp fun _ _ hu => ⟨(hu.1.mono hle).mono hle', hu.2⟩
    · intro k hk
      rcases bn k hk with hk | hk
      · rcases an k hk with hk | hk
        · obtain ⟨q, oe, hm, hq⟩ := h.vused k hk
          exact ⟨q, oe, List.mem_append_left _ (by rw [ees]; exact hm), hq⟩
        · exact ⟨_, _, List.mem_append_right _ (List.mem_singleton.mpr rfl), Or.inl hk⟩
      · exact ⟨_, _, List.mem_append_right _ (List.mem_singleton.mpr rfl), Or.inr hk⟩
    · show B.1.rs = []
      rw [ers]; exact h.nors
    · exact snoc_iff.mpr (Or.inr ⟨rfl, rfl⟩)
    · intro e' k hr
      rcases snoc_iff.mp hr with hr | ⟨_, h'⟩
      · left; rw [ees] at hr; exact hr
      · exact Or.inr (Option.some.inj h')

/-- the state after each face of the list -/
structure Copy.After2 [Zero α] (xyz : Fin m.nv → Xyz α) (flatten : Bool) (done : List (Fin m.nf)) (s : Copy m α) : Prop where
  inv : s.Inv2 xyz flatten
  list : s.fs.map Prod.snd = done
  eused : ∀ e k, s.ERel e k → ∃ f ∈ done, e ∈ (m.face f).mfEdges true

theorem copyFace2_spec [Zero α] {xyz : Fin m.nv → Xyz α} {flatten : Bool} {s : Copy m α} {done : List (Fin m.nf)}
    (h : s.After2 xyz flatten done) (f : Fin m.nf) : (copyFace2 xyz flatten s f).After2 xyz flatten (done ++ [f]) := by
  unfold copyFace2
  have key := mapS_spec (f := fun s (p : Fin m.ne × Bool) => ((copyEdge xyz flatten s p.1).1, ((copyEdge xyz flatten s p.1).2, p.2)))
    (P := fun t : Copy m α => t.Inv2 xyz flatten ∧ ∀ e k, t.ERel e k → s.ERel e k ∨ e ∈ (m.face f).mfEdges true)
    (le := fun s t : Copy m α => s.Le t ∧ t.fs = s.fs) (Q := fun (s : Copy m α) q p => s.EUse q p)
    (fun s => ⟨.refl s, rfl⟩) (fun h h' => ⟨h.1.trans h'.1, h'.2.trans h.2⟩) (fun h h' => ⟨h'.1.mono h.1, h'.2⟩)
    (m.face f).edges (by
      intro t p hp ht
      obtain ⟨a, b, c, d, e⟩ := copyEdge_spec ht.1 p.1
      refine ⟨⟨a, ?_⟩, ⟨b, d⟩, c, rfl⟩
      intro f k hr
      rcases e f k hr with hr | rfl
      · exact ht.2 f k hr
      · exact Or.inr (List.mem_map.mpr ⟨p, hp, rfl⟩)) s ⟨h.inv, fun _ _ => Or.inl⟩
  generalize mapS (fun s (p : Fin m.ne × Bool) => ((copyEdge xyz flatten s p.1).1, ((copyEdge xyz flatten s p.1).2, p.2))) s
    (m.face f).edges = A at *
  obtain ⟨⟨a1, a2⟩, ⟨a3, a4⟩, a5⟩ := key
  dsimp only
  refine ⟨⟨⟨a1.v.cv, a1.v.xyz⟩, a1.ce, a1.edge, ?_, a1.vused, a1.nors⟩, ?_, ?_⟩
  · intro l r' hm
    rcases List.mem_append.mp hm with hm | hm
    · exact a1.face l r' hm
    · obtain ⟨rfl, rfl⟩ := Prod.mk.inj (List.mem_singleton.mp hm)
      exact a5
  · rw [List.map_append, a4, h.list]; rfl
  · intro f' k hr
    rcases a2 f' k hr with hr | hr
    · obtain ⟨r', h1, h2⟩ := h.eused f' k hr
      exact ⟨r', List.mem_append_left _ h1, h2⟩
    · exact ⟨f, List.mem_append_right _ (List.mem_singleton.mpr rfl), hr⟩

theorem After2_nil [Zero α] (xyz : Fin m.nv → Xyz α) (flatten : Bool) : ({} : Copy m α).After2 xyz flatten [] := by
  refine ⟨⟨⟨?_, ?_⟩, ?_, ?_, ?_, ?_, rfl⟩, rfl, ?_⟩
  · intro v k; simp [Copy.VRel]
  · intro k v p h; simp at h
  · intro f k; simp [Copy.ERel]
  · intro l f h; cases h
  · intro l f h; cases h
  · intro k h; simp at h
  · intro f k h; simp [Copy.ERel] at h

theorem copyFaces_spec [Zero α] (xyz : Fin m.nv → Xyz α) (flatten : Bool) (l : List (Fin m.nf)) :
    (l.foldl (copyFace2 xyz flatten) {}).After2 xyz flatten l := by
  have := foldl_snoc_spec (P := fun d (s : Copy m α) => s.After2 xyz flatten d) (fun d s a h => copyFace2_spec h a) l [] {}
    (After2_nil xyz flatten)
  simpa using this

end Jali.Mstk
