import Verif.Proof.MstkIsCopy
/- What an extracted surface has in common with its source. -/
namespace Jali.Mstk

variable {m : MMesh} {α : Type}

/-- the copy of a list of faces -/
structure IsCopy2 [Zero α] (xyz : Fin m.nv → Xyz α) (flatten : Bool) (l : List (Fin m.nf)) (b : Built m α) : Prop where
  vhas : ∀ i, ∃ p, b.vpar i = some p ∧ b.xyz i = newXyz xyz flatten p
  vinj : ∀ i i' p, b.vpar i = some p → b.vpar i' = some p → i = i'
  ehas : ∀ i, ∃ p, b.epar i = some p ∧ b.vpar (b.mesh.edge i).v0 = some (m.edge p).v0 ∧
    b.vpar (b.mesh.edge i).v1 = some (m.edge p).v1
  einj : ∀ i i' p, b.epar i = some p → b.epar i' = some p → i = i'
  nf : b.mesh.nf = l.length
  nr : b.mesh.nr = 0
  fpar : ∀ i : Fin b.mesh.nf, b.fpar i = l[i.val]?
  edges : ∀ i p, b.fpar i = some p →
    (b.mesh.face i).edges.map (fun q => (b.epar q.1, q.2)) = (m.face p).edges.map fun q => (some q.1, q.2)
  eused : ∀ e, ∃ f, e ∈ (b.mesh.face f).mfEdges true
  vused : ∀ v, ∃ e, v = (b.mesh.edge e).v0 ∨ v = (b.mesh.edge e).v1
  vint : ∀ i, b.mesh.vtx i = ⟨.interior, 0⟩
  eint : ∀ i, (b.mesh.edge i).ptype = .interior
  fint : ∀ i, (b.mesh.face i).ptype = .interior ∧ (b.mesh.face i).bndryGhost = false

theorem isCopy2 [Zero α] (xyz : Fin m.nv → Xyz α) (flatten : Bool) (l : List (Fin m.nf)) :
    ∃ b, (l.foldl (copyFace2 xyz flatten) ({} : Copy m α)).build = some b ∧ IsCopy2 xyz flatten l b := by
  have h := copyFaces_spec (α := α) xyz flatten l
  generalize l.foldl (copyFace2 xyz flatten) ({} : Copy m α) = s at h
  have hin := h.inv
  obtain ⟨b, hb, hs⟩ := build_spec s (by
      intro e he
      obtain ⟨e', _, h1, h2⟩ := hin.edge e.1 e.2 he
      exact ⟨h1.lt, h2.lt⟩) (by
      intro r hr p hp
      obtain ⟨q, _, hq⟩ := forall₂_mem_right (hin.face r.1 r.2 hr) hp
      exact hq.1.lt) (by intro r hr; rw [hin.nors] at hr; cases hr)
  have einj : ∀ (i i' : Fin b.mesh.ne) p, b.epar i = some p → b.epar i' = some p → i = i' := by
    intro i i' p h1 h2
    have e1 := (hin.ce p _).mpr ((hs.erel i p).mp h1)
    have e2 := (hin.ce p _).mpr ((hs.erel i' p).mp h2)
    exact Fin.ext (Option.some.inj (e1.symm.trans e2))
  have ehas : ∀ i, ∃ p, b.epar i = some p ∧ b.vpar (b.mesh.edge i).v0 = some (m.edge p).v0 ∧
      b.vpar (b.mesh.edge i).v1 = some (m.edge p).v1 := by
    intro i
    obtain ⟨e, h1, h2, h3⟩ := hin.edge _ _ (List.mem_of_getElem? (hs.edge i))
    exact ⟨e, h1, (hs.vrel _ _).mpr h2, (hs.vrel _ _).mpr h3⟩
  refine ⟨b, hb, ?_, ?_, ehas, einj, ?_, ?_, ?_, ?_, ?_, ?_, hs.vint, hs.eint, hs.fint⟩
  · intro i
    obtain ⟨p, h1, h2⟩ := hs.vtx i
    exact ⟨p, h1, hin.v.xyz _ _ _ h2⟩
  · intro i i' p h1 h2
    exact Fin.ext (hin.v.inj ((hs.vrel i p).mp h1) ((hs.vrel i' p).mp h2))
  · rw [hs.nf, ← h.list, List.length_map]
  · rw [hs.nr, hin.nors]; rfl
  · intro i
    obtain ⟨p, h1, h2⟩ := hs.face i
    rw [h1, ← h.list, List.getElem?_map, h2]; rfl
  · intro i p hp
    obtain ⟨p', h1, h2⟩ := hs.face i
    have : p' = p := Option.some.inj (h1.symm.trans hp)
    subst this
    have h3 := hin.face _ _ (List.mem_of_getElem? h2)
    rw [List.forall₂_map_right_iff] at h3
    symm
    exact forall₂_map_eq (h3.imp fun q r hq => Prod.ext_iff.mpr ⟨((hs.erel r.1 q.1).mpr hq.1).symm, hq.2.symm⟩)
  · intro e
    obtain ⟨p, h1, _⟩ := ehas e
    obtain ⟨r, hr, hf⟩ := h.eused p e.val ((hs.erel e p).mp h1)
    rw [← h.list, List.mem_map] at hr
    obtain ⟨⟨l', r'⟩, hm, rfl⟩ := hr
    obtain ⟨k, hk, e1⟩ := List.mem_iff_getElem.mp hm
    have hkl : k < b.mesh.nf := by rw [hs.nf]; exact hk
    refine ⟨⟨k, hkl⟩, ?_⟩
    obtain ⟨p', h3, h4⟩ := hs.face ⟨k, hkl⟩
    dsimp only at h4
    rw [List.getElem?_eq_getElem hk, e1] at h4
    obtain ⟨e2, _⟩ := Prod.mk.inj (Option.some.inj h4)
    have h5 := hin.face l' r' hm
    obtain ⟨q, hq, rfl⟩ := List.mem_map.mp (show p ∈ (m.face r').edges.map Prod.fst from hf)
    obtain ⟨u, hu, hfu⟩ := forall₂_mem_left h5 hq
    rw [e2, List.mem_map] at hu
    obtain ⟨w, hw, rfl⟩ := hu
    refine List.mem_map.mpr ⟨w, hw, ?_⟩
    exact einj _ _ _ ((hs.erel w.1 q.1).mpr hfu.1) h1
  · intro v
    obtain ⟨q, oe, hm, hq⟩ := hin.vused v.val (by rw [← hs.nv]; exact v.isLt)
    obtain ⟨k, hk, e1⟩ := List.mem_iff_getElem.mp hm
    have hkl : k < b.mesh.ne := by rw [hs.ne]; exact hk
    have h4 := hs.edge ⟨k, hkl⟩
    dsimp only at h4
    rw [List.getElem?_eq_getElem hk, e1] at h4
    obtain ⟨e2, _⟩ := Prod.mk.inj (Option.some.inj h4)
    refine ⟨⟨k, hkl⟩, ?_⟩
    rw [e2] at hq
    rcases hq with hq | hq
    · exact Or.inl (Fin.ext hq.symm)
    · exact Or.inr (Fin.ext hq.symm)

/-- the vertices around a copied face -/
theorem IsCopy2.verts [Zero α] {xyz : Fin m.nv → Xyz α} {flatten : Bool} {l : List (Fin m.nf)} {b : Built m α}
    (h : IsCopy2 xyz flatten l b) {i : Fin b.mesh.nf} {p : Fin m.nf} (hp : b.fpar i = some p) :
    (b.mesh.mfVertices (b.mesh.face i) true).map b.vpar = (m.mfVertices (m.face p) true).map some := by
  have h1 := h.edges i p hp
  rw [mfVertices_true, mfVertices_true, List.map_map, List.map_map]
  have h2 : (b.mesh.face i).edges.map (b.vpar ∘ b.mesh.start) =
      ((b.mesh.face i).edges.map fun q => (b.epar q.1, q.2)).map fun q => q.1.map fun e => m.start (e, q.2) := by
    rw [List.map_map]
    apply List.map_congr_left
    intro q _
    obtain ⟨e, e1, e2, e3⟩ := h.ehas q.1
    simp only [Function.comp, e1, Option.map_some]
    unfold MMesh.start
    dsimp only
    split
    · exact e2
    · exact e3
  rw [h2, h1, List.map_map]
  rfl

end Jali.Mstk
