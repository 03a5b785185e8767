import Verif.Proof.MstkBuilt
import Verif.Proof.MstkOrient
/- What the extracted mesh has in common with its source. -/
namespace Jali.Mstk

variable {m : MMesh} {α : Type}

/-- the copy of a list of regions -/
structure IsCopy3 [Zero α] (xyz : Fin m.nv → Xyz α) (l : List (Fin m.nr)) (b : Built m α) : Prop where
  vhas : ∀ i, ∃ p, b.vpar i = some p ∧ b.xyz i = xyz p
  vinj : ∀ i i' p, b.vpar i = some p → b.vpar i' = some p → i = i'
  enone : ∀ i, b.epar i = none
  fhas : ∀ i, ∃ p, b.fpar i = some p
  finj : ∀ i i' p, b.fpar i = some p → b.fpar i' = some p → i = i'
  nr : b.mesh.nr = l.length
  rpar : ∀ i : Fin b.mesh.nr, b.rpar i = l[i.val]?
  verts : ∀ i p, b.fpar i = some p →
    (b.mesh.mfVertices (b.mesh.face i) true).map b.vpar = (m.mfVertices (m.face p) true).map some
  faces : ∀ i p, b.rpar i = some p →
    (b.mesh.region i).faces.map (fun q => (b.fpar q.1, q.2)) = (m.region p).faces.map fun q => (some q.1, q.2)
  closed : ∀ i, (b.mesh.face i).edges.map b.mesh.finish = ((b.mesh.face i).edges.map b.mesh.start).rotate 1
  dist : ∀ e e', ((b.mesh.edge e).v0 = (b.mesh.edge e').v0 ∧ (b.mesh.edge e).v1 = (b.mesh.edge e').v1) ∨
    ((b.mesh.edge e).v0 = (b.mesh.edge e').v1 ∧ (b.mesh.edge e).v1 = (b.mesh.edge e').v0) → e = e'
  eused : ∀ e, ∃ f d, (e, d) ∈ (b.mesh.face f).edges
  vused : ∀ v, ∃ f, v ∈ b.mesh.mfVertices (b.mesh.face f) true
  fused : ∀ f, ∃ r, f ∈ (b.mesh.region r).mrFaces
  vint : ∀ i, b.mesh.vtx i = ⟨.interior, 0⟩
  eint : ∀ i, (b.mesh.edge i).ptype = .interior
  fint : ∀ i, (b.mesh.face i).ptype = .interior ∧ (b.mesh.face i).bndryGhost = false
  rint : ∀ i, (b.mesh.region i).ptype = .interior ∧ (b.mesh.region i).bndryGhost = false


theorem nextPairs_fst (l : List Nat) : (nextPairs l).map Prod.fst = l := by
  unfold nextPairs
  apply List.map_fst_zip
  cases l <;> simp

theorem nextPairs_snd (l : List Nat) : (nextPairs l).map Prod.snd = l.rotate 1 := by
  unfold nextPairs
  rw [List.map_snd_zip]
  · cases l with
    | nil => rfl
    | cons a l => simp
  · cases l <;> simp

theorem BuiltFrom.vrel {s : Copy m α} {b : Built m α} (h : BuiltFrom s b) (i : Fin b.mesh.nv) (p : Fin m.nv) :
    b.vpar i = some p ↔ s.VRel p i.val := by
  obtain ⟨q, h1, h2⟩ := h.vtx i
  unfold Copy.VRel
  rw [h1, h2, Option.map_some]

theorem BuiltFrom.frel {s : Copy m α} {b : Built m α} (h : BuiltFrom s b) (i : Fin b.mesh.nf) (p : Fin m.nf) :
    b.fpar i = some p ↔ s.FRel p i.val := by
  obtain ⟨q, h1, h2⟩ := h.face i
  unfold Copy.FRel
  rw [h1, h2, Option.map_some]

theorem BuiltFrom.erel {s : Copy m α} {b : Built m α} (h : BuiltFrom s b) (i : Fin b.mesh.ne) (p : Fin m.ne) :
    b.epar i = some p ↔ s.ERel p i.val := by
  unfold Copy.ERel
  rw [h.edge i, Option.map_some]
  simp

theorem forall₂_map_eq {β γ δ : Type} {l : List β} {l' : List γ} {g : β → δ} {g' : γ → δ}
    (h : List.Forall₂ (fun a b => g a = g' b) l l') : l.map g = l'.map g' := by
  induction h with
  | nil => rfl
  | cons h _ ih => rw [List.map_cons, List.map_cons, h, ih]

/-- the walk around a copied face -/
theorem face_walk {s : Copy m α} {b : Built m α} (h : BuiltFrom s b) {ks : List Nat} {es : List (Fin b.mesh.ne × Bool)}
    (hu : List.Forall₂ s.Use (nextPairs ks) (es.map fun q => (q.1.val, q.2))) :
    (es.map b.mesh.start).map Fin.val = ks ∧ (es.map b.mesh.finish).map Fin.val = ks.rotate 1 := by
  have : es.map (fun q => ((b.mesh.start q).val, (b.mesh.finish q).val)) = nextPairs ks := by
    rw [List.forall₂_map_right_iff] at hu
    symm
    have := forall₂_map_eq (g := id) (g' := fun q => ((b.mesh.start q).val, (b.mesh.finish q).val)) (hu.imp (by
      intro p q hpq
      unfold Copy.Use at hpq
      dsimp only at hpq
      rw [h.edge q.1, Option.map_some] at hpq
      have hpq := Option.some.inj hpq
      unfold MMesh.start MMesh.finish
      cases hq : q.2
      · rw [hq] at hpq
        obtain ⟨a, c⟩ := Prod.mk.inj hpq
        exact Prod.ext_iff.mpr ⟨c.symm, a.symm⟩
      · rw [hq] at hpq
        exact hpq.symm))
    rwa [List.map_id] at this
  constructor
  · rw [← nextPairs_fst ks, ← this, List.map_map, List.map_map]; rfl
  · rw [← nextPairs_snd ks, ← this, List.map_map, List.map_map]; rfl

theorem isCopy3 [Zero α] (xyz : Fin m.nv → Xyz α) (l : List (Fin m.nr)) :
    ∃ b, (l.foldl (copyRegion xyz) ({} : Copy m α)).build = some b ∧ IsCopy3 xyz l b := by
  have h := copyRegions_spec (α := α) xyz l
  generalize l.foldl (copyRegion xyz) ({} : Copy m α) = s at h
  have hin := h.inv
  obtain ⟨b, hb, hs⟩ := build_spec s hin.e.ends (by
      intro f hf p hp
      obtain ⟨ks, _, h2⟩ := hin.face f.1 f.2 hf
      obtain ⟨q, _, hq⟩ := forall₂_mem_right h2 hp
      exact hq.lt) (by
      intro r hr p hp
      obtain ⟨q, _, hq⟩ := forall₂_mem_right (hin.region r.1 r.2 hr) hp
      exact hq.1.lt)
  have key : ∀ i p, b.fpar i = some p → ∃ ks, List.Forall₂ s.VRel (m.mfVertices (m.face p) true) ks ∧
      ((b.mesh.face i).edges.map b.mesh.start).map Fin.val = ks ∧
      ((b.mesh.face i).edges.map b.mesh.finish).map Fin.val = ks.rotate 1 := by
    intro i p hp
    obtain ⟨p', h1, h2⟩ := hs.face i
    have : p' = p := Option.some.inj (h1.symm.trans hp)
    subst this
    obtain ⟨ks, k1, k2⟩ := hin.face _ _ (List.mem_of_getElem? h2)
    exact ⟨ks, k1, face_walk hs k2⟩
  have rpar : ∀ i : Fin b.mesh.nr, b.rpar i = l[i.val]? := by
    intro i
    obtain ⟨p, h1, h2⟩ := hs.region i
    rw [h1, ← h.list, List.getElem?_map, h2]; rfl
  have getf : ∀ l f, (l, f) ∈ s.fs → ∃ i : Fin b.mesh.nf, b.fpar i = some f ∧
      ((b.mesh.face i).edges.map fun q => (q.1.val, q.2)) = l := by
    intro l f hm
    obtain ⟨k, hk, e⟩ := List.mem_iff_getElem.mp hm
    obtain ⟨p, h1, h2⟩ := hs.face ⟨k, by rw [hs.nf]; exact hk⟩
    refine ⟨⟨k, by rw [hs.nf]; exact hk⟩, ?_⟩
    dsimp only at h2
    rw [List.getElem?_eq_getElem hk, e] at h2
    obtain ⟨a, c⟩ := Prod.mk.inj (Option.some.inj h2)
    exact ⟨by rw [h1, c], a.symm⟩
  refine ⟨b, hb, ?_, ?_, ?_, ?_, ?_, ?_, rpar, ?_, ?_, ?_, ?_, ?_, ?_, ?_, hs.vint, hs.eint, hs.fint, hs.rint⟩
  · intro i
    obtain ⟨p, h1, h2⟩ := hs.vtx i
    exact ⟨p, h1, hin.v.xyz _ _ _ h2⟩
  · intro i i' p h1 h2
    exact Fin.ext (hin.v.inj ((hs.vrel i p).mp h1) ((hs.vrel i' p).mp h2))
  · intro i
    exact hin.e.nopar _ (List.mem_of_getElem? (hs.edge i))
  · intro i
    obtain ⟨p, h1, _⟩ := hs.face i
    exact ⟨p, h1⟩
  · intro i i' p h1 h2
    have e1 := (hin.cf p _).mpr ((hs.frel i p).mp h1)
    have e2 := (hin.cf p _).mpr ((hs.frel i' p).mp h2)
    exact Fin.ext (Option.some.inj (e1.symm.trans e2))
  · rw [hs.nr, ← h.list, List.length_map]
  · intro i p hp
    obtain ⟨ks, k1, k2, _⟩ := key i p hp
    rw [mfVertices_true]
    have k3 : List.Forall₂ (fun v (k : Fin b.mesh.nv) => s.VRel v k.val) (m.mfVertices (m.face p) true)
        ((b.mesh.face i).edges.map b.mesh.start) := by
      rw [← k2, List.forall₂_map_right_iff] at k1; exact k1
    symm
    exact forall₂_map_eq (k3.imp fun v k hv => ((hs.vrel k v).mpr hv).symm)
  · intro i p hp
    obtain ⟨p', h1, h2⟩ := hs.region i
    have : p' = p := Option.some.inj (h1.symm.trans hp)
    subst this
    have h3 := hin.region _ _ (List.mem_of_getElem? h2)
    rw [List.forall₂_map_right_iff] at h3
    symm
    exact forall₂_map_eq (h3.imp fun q r hq => Prod.ext_iff.mpr ⟨((hs.frel r.1 q.1).mpr hq.1).symm, hq.2.symm⟩)
  · intro i
    obtain ⟨p, h1, _⟩ := hs.face i
    obtain ⟨ks, k1, k2, k3⟩ := key i p h1
    rw [← k2, ← List.map_rotate] at k3
    exact List.map_injective_iff.mpr Fin.val_injective k3
  · intro e e' hh
    apply Fin.ext
    refine hin.e.dist e.val e'.val _ _ (hs.edge e) (hs.edge e') ?_
    dsimp only
    rcases hh with ⟨h1, h2⟩ | ⟨h1, h2⟩
    · left; rw [h1, h2]
    · right; rw [h1, h2]
  · intro e
    obtain ⟨l, f, hm, d, hd⟩ := hin.eused e.val (by rw [← hs.ne]; exact e.isLt)
    obtain ⟨i, _, h2⟩ := getf l f hm
    rw [← h2, List.mem_map] at hd
    obtain ⟨q, hq, e2⟩ := hd
    obtain ⟨a, c⟩ := Prod.mk.inj e2
    have : q.1 = e := Fin.ext a
    exact ⟨i, q.2, by rw [← this]; exact hq⟩
  · intro v
    obtain ⟨l, f, hm, w, hw, hr⟩ := hin.vused v.val (by rw [← hs.nv]; exact v.isLt)
    obtain ⟨i, h1, h2⟩ := getf l f hm
    obtain ⟨ks, k1, k2, _⟩ := key i f h1
    obtain ⟨k, hk, hr'⟩ := forall₂_mem_left k1 hw
    have : k = v.val := hin.v.inj hr' hr
    rw [this, ← k2, List.mem_map] at hk
    obtain ⟨v', hv', e⟩ := hk
    refine ⟨i, ?_⟩
    rw [mfVertices_true, ← Fin.ext e]; exact hv'
  · intro f
    obtain ⟨p, h1, _⟩ := hs.face f
    obtain ⟨r, hr, hf⟩ := h.fused p f.val ((hs.frel f p).mp h1)
    rw [← h.list, List.mem_map] at hr
    obtain ⟨⟨l', r'⟩, hm, rfl⟩ := hr
    obtain ⟨k, hk, e⟩ := List.mem_iff_getElem.mp hm
    have hkl : k < b.mesh.nr := by rw [hs.nr]; exact hk
    refine ⟨⟨k, hkl⟩, ?_⟩
    obtain ⟨p', h3, h4⟩ := hs.region ⟨k, hkl⟩
    dsimp only at h4
    rw [List.getElem?_eq_getElem hk, e] at h4
    obtain ⟨e1, e2⟩ := Prod.mk.inj (Option.some.inj h4)
    have h5 := hin.region l' r' hm
    unfold Region.mrFaces at hf ⊢
    obtain ⟨q, hq, rfl⟩ := List.mem_map.mp hf
    obtain ⟨u, hu, hfu⟩ := forall₂_mem_left h5 hq
    rw [e1, List.mem_map] at hu
    obtain ⟨w, hw, rfl⟩ := hu
    refine List.mem_map.mpr ⟨w, hw, ?_⟩
    apply Fin.ext
    have a1 := (hin.cf q.1 _).mpr hfu.1
    have a2 := (hin.cf q.1 _).mpr ((hs.frel f q.1).mp h1)
    exact Option.some.inj (a1.symm.trans a2)

end Jali.Mstk
