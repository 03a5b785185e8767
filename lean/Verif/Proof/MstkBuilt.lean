import Verif.Proof.MstkExtract2
/- The mesh behind a finished copy. -/
namespace Jali.Mstk

variable {m : MMesh} {α : Type}

theorem mapM_exists {β γ : Type} {f : β → Option γ} : ∀ {l : List β}, (∀ a ∈ l, ∃ b, f a = some b) →
    ∃ l', l.mapM f = some l' ∧ List.Forall₂ (fun a b => f a = some b) l l' := by
  intro l
  induction l with
  | nil => intro _; exact ⟨[], rfl, .nil⟩
  | cons a l ih =>
    intro h
    obtain ⟨b, hb⟩ := h a List.mem_cons_self
    obtain ⟨l', hl, h2⟩ := ih fun c hc => h c (List.mem_cons_of_mem _ hc)
    exact ⟨b :: l', by rw [List.mapM_cons, hb, hl]; rfl, .cons hb h2⟩

theorem toHandle_lt {n k : Nat} (h : k < n) : toHandle n k = some ⟨k, h⟩ := by unfold toHandle; rw [dif_pos h]

theorem toHandle_eq {n k : Nat} {i : Fin n} (h : toHandle n k = some i) : i.val = k := by
  unfold toHandle at h
  split at h
  · rw [← Option.some.inj h]
  · cases h

/-- the mesh, in terms of the lists it was built from -/
structure BuiltFrom (s : Copy m α) (b : Built m α) : Prop where
  nv : b.mesh.nv = s.vs.length
  ne : b.mesh.ne = s.es.length
  nf : b.mesh.nf = s.fs.length
  nr : b.mesh.nr = s.rs.length
  vtx : ∀ i : Fin b.mesh.nv, ∃ p, b.vpar i = some p ∧ s.vs[i.val]? = some (p, b.xyz i)
  edge : ∀ i : Fin b.mesh.ne, s.es[i.val]? = some (((b.mesh.edge i).v0.val, (b.mesh.edge i).v1.val), b.epar i)
  face : ∀ i : Fin b.mesh.nf, ∃ p, b.fpar i = some p ∧
    s.fs[i.val]? = some ((b.mesh.face i).edges.map fun q => (q.1.val, q.2), p)
  region : ∀ i : Fin b.mesh.nr, ∃ p, b.rpar i = some p ∧
    s.rs[i.val]? = some ((b.mesh.region i).faces.map fun q => (q.1.val, q.2), p)
  vint : ∀ i, b.mesh.vtx i = ⟨.interior, 0⟩
  eint : ∀ i, (b.mesh.edge i).ptype = .interior
  fint : ∀ i, (b.mesh.face i).ptype = .interior ∧ (b.mesh.face i).bndryGhost = false
  rint : ∀ i, (b.mesh.region i).ptype = .interior ∧ (b.mesh.region i).bndryGhost = false

theorem mapM_handles {n : Nat} {l : List (Nat × Bool)} (h : ∀ p ∈ l, p.1 < n) :
    ∃ l' : List (Fin n × Bool), (l.mapM fun p => (toHandle n p.1).map fun e => (e, p.2)) = some l' ∧
      l'.map (fun q => (q.1.val, q.2)) = l := by
  induction l with
  | nil => exact ⟨[], rfl, rfl⟩
  | cons a l ih =>
    obtain ⟨l', h1, h2⟩ := ih fun p hp => h p (List.mem_cons_of_mem _ hp)
    refine ⟨(⟨a.1, h a List.mem_cons_self⟩, a.2) :: l', ?_, ?_⟩
    · rw [List.mapM_cons, h1, toHandle_lt (h a List.mem_cons_self)]; rfl
    · rw [List.map_cons, h2]

theorem forall₂_get {β γ : Type} {R : β → γ → Prop} {l : List β} {l' : List γ} (h : List.Forall₂ R l l') (i : Nat) (hi : i < l'.length) :
    ∃ a, l[i]? = some a ∧ R a l'[i] := by
  have hi' : i < l.length := by rw [h.length_eq]; exact hi
  refine ⟨l[i], List.getElem?_eq_getElem hi', ?_⟩
  have := List.Forall₂.get h hi' hi
  exact this

theorem build_spec (s : Copy m α) (he : ∀ e ∈ s.es, e.1.1 < s.vs.length ∧ e.1.2 < s.vs.length)
    (hf : ∀ f ∈ s.fs, ∀ p ∈ f.1, p.1 < s.es.length) (hr : ∀ r ∈ s.rs, ∀ p ∈ r.1, p.1 < s.fs.length) :
    ∃ b, s.build = some b ∧ BuiltFrom s b := by
  unfold Copy.build
  obtain ⟨es, hes, es2⟩ := mapM_exists (l := s.es) (f := fun e => (toHandle s.vs.length e.1.1).bind fun a =>
    (toHandle s.vs.length e.1.2).map fun b =>
      (({ ptype := .interior, gid := 0, v0 := a, v1 := b } : Edge s.vs.length), e.2)) (by
    intro e hm
    obtain ⟨a, b⟩ := he e hm
    exact ⟨_, by rw [toHandle_lt a, toHandle_lt b]; rfl⟩)
  rw [hes, Option.bind_some]
  have les : es.length = s.es.length := es2.length_eq.symm
  obtain ⟨fs, hfs, fs2⟩ := mapM_exists (l := s.fs) (f := fun (f : List (Nat × Bool) × Fin m.nf) =>
    (f.1.mapM fun p => (toHandle es.length p.1).map fun e => (e, p.2)).map fun l =>
      (({ ptype := .interior, gid := 0, edges := l } : Face es.length), f.2)) (by
    intro f hm
    obtain ⟨l', h1, _⟩ := mapM_handles (n := es.length) (l := f.1) (by rw [les]; exact hf f hm)
    exact ⟨_, by rw [h1]; rfl⟩)
  rw [hfs, Option.bind_some]
  have lfs : fs.length = s.fs.length := fs2.length_eq.symm
  obtain ⟨rs, hrs, rs2⟩ := mapM_exists (l := s.rs) (f := fun (r : List (Nat × Bool) × Fin m.nr) =>
    (r.1.mapM fun p => (toHandle fs.length p.1).map fun f => (f, p.2)).map fun l =>
      (({ ptype := .interior, gid := 0, faces := l } : Region fs.length), r.2)) (by
    intro r hm
    obtain ⟨l', h1, _⟩ := mapM_handles (n := fs.length) (l := r.1) (by rw [lfs]; exact hr r hm)
    exact ⟨_, by rw [h1]; rfl⟩)
  rw [hrs, Option.map_some]
  have lrs : rs.length = s.rs.length := rs2.length_eq.symm
  have edge' : ∀ i : Fin es.length, s.es[i.val]? = some ((es[i].1.v0.val, es[i].1.v1.val), es[i].2) ∧
      es[i].1.ptype = .interior := by
    intro i
    obtain ⟨e, h1, h2⟩ := forall₂_get es2 i.val i.isLt
    obtain ⟨a, b⟩ := he e (List.mem_of_getElem? h1)
    rw [toHandle_lt a, Option.bind_some, toHandle_lt b, Option.map_some] at h2
    have h2 := Option.some.inj h2
    have : es[i] = es[i.val] := rfl
    rw [this, ← h2]
    exact ⟨h1, rfl⟩
  have face' : ∀ i : Fin fs.length, s.fs[i.val]? = some (fs[i].1.edges.map fun q => (q.1.val, q.2), fs[i].2) ∧
      fs[i].1.ptype = .interior ∧ fs[i].1.bndryGhost = false := by
    intro i
    obtain ⟨f, h1, h2⟩ := forall₂_get fs2 i.val i.isLt
    obtain ⟨l', k1, k2⟩ := mapM_handles (n := es.length) (l := f.1) (by rw [les]; exact hf f (List.mem_of_getElem? h1))
    rw [k1, Option.map_some] at h2
    have h2 := Option.some.inj h2
    have : fs[i] = fs[i.val] := rfl
    rw [this, ← h2]
    refine ⟨?_, rfl, rfl⟩
    rw [h1, k2]
  have region' : ∀ i : Fin rs.length, s.rs[i.val]? = some (rs[i].1.faces.map fun q => (q.1.val, q.2), rs[i].2) ∧
      rs[i].1.ptype = .interior ∧ rs[i].1.bndryGhost = false := by
    intro i
    obtain ⟨f, h1, h2⟩ := forall₂_get rs2 i.val i.isLt
    obtain ⟨l', k1, k2⟩ := mapM_handles (n := fs.length) (l := f.1) (by rw [lfs]; exact hr f (List.mem_of_getElem? h1))
    rw [k1, Option.map_some] at h2
    have h2 := Option.some.inj h2
    have : rs[i] = rs[i.val] := rfl
    rw [this, ← h2]
    refine ⟨?_, rfl, rfl⟩
    rw [h1, k2]
  refine ⟨_, rfl, ⟨rfl, les, lfs, lrs, ?_, fun i => (edge' i).1, ?_, ?_, fun _ => rfl, fun i => (edge' i).2, fun i => (face' i).2,
    fun i => (region' i).2⟩⟩
  · intro i
    exact ⟨s.vs[i.val].1, rfl, List.getElem?_eq_getElem i.isLt⟩
  · intro i; exact ⟨_, rfl, (face' i).1⟩
  · intro i; exact ⟨_, rfl, (region' i).1⟩

end Jali.Mstk
