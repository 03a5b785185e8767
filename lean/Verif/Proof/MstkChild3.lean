import Verif.Proof.MstkParent3
/- An extracted 3D mesh is a mesh. -/
namespace Jali.Mstk

/-- a closed walk through at least three different vertices uses no edge twice and no edge with one end -/
theorem walk_edges {m : MMesh} {l : List (Fin m.ne × Bool)} (hc : l.map m.finish = (l.map m.start).rotate 1)
    (hs : (l.map m.start).Nodup) (h3 : 3 ≤ l.length) :
    (l.map Prod.fst).Nodup ∧ ∀ e d, (e, d) ∈ l → (m.edge e).v0 ≠ (m.edge e).v1 := by
  have hpair : ∀ q ∈ l, (m.start q, m.finish q) ∈ cyclicPairs (l.map m.start) := by
    intro q hq
    unfold cyclicPairs
    rw [← hc, List.zip_map']
    exact List.mem_map.mpr ⟨q, hq, rfl⟩
  have h3' : 3 ≤ (l.map m.start).length := by rwa [List.length_map]
  have hne : ∀ q ∈ l, m.start q ≠ m.finish q := by
    intro q hq e
    have h1 := hpair q hq
    refine not_both_ways hs h3' h1 ?_
    rw [← e] at h1 ⊢
    exact h1
  constructor
  · have hl : l.Nodup := List.Nodup.of_map _ hs
    refine List.Nodup.map_on ?_ hl
    intro p hp q hq e
    by_cases hd : p.2 = q.2
    · exact Prod.ext e hd
    · exfalso
      refine not_both_ways hs h3' (hpair p hp) ?_
      have e1 : m.start p = m.finish q ∧ m.finish p = m.start q := by
        unfold MMesh.start MMesh.finish
        rw [e]
        cases hp2 : p.2 <;> cases hq2 : q.2 <;> simp_all
      rw [e1.1, e1.2]
      exact hpair q hq
  · intro e d hm h
    apply hne _ hm
    unfold MMesh.start MMesh.finish
    cases d <;> simp [h]

variable {α : Type} [Zero α] {src : Source α} {ids : List Nat} {x : Extracted src} {l : List (Fin src.j.m.nr)}

theorem FromCells.starts (h : FromCells src ids x l) {i : Fin x.j.m.nf} {p : Fin src.j.m.nf} (hp : x.built.fpar i = some p) :
    ((x.j.m.face i).edges.map x.j.m.start).map x.built.vpar = ((src.j.m.face p).edges.map src.j.m.start).map some :=
  h.copy.verts i p hp

theorem FromCells.polygons (h : FromCells src ids x l) (hp : src.j.m.Polygons) (h3 : ∀ f, 3 ≤ (src.j.m.face f).edges.length) :
    x.j.m.Polygons := by
  have hsimple : ∀ f, ((x.j.m.face f).edges.map x.j.m.start).Nodup := by
    intro f
    obtain ⟨p, hf⟩ := h.copy.fhas f
    have := (hp.simple p).map (Option.some_injective _)
    rw [← h.starts hf] at this
    exact List.Nodup.of_map _ this
  have hlen : ∀ f, 3 ≤ (x.j.m.face f).edges.length := by
    intro f
    obtain ⟨p, hf⟩ := h.copy.fhas f
    have := congrArg List.length (h.starts hf)
    simp only [List.length_map] at this
    rw [this]; exact h3 p
  refine ⟨?_, h.copy.closed, hsimple, fun f => (walk_edges (h.copy.closed f) (hsimple f) (hlen f)).1⟩
  intro e
  obtain ⟨f, d, hm⟩ := h.copy.eused e
  exact (walk_edges (h.copy.closed f) (hsimple f) (hlen f)).2 e d hm

theorem FromCells.regions (h : FromCells src ids x l) (hr : src.j.m.Regions) (hn : ids.Nodup) : x.j.m.Regions := by
  have hlt : ∀ r : Fin x.j.m.nr, r.val < l.length := fun r => by rw [← h.copy.nr]; exact r.isLt
  have hpar : ∀ r : Fin x.j.m.nr, x.built.rpar r = some (l[r.val]'(hlt r)) := fun r => by
    rw [h.copy.rpar, List.getElem?_eq_getElem (hlt r)]
  constructor
  · intro r
    have h1 := h.copy.faces r _ (hpar r)
    have h2 : ((x.j.m.region r).faces.map Prod.fst).map x.built.fpar = ((src.j.m.region (l[r.val]'(hlt r))).faces.map Prod.fst).map some := by
      have := congrArg (List.map Prod.fst) h1
      simpa [List.map_map, Function.comp_def] using this
    have h3 := (hr.noface (l[r.val]'(hlt r))).map (Option.some_injective _)
    rw [← h2] at h3
    exact List.Nodup.of_map _ h3
  · intro f d r r' h1 h2
    obtain ⟨p, hp⟩ := h.copy.fhas f
    have key : ∀ r : Fin x.j.m.nr, (f, d) ∈ (x.j.m.region r).faces → (p, d) ∈ (src.j.m.region (l[r.val]'(hlt r))).faces := by
      intro r hm
      have := List.mem_map_of_mem (f := fun q : Fin x.j.m.nf × Bool => (x.built.fpar q.1, q.2)) hm
      have h4 := h.copy.faces r _ (hpar r)
      rw [h4, List.mem_map] at this
      obtain ⟨q, hq, e⟩ := this
      obtain ⟨e1, e2⟩ := Prod.mk.inj e
      rw [hp] at e1
      have : q = (p, d) := Prod.ext (Option.some.inj e1) e2
      rwa [← this]
    have e := hr.sides p d _ _ (key r h1) (key r' h2)
    have hl : l.Nodup := by
      rw [h.ids] at hn
      exact List.Nodup.of_map _ hn
    exact Fin.ext ((List.Nodup.getElem_inj_iff hl).mp e)

end Jali.Mstk
