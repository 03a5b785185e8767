import Verif.Model.MstkOrdered
import Verif.Spec.MstkCells
import Verif.Proof.MstkQueries
import Mathlib.Data.List.Perm.Subperm
/- Lemmas about the faces of closed cells. -/
namespace Jali.Mstk

variable {m : MMesh} {r : Region m.nf}

theorem mem_mfEdges (f : Face m.ne) (d : Bool) (e : Fin m.ne) : e ∈ f.mfEdges d ↔ e ∈ f.edges.map Prod.fst := by
  unfold Face.mfEdges; cases d <;> simp

theorem length_mfEdges (f : Face m.ne) (d : Bool) : (f.mfEdges d).length = f.edges.length := by
  unfold Face.mfEdges; cases d <;> simp

theorem nodup_mfEdges {f : Face m.ne} (h : (f.edges.map Prod.fst).Nodup) (d : Bool) : (f.mfEdges d).Nodup := by
  unfold Face.mfEdges; cases d
  · rw [if_neg (by simp)]; exact List.nodup_reverse.mpr h
  · exact h

theorem mfVertices_length (f : Face m.ne) (d : Bool) : (m.mfVertices f d).length = f.edges.length := by
  unfold MMesh.mfVertices; cases d <;> simp

/-- in a list with different faces, the face determines the entry -/
theorem entry_eq (h : (r.faces.map Prod.fst).Nodup) {p q : Fin m.nf × Bool} (hp : p ∈ r.faces) (hq : q ∈ r.faces)
    (e : p.1 = q.1) : p = q := List.inj_on_of_nodup_map h hp hq e

/-- the inner loop, for an edge with exactly one further face -/
theorem lateral_inner (face0 : Fin m.nf) (fe : Fin m.ne) (q : Fin m.nf × Bool) :
    ∀ (l : List (Fin m.nf × Bool)) (s : List (Fin m.nf × Bool)), (l.map Prod.fst).Nodup →
    (∀ p ∈ l, (p.1 ≠ face0 ∧ fe ∈ (m.face p.1).mfEdges true) → p = q) →
    (q ∈ l → q.1 ≠ face0 ∧ fe ∈ (m.face q.1).mfEdges true) → q.1 ∉ s.map Prod.fst →
    l.foldl (fun s p => if p.1 ≠ face0 ∧ p.1 ∉ s.map Prod.fst ∧ fe ∈ (m.face p.1).mfEdges true then s ++ [p] else s) s =
      if q ∈ l then s ++ [q] else s := by
  intro l
  induction l with
  | nil => intro s _ _ _ _; simp
  | cons a l ih =>
    intro s hnd hun hq hs
    rw [List.map_cons, List.nodup_cons] at hnd
    rw [List.foldl_cons]
    by_cases ha : a = q
    · subst ha
      have hc := hq List.mem_cons_self
      have hnl : a ∉ l := fun h => hnd.1 (List.mem_map_of_mem h)
      rw [if_pos ⟨hc.1, hs, hc.2⟩, if_pos List.mem_cons_self]
      -- nothing else is added
      have : ∀ (l' : List (Fin m.nf × Bool)) (s' : List (Fin m.nf × Bool)), (∀ p ∈ l', p ∈ l) →
          l'.foldl (fun s p => if p.1 ≠ face0 ∧ p.1 ∉ s.map Prod.fst ∧ fe ∈ (m.face p.1).mfEdges true then s ++ [p] else s) s' = s' := by
        intro l'
        induction l' with
        | nil => intro s' _; rfl
        | cons b l' ih' =>
          intro s' hb
          rw [List.foldl_cons, if_neg]
          · exact ih' s' fun p hp => hb p (List.mem_cons_of_mem _ hp)
          · rintro ⟨h1, _, h2⟩
            have hbl := hb b List.mem_cons_self
            have := hun b (List.mem_cons_of_mem _ hbl) ⟨h1, h2⟩
            rw [this] at hbl
            exact hnl hbl
      exact this l _ fun p hp => hp
    · rw [if_neg, ih s hnd.2 (fun p hp => hun p (List.mem_cons_of_mem _ hp)) (fun h => hq (List.mem_cons_of_mem _ h)) hs]
      · have : q ∈ a :: l ↔ q ∈ l := by
          rw [List.mem_cons]; exact ⟨fun h => h.resolve_left fun e => ha e.symm, Or.inr⟩
        simp only [this]
      · rintro ⟨h1, _, h2⟩
        exact ha (hun a List.mem_cons_self ⟨h1, h2⟩)

/-- the lateral faces, one for each edge of the base -/
theorem lateral_outer (hnf : (r.faces.map Prod.fst).Nodup) (face0 : Fin m.nf) (P : Fin m.ne → Fin m.nf × Bool) :
    ∀ (es : List (Fin m.ne)) (s : List (Fin m.nf × Bool)),
    (∀ e ∈ es, P e ∈ r.faces ∧ (P e).1 ≠ face0 ∧ e ∈ (m.face (P e).1).mfEdges true ∧
      ∀ p ∈ r.faces, p.1 ≠ face0 → e ∈ (m.face p.1).mfEdges true → p = P e) →
    ((s ++ es.map P).map Prod.fst).Nodup →
    es.foldl (m.lateralStep r face0) s = s ++ es.map P := by
  intro es
  induction es with
  | nil => intro s _ _; simp
  | cons e es ih =>
    intro s h hnd
    obtain ⟨h1, h2, h3, h4⟩ := h e List.mem_cons_self
    rw [List.foldl_cons]
    have hs : (P e).1 ∉ s.map Prod.fst := by
      rw [List.map_append, List.nodup_append] at hnd
      intro hm
      exact hnd.2.2 _ hm _ (by simp) rfl
    have e1 : m.lateralStep r face0 s e = s ++ [P e] := by
      unfold MMesh.lateralStep
      rw [lateral_inner face0 e (P e) r.faces s hnf (fun p hp hc => h4 p hp hc.1 hc.2) (fun _ => ⟨h2, h3⟩) hs, if_pos h1]
    rw [e1, ih _ (fun x hx => h x (List.mem_cons_of_mem _ hx)) (by simpa using hnd)]
    simp

/-- the other face of the cell at an edge -/
theorem ClosedCell.other (hc : m.ClosedCell r) {b : Fin m.nf × Bool} (hb : b ∈ r.faces) :
    ∃ P : Fin m.ne → Fin m.nf × Bool, ∀ e ∈ (m.face b.1).edges.map Prod.fst, P e ∈ r.faces ∧ P e ≠ b ∧
      e ∈ (m.face (P e).1).edges.map Prod.fst ∧
      ∀ p ∈ r.faces, p ≠ b → e ∈ (m.face p.1).edges.map Prod.fst → p = P e := by
  classical
  have key : ∀ e, ∃ q, e ∈ (m.face b.1).edges.map Prod.fst → q ∈ r.faces ∧ q ≠ b ∧ e ∈ (m.face q.1).edges.map Prod.fst ∧
      ∀ p ∈ r.faces, p ≠ b → e ∈ (m.face p.1).edges.map Prod.fst → p = q := by
    intro e
    by_cases he : e ∈ (m.face b.1).edges.map Prod.fst
    · obtain ⟨q, h1, h2, h3, h4⟩ := hc.closed b hb e he
      exact ⟨q, fun _ => ⟨h1, h2, h3, h4⟩⟩
    · exact ⟨b, fun h => absurd h he⟩
  choose P hP using key
  exact ⟨P, hP⟩

/-- the lateral faces of a closed cell: for each edge of the base the other face, all different, none the base -/
theorem lateral_eq (hc : m.ClosedCell r) {b : Fin m.nf × Bool} (hb : b ∈ r.faces) :
    ∃ P : Fin m.ne → Fin m.nf × Bool, m.lateral r b = ((m.face b.1).mfEdges (!b.2)).map P ∧
      (∀ e ∈ (m.face b.1).edges.map Prod.fst, P e ∈ r.faces ∧ P e ≠ b ∧ e ∈ (m.face (P e).1).edges.map Prod.fst) ∧
      (m.lateral r b ++ [b]).Nodup ∧ (∀ p ∈ m.lateral r b ++ [b], p ∈ r.faces) ∧
      ∀ p ∈ r.faces, p ∉ m.lateral r b ++ [b] → ∀ e ∈ (m.face b.1).edges.map Prod.fst, e ∉ (m.face p.1).edges.map Prod.fst := by
  obtain ⟨P, hP⟩ := ClosedCell.other hc hb
  have inj : ∀ e ∈ (m.face b.1).mfEdges (!b.2), ∀ e' ∈ (m.face b.1).mfEdges (!b.2), P e = P e' → e = e' := by
    intro e he e' he' h
    rw [mem_mfEdges] at he he'
    obtain ⟨h1, h2, h3, _⟩ := hP e he
    obtain ⟨_, _, h3', _⟩ := hP e' he'
    rw [← h] at h3'
    exact hc.oneedge b hb (P e) h1 (fun x => h2 x.symm) e e' he h3 he' h3'
  have nd : (((m.face b.1).mfEdges (!b.2)).map P).Nodup :=
    List.Nodup.map_on inj (nodup_mfEdges (hc.noedge b hb) _)
  have sub : ∀ p ∈ ((m.face b.1).mfEdges (!b.2)).map P, p ∈ r.faces := by
    intro p hp
    obtain ⟨e, he, rfl⟩ := List.mem_map.mp hp
    exact (hP e ((mem_mfEdges _ _ _).mp he)).1
  have ndf : ((((m.face b.1).mfEdges (!b.2)).map P).map Prod.fst).Nodup :=
    List.Nodup.map_on (fun p hp q hq e => entry_eq hc.noface (sub p hp) (sub q hq) e) nd
  have eq : m.lateral r b = ((m.face b.1).mfEdges (!b.2)).map P := by
    unfold MMesh.lateral
    rw [lateral_outer hc.noface b.1 P _ []]
    · simp
    · intro e he
      rw [mem_mfEdges] at he
      obtain ⟨h1, h2, h3, h4⟩ := hP e he
      refine ⟨h1, fun x => h2 (entry_eq hc.noface h1 hb x), (mem_mfEdges _ _ _).mpr h3, ?_⟩
      intro p hp hne hm
      exact h4 p hp (fun x => hne (x ▸ rfl)) ((mem_mfEdges _ _ _).mp hm)
    · simpa using ndf
  refine ⟨P, eq, fun e he => ⟨(hP e he).1, (hP e he).2.1, (hP e he).2.2.1⟩, ?_, ?_, ?_⟩
  · rw [eq, List.nodup_append]
    refine ⟨nd, by simp, ?_⟩
    intro x hx y hy
    rw [List.mem_singleton] at hy
    subst hy
    obtain ⟨e, he, rfl⟩ := List.mem_map.mp hx
    exact (hP e ((mem_mfEdges _ _ _).mp he)).2.1
  · intro p hp
    rw [eq, List.mem_append, List.mem_singleton] at hp
    rcases hp with hp | rfl
    · exact sub p hp
    · exact hb
  · intro p hp hn e he hpe
    apply hn
    rw [List.mem_append, List.mem_singleton]
    by_cases h : p = b
    · exact Or.inr h
    · left
      rw [eq, (hP e he).2.2.2 p hp h hpe]
      exact List.mem_map_of_mem ((mem_mfEdges _ _ _).mpr he)

/-- a face has fewer edges than the cell has faces -/
theorem edges_lt_faces (hc : m.ClosedCell r) {b : Fin m.nf × Bool} (hb : b ∈ r.faces) :
    (m.face b.1).edges.length + 1 ≤ r.faces.length := by
  obtain ⟨P, h1, _, h3, h4, _⟩ := lateral_eq hc hb
  have := (List.subperm_of_subset h3 h4).length_le
  rw [h1] at this
  simpa [length_mfEdges] using this

/-- the ordered list is a rearrangement of the faces, if the base has one or two edges fewer than the cell has faces -/
theorem orderFaces_perm (hc : m.ClosedCell r) {b : Fin m.nf × Bool} (hb : b ∈ r.faces)
    (hn : r.faces.length ≤ (m.face b.1).edges.length + 2) :
    (m.orderFaces r b).Perm r.faces ∧
      ((m.topFace r b = none ∧ r.faces.length = (m.face b.1).edges.length + 1) ∨
       ∃ t, m.topFace r b = some t ∧ r.faces.length = (m.face b.1).edges.length + 2 ∧
         ∀ e ∈ (m.face b.1).edges.map Prod.fst, e ∉ (m.face t.1).edges.map Prod.fst) := by
  obtain ⟨P, h1, h2, h3, h4, h5⟩ := lateral_eq hc hb
  have hlen : (m.lateral r b ++ [b]).length = (m.face b.1).edges.length + 1 := by rw [h1]; simp [length_mfEdges]
  have hge := edges_lt_faces hc hb
  have hsub := List.subperm_of_subset h3 h4
  have htop : ∀ p ∈ r.faces, (p.1 ≠ b.1 ∧ p.1 ∉ (m.lateral r b).map Prod.fst) ↔ p ∉ m.lateral r b ++ [b] := by
    intro p hp
    rw [List.mem_append, List.mem_singleton, not_or]
    constructor
    · rintro ⟨g1, g2⟩; exact ⟨fun h => g2 (List.mem_map_of_mem h), fun h => g1 (h ▸ rfl)⟩
    · rintro ⟨g1, g2⟩
      refine ⟨fun h => g2 (entry_eq hc.noface hp hb h), fun h => ?_⟩
      obtain ⟨q, hq, e⟩ := List.mem_map.mp h
      rw [entry_eq hc.noface hp (h4 q (List.mem_append_left _ hq)) e.symm] at g1
      exact g1 hq
  have ndr : r.faces.Nodup := hc.noface.of_map _
  cases ht : m.topFace r b with
  | none =>
    have hall : ∀ p ∈ r.faces, p ∈ m.lateral r b ++ [b] := by
      intro p hp
      unfold MMesh.topFace at ht
      rw [List.find?_eq_none] at ht
      by_contra hn'
      exact absurd ((htop p hp).mpr hn') (by simpa using ht p hp)
    have hle := (List.subperm_of_subset ndr hall).length_le
    refine ⟨?_, Or.inl ⟨rfl, by omega⟩⟩
    unfold MMesh.orderFaces
    rw [ht, Option.toList_none, List.append_nil]
    exact hsub.perm_of_length_le hle
  | some t =>
    have hmem : t ∈ r.faces := List.mem_of_find?_eq_some ht
    have hcond : t.1 ≠ b.1 ∧ t.1 ∉ (m.lateral r b).map Prod.fst := by simpa using List.find?_some ht
    have hnt := (htop t hmem).mp hcond
    have nd3 : (m.lateral r b ++ [b] ++ [t]).Nodup := by
      rw [List.nodup_append]
      refine ⟨h3, by simp, ?_⟩
      intro x hx y hy
      rw [List.mem_singleton] at hy
      subst hy
      rintro rfl
      exact hnt hx
    have sub3 : ∀ p ∈ m.lateral r b ++ [b] ++ [t], p ∈ r.faces := by
      intro p hp
      rw [List.mem_append, List.mem_singleton] at hp
      rcases hp with hp | rfl
      · exact h4 p hp
      · exact hmem
    have sp := List.subperm_of_subset nd3 sub3
    have l3 : (m.lateral r b ++ [b] ++ [t]).length = (m.face b.1).edges.length + 2 := by
      rw [List.length_append, hlen]; rfl
    have hle := sp.length_le
    refine ⟨?_, Or.inr ⟨t, rfl, by omega, fun e he => h5 t hmem hnt e he⟩⟩
    unfold MMesh.orderFaces
    rw [ht]
    exact sp.perm_of_length_le (by omega)

end Jali.Mstk
