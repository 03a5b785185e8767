import Verif.Props.MeshSetHistory
/-! `add_entities` on a set whose ALL list is in any order, and on a new set. -/
namespace Jali.MSet

/-- same name, mesh, kind and choice of reverse map -/
structure SameId (s s' : Obj) : Prop where
  name : s'.name = s.name
  mesh : s'.mesh = s.mesh
  kind : s'.kind = s.kind
  haveMap : s'.haveMap = s.haveMap

theorem SameId.refl (s : Obj) : SameId s s := ⟨rfl, rfl, rfl, rfl⟩

theorem SameId.trans {a b c : Obj} (h : SameId a b) (h' : SameId b c) : SameId a c :=
  ⟨h'.1.trans h.1, h'.2.trans h.2, h'.3.trans h.3, h'.4.trans h.4⟩

theorem updMap_id {s s' : Obj} {e : Nat} {i : Int} (h : updMap s e i = .ok s') : SameId s s' := by
  unfold updMap at h
  repeat' split at h
  all_goals first
    | (cases h; done)
    | (cases h; exact ⟨rfl, rfl, rfl, rfl⟩)

theorem addEntity_id {m : MeshView} {s s' : Obj} {e : Nat} (h : addEntity m s e = .ok s') : SameId s s' := by
  unfold addEntity at h
  split at h
  · dsimp only at h
    split at h
    · have := updMap_id h
      exact ⟨this.1, this.2, this.3, this.4⟩
    · cases h
  · split at h
    · have := updMap_id h
      exact ⟨this.1, this.2, this.3, this.4⟩
    · cases h; exact .refl _

theorem addEach_id {m : MeshView} (es : List Nat) : ∀ {s s' : Obj}, addEach m es s = .ok s' → SameId s s' := by
  induction es with
  | nil => intro s s' h; cases h; exact .refl _
  | cons e es ih =>
    intro s s' h
    unfold addEach at h
    split at h
    · cases h
    · rename_i s1 h1
      exact (addEntity_id h1).trans (ih h)

theorem addEntities_id {m : MeshView} {s s' : Obj} {es : List Nat} (h : addEntities m s es = .ok s') :
    SameId s s' := by
  unfold addEntities at h
  split at h
  · cases h
  · rename_i s1 h1
    have h2 : SameId s s1 := by
      unfold addLists at h1
      split at h1
      · cases h1; exact ⟨rfl, rfl, rfl, rfl⟩
      · split at h1
        · cases h1
        · exact addEach_id es h1
    refine h2.trans ?_
    clear h1 h2
    dsimp only at h
    by_cases hg : s1.ghost.length ≠ 0
    · simp only [if_pos hg] at h
      repeat' split at h
      all_goals first
        | (cases h; done)
        | (cases h; exact ⟨rfl, rfl, rfl, rfl⟩)
    · simp only [if_neg hg] at h
      repeat' split at h
      all_goals first
        | (cases h; done)
        | (cases h; exact ⟨rfl, rfl, rfl, rfl⟩)

/-- a list of entities that may be added: not yet there, of the mesh, owned or ghost, not only ghosts -/
structure Addable (m : MeshView) (s : Obj) (es : List Nat) : Prop where
  nodup : es.Nodup
  absent : ∀ e ∈ es, e ∉ s.all
  bound : ∀ e ∈ es, e < m.nAll
  typed : ∀ e ∈ es, m.typeOf e = .PARALLEL_OWNED ∨ m.typeOf e = .PARALLEL_GHOST
  some_owned : es ≠ [] → ∃ e ∈ es, m.typeOf e = .PARALLEL_OWNED

theorem addEach_loose (m : MeshView) (es : List Nat) : ∀ s : Obj, Loose m s → es.Nodup →
    (∀ e ∈ es, e ∉ s.all ∧ e < m.nAll ∧ (m.typeOf e = .PARALLEL_OWNED ∨ m.typeOf e = .PARALLEL_GHOST)) →
    ∃ s', addEach m es s = .ok s' ∧ Loose m s' ∧
      s'.owned = s.owned ++ es.filter (fun e => m.typeOf e = .PARALLEL_OWNED) ∧
      s'.ghost = s.ghost ++ es.filter (fun e => m.typeOf e = .PARALLEL_GHOST) ∧
      s'.map.length = s.map.length ∧ ∀ e, e ∉ es → s'.map[e]? = s.map[e]? := by
  induction es with
  | nil => intro s hs _ _; exact ⟨s, rfl, hs, by simp, by simp, rfl, fun _ _ => rfl⟩
  | cons e es ih =>
    intro s hs hn h
    obtain ⟨hna, hb, ht⟩ := h e (by simp)
    rw [List.nodup_cons] at hn
    obtain ⟨s1, h1, h2, h3, h4, h5, h6, -, h8⟩ := addEntity_ok m s e hs hb ht hna
    obtain ⟨s', r1, r2, r3, r4, r5, r6⟩ := ih s1 h2 hn.2 (fun a ha => by
      obtain ⟨h1', h2', h3'⟩ := h a (by simp [ha])
      exact ⟨by rw [h3]; rintro (rfl | h'); exacts [hn.1 ha, h1' h'], h2', h3'⟩)
    refine ⟨s', by simp [addEach, h1, r1], r2, ?_, ?_, ?_, ?_⟩
    · rw [r3, h5]
      rcases ht with ht | ht <;> simp [ht]
    · rw [r4, h6]
      rcases ht with ht | ht <;> simp [ht]
    · rw [r5, h8]; split <;> simp
    · intro a ha
      simp only [List.mem_cons, not_or] at ha
      rw [r6 a ha.2, h8]
      split
      · rw [List.getElem?_set_ne (by omega)]
      · rfl

theorem filter_types {m : MeshView} {es : List Nat}
    (h : ∀ e ∈ es, m.typeOf e = .PARALLEL_OWNED ∨ m.typeOf e = .PARALLEL_GHOST) :
    (es.filter (fun e => decide (m.typeOf e = .PARALLEL_OWNED)) ++
      es.filter (fun e => decide (m.typeOf e = .PARALLEL_GHOST))).Perm es := by
  have : es.filter (fun e => decide (m.typeOf e = .PARALLEL_GHOST)) =
      es.filter (fun e => !decide (m.typeOf e = .PARALLEL_OWNED)) := by
    apply List.filter_congr
    intro e he
    rcases h e he with h | h <;> simp [h]
  rw [this]
  exact List.filter_append_perm _ es

/-- First half of `add_entities`: the lists (before the reverse map is updated). -/
theorem addLists_loose (m : MeshView) (s : Obj) (es : List Nat) (hs : Loose m s) (ha : Addable m s es) :
    ∃ s1, addLists m s es = .ok s1 ∧
      s1.owned = s.owned ++ es.filter (fun e => m.typeOf e = .PARALLEL_OWNED) ∧
      s1.ghost = s.ghost ++ es.filter (fun e => m.typeOf e = .PARALLEL_GHOST) ∧
      s1.haveMap = s.haveMap ∧ s1.map.length = s.map.length ∧ (∀ e, e ∉ es → s1.map[e]? = s.map[e]?) ∧
      (s1.ghost.length = 0 → s1.all = s.all) := by
  have hc : (∀ e ∈ es, m.typeOf e = .PARALLEL_OWNED) ∨
      (es.length ≠ countType m es .PARALLEL_OWNED ∧ es.length ≠ countType m es .PARALLEL_GHOST ∧
        ∃ e ∈ es, m.typeOf e = .PARALLEL_GHOST) := by
    by_cases hO : ∀ e ∈ es, m.typeOf e = .PARALLEL_OWNED
    · exact Or.inl hO
    · right
      simp only [Classical.not_forall] at hO
      obtain ⟨e, he, hne⟩ := hO
      have hg := (ha.typed e he).resolve_left hne
      refine ⟨fun hh => ?_, fun hh => ?_, e, he, hg⟩
      · have := List.countP_eq_length.1 hh.symm e he
        exact hne (by simpa using this)
      · obtain ⟨e', he', ho⟩ := ha.some_owned (List.ne_nil_of_mem he)
        have := List.countP_eq_length.1 hh.symm e' he'
        rw [ho] at this; simp at this
  rcases hc with hO | ⟨hc1, hc2, e0, he0, hg0⟩
  · have h1 : countType m es .PARALLEL_OWNED = es.length := by
      rw [countType, List.countP_eq_length]; intro e he; simp [hO e he]
    have hfo : es.filter (fun e => decide (m.typeOf e = .PARALLEL_OWNED)) = es := by
      rw [List.filter_eq_self]; intro e he; simp [hO e he]
    have hfg : es.filter (fun e => decide (m.typeOf e = .PARALLEL_GHOST)) = [] := by
      rw [List.filter_eq_nil_iff]; intro e he; simp [hO e he]
    refine ⟨{ s with owned := s.owned ++ es }, by simp [addLists, h1], by rw [hfo], by rw [hfg]; simp, rfl, rfl,
      fun _ _ => rfl, fun _ => rfl⟩
  · obtain ⟨s1, r1, r2, r3, r4, r5, r6⟩ := addEach_loose m es s hs ha.nodup
      (fun e he => ⟨ha.absent e he, ha.bound e he, ha.typed e he⟩)
    refine ⟨s1, by simp only [addLists, if_neg hc1, if_neg hc2, r1], r3, r4, (addEach_id es r1).4, r5, r6, ?_⟩
    intro hg
    rw [r4, List.length_append] at hg
    have : 0 < (es.filter fun e => decide (m.typeOf e = .PARALLEL_GHOST)).length :=
      List.length_pos_of_mem (List.mem_filter.2 ⟨he0, by simp [hg0]⟩)
    omega

/-- `add_entities` of an addable list: what the set becomes. -/
theorem addEntities_loose (m : MeshView) (s : Obj) (es : List Nat) (hs : Loose m s) (ha : Addable m s es) :
    ∃ s', addEntities m s es = .ok s' ∧ Loose m s' ∧ SameId s s' ∧ s'.all.Perm (s.all ++ es) ∧
      s'.owned = s.owned ++ es.filter (fun e => m.typeOf e = .PARALLEL_OWNED) ∧
      s'.ghost = s.ghost ++ es.filter (fun e => m.typeOf e = .PARALLEL_GHOST) ∧
      s'.all = (if s'.ghost.length ≠ 0 then s'.owned ++ s'.ghost else es ++ s.all) ∧
      (s.haveMap = true → ∀ e,
        (e ∈ s'.all → s'.all.idxOf e ∈ (List.range (countType m es .PARALLEL_OWNED)).map (s.owned.length + ·) ++
            (List.range (countType m es .PARALLEL_GHOST)).map
              (s.owned.length + countType m es .PARALLEL_OWNED + s.ghost.length + ·) →
          s'.map[e]? = some (s'.all.idxOf e : Int)) ∧
        (¬ (e ∈ s'.all ∧ s'.all.idxOf e ∈ (List.range (countType m es .PARALLEL_OWNED)).map (s.owned.length + ·) ++
            (List.range (countType m es .PARALLEL_GHOST)).map
              (s.owned.length + countType m es .PARALLEL_OWNED + s.ghost.length + ·)) → e ∉ es →
          s'.map[e]? = s.map[e]?)) := by
  obtain ⟨s1, h1, h2, h3, h4, h5, h6, h7⟩ := addLists_loose m s es hs ha
  have hperm0 : (s1.owned ++ s1.ghost).Perm (s.all ++ es) := by
    rw [h2, h3]
    refine List.Perm.trans ?_ ((hs.all_perm.symm).append (filter_types ha.typed))
    rw [List.append_assoc, List.append_assoc]
    refine List.Perm.append_left _ ?_
    rw [← List.append_assoc, ← List.append_assoc]
    exact List.perm_append_comm.append_right _
  let all' := if s1.ghost.length ≠ 0 then s1.owned ++ s1.ghost else es ++ s.all
  have hall' : (if s1.ghost.length ≠ 0 then { s1 with all := s1.owned ++ s1.ghost }
      else { s1 with all := es ++ s1.all }) = { s1 with all := all' } := by
    by_cases hg : s1.ghost.length ≠ 0
    · simp only [all', if_pos hg]
    · simp only [all', if_neg hg]
      rw [h7 (by omega)]
  have hperm : all'.Perm (s.all ++ es) := by
    by_cases hg : s1.ghost.length ≠ 0
    · simp only [all', if_pos hg]; exact hperm0
    · simp only [all', if_neg hg]; exact List.perm_append_comm
  have hnd : all'.Nodup := by
    rw [hperm.nodup_iff, List.nodup_append]
    exact ⟨hs.nodup, ha.nodup, fun a h1 b h2 hab => ha.absent b h2 (hab ▸ h1)⟩
  have hbd : ∀ e ∈ all', e < m.nAll := by
    intro e he
    rcases List.mem_append.1 (hperm.mem_iff.1 he) with he | he
    exacts [hs.bound e he, ha.bound e he]
  have hlo : s1.owned.length = s.owned.length + countType m es .PARALLEL_OWNED := by
    rw [h2, List.length_append, countType, List.countP_eq_length_filter]
  have hlg : s1.ghost.length = s.ghost.length + countType m es .PARALLEL_GHOST := by
    rw [h3, List.length_append, countType, List.countP_eq_length_filter]
  have hla : all'.length = s1.owned.length + s1.ghost.length := by
    rw [hperm.length_eq, ← hperm0.length_eq, List.length_append]
  have hloose : ∀ map' : List Int, map'.length = s.map.length →
      Loose m { s1 with all := all', map := map' } := by
    intro map' hl
    refine ⟨hperm.trans hperm0.symm, hnd, ?_, ?_, hbd, ?_⟩
    · intro e he
      dsimp only at he
      rw [h2] at he
      rcases List.mem_append.1 he with he | he
      · exact hs.owned_type e he
      · simpa using (List.mem_filter.1 he).2
    · intro e he
      dsimp only at he
      rw [h3] at he
      rcases List.mem_append.1 he with he | he
      · exact hs.ghost_type e he
      · simpa using (List.mem_filter.1 he).2
    · dsimp only; rw [hl, hs.map_len, h4]
  cases hmm : s.haveMap with
  | false =>
    have hadd : addEntities m s es = .ok { s1 with all := all' } := by
      unfold addEntities
      simp only [h1, hall']
      rw [h4, hmm]; rfl
    have hL := hloose s1.map h5
    exact ⟨_, hadd, hL, addEntities_id hadd, hperm, h2, h3, rfl, by intro h; cases h⟩
  | true =>
    have hl : s1.map.length = m.nAll := by rw [h5, hs.map_len, if_pos hmm]
    obtain ⟨map1, i1, i2, i3⟩ := indexLoop_ok all' hnd
      ((List.range (countType m es .PARALLEL_OWNED)).map (s.owned.length + ·)) s1.map
      (by
        intro i hi
        obtain ⟨j, hj, rfl⟩ := List.mem_map.1 hi
        have := List.mem_range.1 hj
        omega)
      (fun e he => by rw [hl]; exact hbd e he)
    obtain ⟨map2, j1, j2, j3⟩ := indexLoop_ok all' hnd
      ((List.range (countType m es .PARALLEL_GHOST)).map
        (s.owned.length + countType m es .PARALLEL_OWNED + s.ghost.length + ·)) map1
      (by
        intro i hi
        obtain ⟨j, hj, rfl⟩ := List.mem_map.1 hi
        have := List.mem_range.1 hj
        omega)
      (fun e he => by rw [i2, hl]; exact hbd e he)
    have hadd : addEntities m s es = .ok { s1 with all := all', map := map2 } := by
      unfold addEntities
      simp only [h1, hall']
      rw [if_pos (h4.trans hmm)]
      simp only [i1, j1]
    refine ⟨_, hadd, hloose map2 (by omega), addEntities_id hadd, hperm, h2, h3, rfl, fun _ e => ⟨?_, ?_⟩⟩
    · intro he hi
      dsimp only at he hi ⊢
      rw [j3, i3]
      by_cases hx : all'.idxOf e ∈ (List.range (countType m es .PARALLEL_GHOST)).map
        (s.owned.length + countType m es .PARALLEL_OWNED + s.ghost.length + ·)
      · rw [if_pos ⟨he, hx⟩]
      · rw [if_neg (fun h => hx h.2), if_pos ⟨he, (List.mem_append.1 hi).resolve_right hx⟩]
    · intro hni hne
      dsimp only at hni ⊢
      rw [j3, i3, if_neg, if_neg, h6 e hne]
      · rintro ⟨h, h'⟩; exact hni ⟨h, List.mem_append.2 (Or.inl h')⟩
      · rintro ⟨h, h'⟩; exact hni ⟨h, List.mem_append.2 (Or.inr h')⟩

/-- Adding to a new empty set: everything is in order and the index is exact. -/
theorem addEntities_new (m : MeshView) (s : Obj) (es : List Nat) (hs : Loose m s) (ha : Addable m s es)
    (hempty : s.all = []) (hm : s.haveMap = true) (hmap : s.map = List.replicate m.nAll (-1)) :
    ∃ s', addEntities m s es = .ok s' ∧ Proper m s' ∧ SameId s s' ∧ s'.all.Perm es ∧ IndexExact m s' := by
  obtain ⟨s', h1, h2, h3, h4, h5, h6, h7, h8⟩ := addEntities_loose m s es hs ha
  have hon : s.owned = [] ∧ s.ghost = [] := by
    have := hs.all_perm
    rw [hempty] at this
    have := List.Perm.nil_eq this
    simpa using this.symm
  rw [hempty, List.nil_append] at h4
  have hall : s'.all = s'.owned ++ s'.ghost := by
    rw [h7]
    by_cases hg : s'.ghost.length ≠ 0
    · rw [if_pos hg]
    · rw [if_neg hg, hempty, List.append_nil]
      have hg0 : s'.ghost = [] := by simpa using hg
      rw [hg0, List.append_nil, h5, hon.1, List.nil_append]
      rw [h6, hon.2, List.nil_append, List.filter_eq_nil_iff] at hg0
      symm
      rw [List.filter_eq_self]
      intro e he
      have := hg0 e he
      rcases ha.typed e he with h | h <;> simp [h] at this ⊢
  have hlen : s'.all.length = countType m es .PARALLEL_OWNED + countType m es .PARALLEL_GHOST := by
    rw [hall, h5, h6, hon.1, hon.2]
    simp [countType, List.countP_eq_length_filter]
  refine ⟨s', h1, ⟨hall, h2.nodup, h2.owned_type, h2.ghost_type, h2.bound, h2.map_len⟩, h3, h4, fun e he => ?_⟩
  apply indexInSet_eq
  obtain ⟨h9, h10⟩ := h8 hm e
  rw [entities_all]
  by_cases hmem : e ∈ s'.all
  · rw [posOrNeg_of_mem hmem]
    refine h9 hmem ?_
    have hlt := List.idxOf_lt_length_iff.2 hmem
    rw [hon.1, hon.2]
    simp only [List.mem_append, List.mem_map, List.mem_range, List.length_nil]
    by_cases hc : s'.all.idxOf e < countType m es .PARALLEL_OWNED
    · exact Or.inl ⟨_, hc, by omega⟩
    · exact Or.inr ⟨s'.all.idxOf e - countType m es .PARALLEL_OWNED, by omega, by omega⟩
  · rw [posOrNeg_of_not_mem hmem, h10 (fun h => hmem h.1) (fun h => hmem (h4.mem_iff.2 h)), hmap]
    simp [he]

end Jali.MSet
