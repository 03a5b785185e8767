import Verif.Spec.MeshSet
import Mathlib.Data.List.Perm.Basic
/-! Lemmas about mesh sets. -/
namespace Jali.MSet

theorem idxOf_inj {l : List Nat} {i : Nat} {e : Nat} (hn : l.Nodup) (h : l[i]? = some e) : l.idxOf e = i := by
  obtain ⟨hi, rfl⟩ := List.getElem?_eq_some_iff.1 h
  exact hn.idxOf_getElem i hi

theorem indexLoop_ok (all : List Nat) (hn : all.Nodup) (is : List Nat) :
    ∀ map : List Int, (∀ i ∈ is, i < all.length) → (∀ e ∈ all, e < map.length) →
    ∃ map', indexLoop all is map = .ok map' ∧ map'.length = map.length ∧
      ∀ e, map'[e]? = if e ∈ all ∧ all.idxOf e ∈ is then some (all.idxOf e : Int) else map[e]? := by
  induction is with
  | nil => intro map _ _; exact ⟨map, rfl, rfl, by simp⟩
  | cons i is ih =>
    intro map hi hb
    have hil := hi i (by simp)
    have hbm : all[i] < map.length := hb _ (List.getElem_mem hil)
    obtain ⟨map', h1, h2, h3⟩ := ih (map.set all[i] i) (fun j hj => hi j (by simp [hj])) (by simpa using hb)
    refine ⟨map', ?_, by simpa using h2, ?_⟩
    · simp [indexLoop, List.getElem?_eq_getElem hil, writeMap, hbm, h1]
    · intro e
      rw [h3]
      by_cases hm : e ∈ all
      · by_cases his : all.idxOf e ∈ is
        · simp [hm, his]
        · by_cases hei : all.idxOf e = i
          · have : all[i] = e := by subst hei; exact List.getElem_idxOf _
            simp [hm, his, hei, List.getElem?_set, this]
            intro h
            have := hb e hm
            omega
          · have : all[i] ≠ e := fun h => hei (by rw [← h]; exact hn.idxOf_getElem i hil)
            simp [hm, his, hei, List.getElem?_set, this]
      · have : all[i] ≠ e := fun h => hm (h ▸ List.getElem_mem hil)
        simp [hm, List.getElem?_set, this]

theorem construct_ok (m : MeshView) (name : String) (mesh : Nat) (kind : EntityKind) (owned ghost : List Nat)
    (b : Bool) (hb : ∀ e ∈ owned ++ ghost, e < m.nAll) (hn : (owned ++ ghost).Nodup) :
    ∃ map : List Int, construct m name mesh kind owned ghost b =
        .ok ⟨name, mesh, kind, owned, ghost, owned ++ ghost, b, map⟩ ∧
      map.length = (if b then m.nAll else 0) ∧
      (b → ∀ e, e < m.nAll → map[e]? = some (posOrNeg (owned ++ ghost) e)) := by
  cases b with
  | false => exact ⟨[], by simp [construct]⟩
  | true =>
    obtain ⟨map, h1, h2, h3⟩ := indexLoop_ok (owned ++ ghost) hn (List.range (owned ++ ghost).length)
      (List.replicate m.nAll (-1)) (by simp) (by simpa using hb)
    refine ⟨map, ?_, by simpa using h2, fun _ e he => ?_⟩
    · unfold construct
      simp only [if_true, h1]
    · rw [h3]
      unfold posOrNeg
      by_cases hm : e ∈ owned ++ ghost
      · have : (owned ++ ghost).idxOf e < (owned ++ ghost).length := List.idxOf_lt_length_iff.2 hm
        rw [if_pos ⟨hm, List.mem_range.2 this⟩, if_pos hm]
      · rw [if_neg (fun h => hm h.1), if_neg hm]
        simp [he]

theorem mem_pushNew (l : List Nat) : ∀ acc e, e ∈ pushNew acc l ↔ e ∈ acc ∨ e ∈ l := by
  induction l with
  | nil => simp [pushNew]
  | cons a l ih =>
    intro acc e
    rw [pushNew, ih]
    split
    · rename_i h; simp only [List.mem_cons]
      constructor
      · rintro (h | h) <;> simp [h]
      · rintro (h' | rfl | h') <;> simp_all
    · simp [or_assoc]

theorem nodup_pushNew (l : List Nat) : ∀ acc, acc.Nodup → (pushNew acc l).Nodup := by
  induction l with
  | nil => simp [pushNew]
  | cons a l ih =>
    intro acc h
    rw [pushNew]
    apply ih
    split
    · exact h
    · rename_i hn
      rw [List.nodup_append]
      exact ⟨h, by simp, fun x hx y hy => by simp at hy; subst hy; exact fun e => hn (e ▸ hx)⟩

theorem foldl_pushNew (f : Ptr → List Nat) (ps : List Ptr) : ∀ acc, acc.Nodup →
    (ps.foldl (fun acc p => pushNew acc (f p)) acc).Nodup ∧
    ∀ e, e ∈ ps.foldl (fun acc p => pushNew acc (f p)) acc ↔ e ∈ acc ∨ ∃ p ∈ ps, e ∈ f p := by
  induction ps with
  | nil => intro acc h; simp [h]
  | cons p ps ih =>
    intro acc h
    obtain ⟨h1, h2⟩ := ih _ (nodup_pushNew (f p) acc h)
    refine ⟨h1, fun e => ?_⟩
    rw [List.foldl_cons, h2, mem_pushNew]
    simp [or_assoc]

/-- removing by overwriting with the last entry -/
theorem set_last_perm (l : List Nat) (i : Nat) (hi : i < l.length) (z : Nat)
    (hz : l[l.length - 1]? = some z) : ((l.set i z).take (l.length - 1)).Perm (l.eraseIdx i) := by
  obtain ⟨init, w, rfl⟩ : ∃ init w, l = init ++ [w] := by
    refine ⟨l.dropLast, l.getLast (by intro h; simp [h] at hi), (List.dropLast_append_getLast _).symm⟩
  simp at hz
  subst hz
  by_cases h : i < init.length
  · rw [List.set_append_left _ _ h, List.eraseIdx_append_of_lt_length h]
    simp
    exact (List.set_perm_cons_eraseIdx h w).trans (List.perm_append_singleton _ _).symm
  · have : i = init.length := by simp at hi; omega
    subst this
    rw [List.eraseIdx_append_of_length_le (Nat.le_refl _)]
    simp

theorem swapRemove_perm (l : List Nat) (e : Nat) (hn : l.Nodup) : (swapRemove l e).Perm (l.erase e) := by
  unfold swapRemove
  split
  · rename_i h
    have hi := List.idxOf_lt_length_iff.2 h
    rw [List.getLast?_eq_getElem?]
    have hz : l[l.length - 1]? = some l[l.length - 1] := List.getElem?_eq_getElem (by omega)
    rw [hz]
    dsimp only
    refine (set_last_perm l _ hi _ hz).trans ?_
    rw [List.erase_eq_eraseIdx_of_idxOf rfl]
  · rename_i h
    rw [List.erase_of_not_mem h]

theorem mem_swapRemove {l : List Nat} {e a : Nat} (hn : l.Nodup) : a ∈ swapRemove l e ↔ a ≠ e ∧ a ∈ l := by
  rw [(swapRemove_perm l e hn).mem_iff, hn.mem_erase_iff]

theorem nodup_swapRemove {l : List Nat} {e : Nat} (hn : l.Nodup) : (swapRemove l e).Nodup :=
  ((swapRemove_perm l e hn).nodup_iff).2 (hn.erase e)

/-- The loop of `rem_entities` on one list. `done` are the entities handled so far; the live part of the vector is its
first `length - ndel` entries. -/
theorem removeLoop_ok (p : Nat → Bool) (orig : List Nat) (ho : orig.Nodup) (es : List Nat) :
    ∀ (l : List Nat) (ndel : Nat) (done : List Nat), ndel ≤ l.length →
    (l.take (l.length - ndel)).Perm (orig.filter fun x => x ∉ done) →
    (∀ x ∈ l, x ∈ l.take (l.length - ndel) ∨ x ∈ done) →
    (∀ x ∈ done, p x = true) → (∀ e ∈ es, e ∉ done) → es.Nodup →
    ∃ l', removeLoop p es l ndel = .ok l' ∧
      l'.Perm (orig.filter fun x => x ∉ done ∧ ¬ (x ∈ es ∧ p x = true)) := by
  induction es with
  | nil =>
    intro l ndel done hle hp hx hd he hn
    exact ⟨_, rfl, by simpa using hp⟩
  | cons e es ih =>
    intro l ndel done hle hp hx hd he hn
    rw [List.nodup_cons] at hn
    unfold removeLoop
    by_cases hpe : p e = true
    · rw [if_pos hpe]
      unfold markRemove
      by_cases hel : e ∈ l
      · rw [if_pos hel]
        have hlive : e ∈ l.take (l.length - ndel) := (hx e hel).resolve_right (he e (by simp))
        have hlen : 0 < l.length - ndel := by
          have := List.length_pos_of_mem hlive
          simp at this; omega
        rw [if_pos (by omega)]
        have hz : l[l.length - ndel - 1]? = some (l[l.length - ndel - 1]'(by omega)) :=
          List.getElem?_eq_getElem (by omega)
        rw [hz]
        dsimp only
        generalize l[l.length - ndel - 1]'(by omega) = z at hz
        have hidx : l.idxOf e < l.length - ndel := by
          have h1 : (l.take (l.length - ndel) ++ l.drop (l.length - ndel)).idxOf e =
              (l.take (l.length - ndel)).idxOf e := List.idxOf_append_of_mem hlive
          rw [List.take_append_drop] at h1
          have h2 := List.idxOf_lt_length_iff.2 hlive
          rw [← h1] at h2
          simp at h2; omega
        have htake : ((l.set (l.idxOf e) z).take (l.length - ndel - 1)) =
            ((l.take (l.length - ndel)).set (l.idxOf e) z).take (l.length - ndel - 1) := by
          rw [← List.take_set, List.take_take]
          congr 1; omega
        have hlen2 : (l.take (l.length - ndel)).length = l.length - ndel := by simp
        have hnd : (l.take (l.length - ndel)).Nodup := hp.nodup_iff.2 (ho.filter _)
        have hperm1 : ((l.set (l.idxOf e) z).take (l.length - ndel - 1)).Perm
            ((l.take (l.length - ndel)).erase e) := by
          rw [htake]
          have := set_last_perm (l.take (l.length - ndel)) (l.idxOf e) (by rw [hlen2]; exact hidx) z
            (by rw [hlen2, List.getElem?_take_of_lt (by omega)]; exact hz)
          rw [hlen2] at this
          refine this.trans ?_
          have h1 : (l.take (l.length - ndel) ++ l.drop (l.length - ndel)).idxOf e =
              (l.take (l.length - ndel)).idxOf e := List.idxOf_append_of_mem hlive
          rw [List.take_append_drop] at h1
          rw [h1, List.erase_eq_eraseIdx_of_idxOf rfl]
        obtain ⟨l', h1, h2⟩ := ih (l.set (l.idxOf e) z) (ndel + 1) (e :: done) (by simp; omega)
          (by
            have : (l.set (l.idxOf e) z).length - (ndel + 1) = l.length - ndel - 1 := by simp; omega
            rw [this]
            refine hperm1.trans ((hp.erase e).trans ?_)
            rw [List.Nodup.erase_eq_filter (ho.filter _), List.filter_filter]
            apply List.Perm.of_eq
            apply List.filter_congr
            intro x _
            by_cases hxe : x = e <;> simp [hxe])
          (by
            have hlen3 : (l.set (l.idxOf e) z).length - (ndel + 1) = l.length - ndel - 1 := by simp; omega
            rw [hlen3]
            intro x hxm
            by_cases hxe : x = e
            · right; simp [hxe]
            · have hxl : x ∈ l := by
                rcases List.mem_or_eq_of_mem_set hxm with h | h
                · exact h
                · rw [h]; exact List.mem_of_getElem? hz
              rcases hx x hxl with h | h
              · left
                rw [hperm1.mem_iff, hnd.mem_erase_iff]
                exact ⟨hxe, h⟩
              · right; simp [h])
          (by intro x hxm; rcases List.mem_cons.1 hxm with rfl | h; exacts [hpe, hd x h])
          (by
            intro x hxm h
            rcases List.mem_cons.1 h with rfl | h
            · exact hn.1 hxm
            · exact he x (by simp [hxm]) h)
          hn.2
        refine ⟨l', h1, h2.trans (List.Perm.of_eq (List.filter_congr fun x _ => ?_))⟩
        simp only [List.mem_cons, decide_eq_decide]
        constructor
        · rintro ⟨h, h'⟩
          refine ⟨fun hh => h (Or.inr hh), ?_⟩
          rintro ⟨rfl | hh, hp'⟩
          · exact h (Or.inl rfl)
          · exact h' ⟨hh, hp'⟩
        · rintro ⟨h, h'⟩
          refine ⟨?_, fun hh => h' ⟨Or.inr hh.1, hh.2⟩⟩
          rintro (rfl | hh)
          · exact h' ⟨Or.inl rfl, hpe⟩
          · exact h hh
      · rw [if_neg hel]
        dsimp only
        have heo : e ∉ orig := by
          intro h
          have : e ∈ l.take (l.length - ndel) := by
            rw [hp.mem_iff, List.mem_filter]
            exact ⟨h, by simpa using he e (by simp)⟩
          exact hel (List.mem_of_mem_take this)
        obtain ⟨l', h1, h2⟩ := ih l ndel done hle hp hx hd (fun x hxm => he x (by simp [hxm])) hn.2
        refine ⟨l', h1, h2.trans (List.Perm.of_eq (List.filter_congr fun x hxo => ?_))⟩
        have : x ≠ e := fun h => heo (h ▸ hxo)
        simp [this]
    · rw [if_neg hpe]
      obtain ⟨l', h1, h2⟩ := ih l ndel done hle hp hx hd (fun x hxm => he x (by simp [hxm])) hn.2
      refine ⟨l', h1, h2.trans (List.Perm.of_eq (List.filter_congr fun x hxo => ?_))⟩
      by_cases hxe : x = e
      · subst hxe; simp [hpe]
      · simp [hxe]

end Jali.MSet

namespace Jali.MSet

theorem updMap_ok (s : Obj) (e : Nat) (i : Int) (h : s.haveMap = true → e < s.map.length) :
    updMap s e i = .ok { s with map := if s.haveMap then s.map.set e i else s.map } := by
  unfold updMap
  cases hm : s.haveMap with
  | false => cases s; simp_all
  | true => simp [writeMap, h hm]

theorem indexInSet_eq {s : Obj} {e : Nat} {i : Int} (h : s.map[e]? = some i) : indexInSet s e = .ok i := by
  unfold indexInSet
  have : s.map.length ≠ 0 := by
    obtain ⟨hl, -⟩ := List.getElem?_eq_some_iff.1 h; omega
  rw [if_pos this, h]

theorem indexInSet_get {s : Obj} {e : Nat} {i : Int} (hl : e < s.map.length) (h : indexInSet s e = .ok i) :
    s.map[e]? = some i := by
  unfold indexInSet at h
  rw [if_pos (by omega), List.getElem?_eq_getElem hl] at h
  rw [List.getElem?_eq_getElem hl]
  simpa using h

theorem Proper.loose {m : MeshView} {s : Obj} (h : Proper m s) : Loose m s :=
  ⟨by rw [h.all_eq], h.nodup, h.owned_type, h.ghost_type, h.bound, h.map_len⟩

theorem Loose.mem_all {m : MeshView} {s : Obj} (h : Loose m s) (e : Nat) :
    e ∈ s.all ↔ e ∈ s.owned ∨ e ∈ s.ghost := by rw [h.all_perm.mem_iff, List.mem_append]

theorem Loose.nodups {m : MeshView} {s : Obj} (h : Loose m s) : s.owned.Nodup ∧ s.ghost.Nodup := by
  have := h.all_perm.nodup_iff.1 h.nodup
  rw [List.nodup_append] at this
  exact ⟨this.1, this.2.1⟩

/-- One `add_entity` of an absent entity. -/
theorem addEntity_ok (m : MeshView) (s : Obj) (e : Nat) (hs : Loose m s) (hb : e < m.nAll)
    (ht : m.typeOf e = .PARALLEL_OWNED ∨ m.typeOf e = .PARALLEL_GHOST) (hna : e ∉ s.all) :
    ∃ s', addEntity m s e = .ok s' ∧ Loose m s' ∧ (∀ a, a ∈ s'.all ↔ a = e ∨ a ∈ s.all) ∧
      s'.haveMap = s.haveMap ∧
      s'.owned = (if m.typeOf e = .PARALLEL_OWNED then s.owned ++ [e] else s.owned) ∧
      s'.ghost = (if m.typeOf e = .PARALLEL_GHOST then s.ghost ++ [e] else s.ghost) ∧
      s'.all = (if m.typeOf e = .PARALLEL_OWNED then s.all.insertIdx s.owned.length e else s.all ++ [e]) ∧
      s'.map = (if s.haveMap then
        s.map.set e (if m.typeOf e = .PARALLEL_OWNED then (s.owned.length : Int) else s.all.length)
        else s.map) := by
  have hlen : s.owned.length ≤ s.all.length := by
    rw [hs.all_perm.length_eq]; simp
  have hml : s.haveMap = true → e < s.map.length := by
    intro h; rw [hs.map_len, if_pos h]; exact hb
  unfold addEntity
  rcases ht with ht | ht
  · rw [if_pos ht, if_pos hlen, updMap_ok _ _ _ (by exact hml)]
    have hp : (s.all.insertIdx s.owned.length e).Perm (e :: s.all) := List.perm_insertIdx _ _ hlen
    refine ⟨_, rfl, ⟨?_, ?_, ?_, hs.ghost_type, ?_, ?_⟩, ?_, rfl, by simp [ht], by simp [ht], by simp [ht],
      by simp [ht]⟩
    · refine hp.trans ((hs.all_perm.cons e).trans ?_)
      dsimp only
      rw [List.append_assoc]
      exact List.perm_middle.symm
    · dsimp only; rw [hp.nodup_iff, List.nodup_cons]; exact ⟨hna, hs.nodup⟩
    · intro a ha
      rcases List.mem_append.1 ha with h | h
      · exact hs.owned_type a h
      · rw [List.mem_singleton.1 h]; exact ht
    · intro a ha
      dsimp only at ha
      rw [hp.mem_iff, List.mem_cons] at ha
      rcases ha with rfl | h
      · exact hb
      · exact hs.bound a h
    · have := hs.map_len
      dsimp only
      split <;> simp_all
    · intro a; dsimp only; rw [hp.mem_iff, List.mem_cons]
  · have hne : ¬ m.typeOf e = .PARALLEL_OWNED := by rw [ht]; decide
    rw [if_neg hne, if_pos ht, updMap_ok _ _ _ (by exact hml)]
    refine ⟨_, rfl, ⟨?_, ?_, hs.owned_type, ?_, ?_, ?_⟩, ?_, rfl, by simp [ht], by simp [ht], by simp [ht],
      by simp [ht]⟩
    · dsimp only
      rw [← List.append_assoc]
      exact hs.all_perm.append_right [e]
    · dsimp only
      rw [List.nodup_append]
      exact ⟨hs.nodup, by simp, fun x hx y hy => by simp at hy; subst hy; exact fun h => hna (h ▸ hx)⟩
    · intro a ha
      rcases List.mem_append.1 ha with h | h
      · exact hs.ghost_type a h
      · rw [List.mem_singleton.1 h]; exact ht
    · intro a ha
      rcases List.mem_append.1 ha with h | h
      · exact hs.bound a h
      · rw [List.mem_singleton.1 h]; exact hb
    · have := hs.map_len
      dsimp only
      split <;> simp_all
    · intro a; simp [or_comm]

/-- One `rem_entity`. -/
theorem remEntity_ok (m : MeshView) (s : Obj) (e : Nat) (hs : Loose m s) (hb : e < m.nAll)
    (ht : m.typeOf e = .PARALLEL_OWNED ∨ m.typeOf e = .PARALLEL_GHOST) :
    ∃ s', remEntity m s e = .ok s' ∧ Loose m s' ∧ (∀ a, a ∈ s'.all ↔ a ≠ e ∧ a ∈ s.all) ∧
      s'.haveMap = s.haveMap ∧
      s'.map = (if s.haveMap then s.map.set e (-1) else s.map) := by
  have hml : s.haveMap = true → e < s.map.length := by
    intro h; rw [hs.map_len, if_pos h]; exact hb
  obtain ⟨hno, hng⟩ := hs.nodups
  unfold remEntity
  rcases ht with ht | ht
  · rw [if_pos ht, updMap_ok _ _ _ (by exact hml)]
    have hg : e ∉ s.ghost := fun h => by have := hs.ghost_type e h; rw [ht] at this; cases this
    refine ⟨_, rfl, ⟨?_, nodup_swapRemove hs.nodup, ?_, hs.ghost_type, ?_, ?_⟩, fun a => mem_swapRemove hs.nodup,
      rfl, rfl⟩
    · dsimp only
      refine (swapRemove_perm _ e hs.nodup).trans ((hs.all_perm.erase e).trans ?_)
      by_cases ho : e ∈ s.owned
      · rw [List.erase_append_left _ ho]
        exact (swapRemove_perm _ e hno).symm.append_right _
      · rw [List.erase_append_right _ ho, List.erase_of_not_mem hg]
        have := (swapRemove_perm _ e hno)
        rw [List.erase_of_not_mem ho] at this
        exact this.symm.append_right _
    · exact fun a ha => hs.owned_type a ((mem_swapRemove hno).1 ha).2
    · exact fun a ha => hs.bound a ((mem_swapRemove hs.nodup).1 ha).2
    · have := hs.map_len
      dsimp only
      split <;> simp_all
  · have hne : ¬ m.typeOf e = .PARALLEL_OWNED := by rw [ht]; decide
    rw [if_neg hne, if_pos ht, updMap_ok _ _ _ (by exact hml)]
    have ho : e ∉ s.owned := fun h => by have := hs.owned_type e h; rw [ht] at this; cases this
    refine ⟨_, rfl, ⟨?_, nodup_swapRemove hs.nodup, hs.owned_type, ?_, ?_, ?_⟩, fun a => mem_swapRemove hs.nodup,
      rfl, rfl⟩
    · dsimp only
      refine (swapRemove_perm _ e hs.nodup).trans ((hs.all_perm.erase e).trans ?_)
      rw [List.erase_append_right _ ho]
      exact (swapRemove_perm _ e hng).symm.append_left _
    · exact fun a ha => hs.ghost_type a ((mem_swapRemove hng).1 ha).2
    · exact fun a ha => hs.bound a ((mem_swapRemove hs.nodup).1 ha).2
    · have := hs.map_len
      dsimp only
      split <;> simp_all

theorem construct_fields {m : MeshView} {name : String} {mesh : Nat} {kind : EntityKind} {owned ghost : List Nat}
    {b : Bool} {s : Obj} (h : construct m name mesh kind owned ghost b = .ok s) :
    s.kind = kind ∧ s.mesh = mesh ∧ s.owned = owned ∧ s.ghost = ghost ∧ s.all = owned ++ ghost ∧ s.name = name := by
  unfold construct at h
  dsimp only at h
  cases b with
  | false => injection h with h; subst h; simp
  | true =>
    rw [if_pos rfl] at h
    split at h
    · cases h
    · injection h with h; subst h; simp

theorem lists_valid {m : MeshView} {owned ghost : List Nat} (hno : owned.Nodup) (hng : ghost.Nodup)
    (ho : ∀ e ∈ owned, e < m.nAll ∧ m.typeOf e = .PARALLEL_OWNED)
    (hg : ∀ e ∈ ghost, e < m.nAll ∧ m.typeOf e = .PARALLEL_GHOST) :
    (∀ e ∈ owned ++ ghost, e < m.nAll) ∧ (owned ++ ghost).Nodup := by
  constructor
  · intro e he
    rcases List.mem_append.1 he with h | h
    exacts [(ho e h).1, (hg e h).1]
  · rw [List.nodup_append]
    refine ⟨hno, hng, fun a ha b hb hab => ?_⟩
    subst hab
    have h1 := (ho a ha).2
    rw [(hg a hb).2] at h1
    cases h1

theorem Proper.typed {m : MeshView} {s : Obj} (h : Proper m s) :
    (∀ e ∈ s.owned, e < m.nAll ∧ m.typeOf e = .PARALLEL_OWNED) ∧
    (∀ e ∈ s.ghost, e < m.nAll ∧ m.typeOf e = .PARALLEL_GHOST) := by
  refine ⟨fun e he => ⟨h.bound e ?_, h.owned_type e he⟩, fun e he => ⟨h.bound e ?_, h.ghost_type e he⟩⟩ <;>
    (rw [h.all_eq]; simp [he])

theorem construct_proper {m : MeshView} {name : String} {mesh : Nat} {kind : EntityKind}
    {owned ghost : List Nat} (b : Bool) (hno : owned.Nodup) (hng : ghost.Nodup)
    (ho : ∀ e ∈ owned, e < m.nAll ∧ m.typeOf e = .PARALLEL_OWNED)
    (hg : ∀ e ∈ ghost, e < m.nAll ∧ m.typeOf e = .PARALLEL_GHOST) :
    ∃ s, construct m name mesh kind owned ghost b = .ok s ∧ s.owned = owned ∧ s.ghost = ghost ∧
      Proper m s ∧ (b = true → IndexExact m s) := by
  obtain ⟨h1, h2⟩ := lists_valid hno hng ho hg
  obtain ⟨map, hc, hl, hi⟩ := construct_ok m name mesh kind owned ghost b h1 h2
  refine ⟨_, hc, rfl, rfl, ⟨rfl, h2, fun e he => (ho e he).2, fun e he => (hg e he).2, h1, hl⟩, ?_⟩
  intro hb e he
  exact indexInSet_eq (hi hb e he)

theorem posOrNeg_of_mem {l : List Nat} {e : Nat} (h : e ∈ l) : posOrNeg l e = (l.idxOf e : Int) := if_pos h
theorem posOrNeg_of_not_mem {l : List Nat} {e : Nat} (h : e ∉ l) : posOrNeg l e = -1 := if_neg h
theorem entities_all (s : Obj) : entities s .ALL = s.all := rfl

end Jali.MSet
