import Verif.Props.MultiVec
import Verif.Props.MeshSetHistory
/-! Property theorems C79, element by element: what `operator()` gives after materials or cells are added. -/
namespace Jali.St
open Jali.MSet
variable {V : Type}

theorem growSet_get {w w' : Reg.World} {a : Nat} {cs : List Nat} (h : growSet w a cs = .ok w') (b : Nat) (hb : b ≠ a) :
    w'.heap[b]? = w.heap[b]? := by
  unfold growSet at h
  split at h
  · cases h
  · split at h
    · cases h
    · injection h with h
      subst h
      exact List.getElem?_set_ne (Ne.symm hb)

/-- adding a new material leaves the sets of the others -/
theorem addMaterial_sets {w : Reg.World} {s s' : State V} {A : Mats} (zero : V) (h : MInv w s A) (n : String) (cs : List Nat)
    (hn : n ∉ A.mats.map fun x => x.name) (hw : Reg.findMeshset w n .CELL = none) (hr : addMaterial zero s n cs = .ok s')
    (m : Nat) (x : Mat) (hx : A.mats[m]? = some x) : matSet s' m = matSet s m := by
  have hany : ¬ s.mats.any (fun a => addrNamed s n a) = true := fun hh => hn ((any_named h n).1 hh)
  obtain ⟨a, ha⟩ := getS h hx
  obtain ⟨o, ho, -⟩ := h.sets m a x ha hx
  have halt : a < s.w.heap.length := (List.getElem?_eq_some_iff.1 ho).1
  unfold addMaterial at hr
  rw [if_neg hany] at hr
  split at hr
  · cases hr
  · rename_i b w1 h1
    have hb : b = s.w.heap.length ∧ ∀ i, i < s.w.heap.length → w1.heap[i]? = s.w.heap[i]? := by
      unfold materialSetFor at h1
      rw [h.fresh n hw hn] at h1
      dsimp only at h1
      split at h1
      · rename_i r hm
        injection h1 with h1
        subst h1
        unfold Reg.makeMeshset at hm
        split at hm
        · cases hm
        · injection hm with hm
          injection hm with hm1 hm2
          subst hm1
          refine ⟨rfl, fun i hi => ?_⟩
          rw [← hm2]
          exact List.getElem?_append_left hi
      · cases h1
    split at hr
    · cases hr
    · rename_i w2 h2
      split at hr
      · cases hr
      · split at hr
        · cases hr
        · injection hr with hr
          subst hr
          have hmlt : m < s.mats.length := (List.getElem?_eq_some_iff.1 ha).1
          unfold matSet
          dsimp only
          rw [List.getElem?_append_left hmlt, ha]
          dsimp only
          rw [growSet_get h2 a (by rw [hb.1]; omega), hb.2 a halt]

/-- adding cells to a material leaves the sets of the others -/
theorem addCells_sets {w : Reg.World} {s s' : State V} {A : Mats} (zero : V) (h : MInv w s A) (i : Nat) (cs : List Nat)
    (hr : addCells zero s i cs = .ok s') (m : Nat) (hm : m ≠ i) : matSet s' m = matSet s m := by
  unfold addCells at hr
  split at hr
  · cases hr
  · rename_i a ha
    split at hr
    · cases hr
    · rename_i w2 h2
      split at hr
      · cases hr
      · split at hr
        · cases hr
        · injection hr with hr
          subst hr
          unfold matSet
          dsimp only
          cases hb : s.mats[m]? with
          | none => rfl
          | some b =>
            dsimp only
            refine growSet_get h2 b ?_
            rintro rfl
            have h1 := (List.getElem?_inj (List.getElem?_eq_some_iff.1 ha).1 h.nodup).1 (ha.trans hb.symm)
            exact hm h1.symm

theorem index_congr {s s' : State V} {m : Nat} (h : matSet s' m = matSet s m) (c : Nat) :
    cellIndexInMaterial s' c m = cellIndexInMaterial s c m := by unfold cellIndexInMaterial; rw [h]

/-- a read in a row of zeros -/
theorem read_zero_row {w : Reg.World} {s : State V} {A : Mats} (hi : MInv w s A) (zero : V) (v : Vec) (m : Nat) (x : Mat)
    (hx : A.mats[m]? = some x) (hl : x.late = false) (l : List (List V)) (hb : s.blocks[v.data]? = some (.multi l))
    (hrow : l[m]? = some (List.replicate x.cells.length zero)) (c : Nat) (hc : c < (w.view .CELL).nAll) (lay : Layout) :
    multiRead zero s v (firstArg lay c m) (secondArg lay c m) lay = .ok zero := by
  obtain ⟨o, ho, hperm, hnd, hidx⟩ := index_of hi hx hl
  rw [read_eq (hidx c hc)]
  by_cases hco : c ∈ o.all
  · obtain ⟨p1, p2, p3⟩ := posOrNeg_ne hco
    have hk : o.all.idxOf c < x.cells.length := by rw [← hperm.length_eq]; exact List.idxOf_lt_length_iff.2 hco
    rw [if_pos p1]
    simp only [hb, slot, if_neg p2, p3, elem, hrow, List.getElem?_replicate, hk, if_true]
  · rw [posOrNeg_of_not_mem hco]; simp

/-- **C79**, element by element. Adding a material changes no element of the other materials and gives zero for all elements of
the new one; adding cells to a material changes no element of the other materials, and gives zero for all elements of
this one if it had no cells.
Missing: adding cells to a material that has some (`added_cell_loses_value_false`). -/
theorem multi_elements_kept_partial (w : Reg.World) (s : State V) (A : Mats) (h : Reached w s A) (zero : V) (v : Vec)
    (hv : v ∈ s.vecs) (hmv : v.vectype = .MULTIVAL) :
    (∀ n cs s', n ∉ A.mats.map (fun x => x.name) → (Op.addMaterial (V := V) n cs).Allowed w A →
      addMaterial zero s n cs = .ok s' →
      (∀ (m : Nat) (x : Mat), A.mats[m]? = some x → x.late = false → ∀ c lay, c < (w.view .CELL).nAll →
        multiRead zero s' v (firstArg lay c m) (secondArg lay c m) lay =
          multiRead zero s v (firstArg lay c m) (secondArg lay c m) lay) ∧
      ∀ c lay, c < (w.view .CELL).nAll → multiRead zero s' v (firstArg lay c A.mats.length)
        (secondArg lay c A.mats.length) lay = .ok zero) ∧
    (∀ i cs s', (Op.addCells (V := V) i cs).Allowed w A → addCells zero s i cs = .ok s' →
      (∀ (m : Nat) (x : Mat), m ≠ i → A.mats[m]? = some x → x.late = false → ∀ c lay, c < (w.view .CELL).nAll →
        multiRead zero s' v (firstArg lay c m) (secondArg lay c m) lay =
          multiRead zero s v (firstArg lay c m) (secondArg lay c m) lay) ∧
      ∀ x, A.mats[i]? = some x → x.late = false → x.cells = [] → ∀ c lay, c < (w.view .CELL).nAll →
        multiRead zero s' v (firstArg lay c i) (secondArg lay c i) lay = .ok zero) := by
  have hi := h.inv
  obtain ⟨hd, l, hl, hll⟩ := hi.multi v hv hmv
  have hlen : l.length = A.mats.length := by simpa using congrArg List.length hll
  obtain ⟨K1, K2⟩ := multi_vector_values_kept_partial w s A h zero
  constructor
  · intro n cs s' hn ha hr
    have ha' := Or.resolve_left ha hn
    obtain ⟨s1, h1, hi1, -⟩ := addMaterial_new zero hi n cs hn ha'.1 ha'.2
    rw [h1] at hr; injection hr with hr; subst hr
    obtain ⟨-, k2, -⟩ := K1 n cs s1 hn ha h1
    have hb := k2 v hv hmv l hl
    refine ⟨fun m x hx hlate c lay hc => ?_, fun c lay hc => ?_⟩
    · obtain ⟨o, ho, -, -, hidx⟩ := index_of hi hx hlate
      have hI := hidx c hc
      have hI' : cellIndexInMaterial s1 c m = .ok (posOrNeg o.all c) := by
        rw [index_congr (addMaterial_sets zero hi n cs hn ha'.1 h1 m x hx)]; exact hI
      have hm : m < l.length := by rw [hlen]; exact (List.getElem?_eq_some_iff.1 hx).1
      rw [read_eq hI, read_eq hI']
      simp only [hb, hl, slot, elem, List.getElem?_append_left hm]
    · have hx : ((Op.addMaterial (V := V) n cs).onMats A).mats[A.mats.length]? = some ⟨n, cs, false⟩ := by
        simp only [Op.onMats, if_neg hn]
        simp
      exact read_zero_row hi1 zero v A.mats.length ⟨n, cs, false⟩ hx rfl _ hb (by rw [← hlen]; simp) c hc lay
  · intro i cs s' ha hr
    obtain ⟨x, hx, hc⟩ := ha
    obtain ⟨s1, h1, hi1, -⟩ := addCells_ok zero hi i cs x hx hc
    rw [h1] at hr; injection hr with hr; subst hr
    obtain ⟨-, k2, -⟩ := K2 i cs s1 ⟨x, hx, hc⟩ h1
    have hb := k2 v hv hmv l hl
    refine ⟨fun m y hm hy hlate c lay hcb => ?_, fun y hy hlate hemp c lay hcb => ?_⟩
    · obtain ⟨o, ho, -, -, hidx⟩ := index_of hi hy hlate
      have hI := hidx c hcb
      have hI' : cellIndexInMaterial s1 c m = .ok (posOrNeg o.all c) := by
        rw [index_congr (addCells_sets zero hi i cs h1 m hm)]; exact hI
      rw [read_eq hI, read_eq hI']
      have : (l.modify i fun row => row ++ List.replicate cs.length zero)[m]? = l[m]? := by
        rw [List.getElem?_modify]
        have : ¬ i = m := fun e => hm e.symm
        simp [this]
      simp only [hb, hl, slot, elem, this]
    · rw [hx] at hy; injection hy with hy; subst hy
      have hm : i < l.length := by rw [hlen]; exact (List.getElem?_eq_some_iff.1 hx).1
      have hrow : l[i]? = some [] := by
        have h3 := congrArg (fun l : List Nat => l[i]?) hll
        simp only [List.getElem?_map, hx, Option.map_some, List.getElem?_eq_getElem hm, hemp, List.length_nil,
          Option.some.injEq, List.length_eq_zero_iff] at h3
        rw [List.getElem?_eq_getElem hm, h3]
      have hx' : ((Op.addCells (V := V) i cs).onMats A).mats[i]? = some ⟨x.name, cs, false⟩ := by
        simp only [Op.onMats, List.getElem?_modify, hx]
        simp [hlate, hemp]
      refine read_zero_row hi1 zero v i _ hx' rfl _ hb ?_ c hcb lay
      rw [List.getElem?_modify, hrow]
      simp

/-- after a late addition the reverse map gives the last old entity the position behind the old ones -/
theorem add_entities_last (m : MeshView) (s : Obj) (e : Nat) (hs : Proper m s) (hm : s.haveMap = true) (hb : e < m.nAll)
    (ht : m.typeOf e = .PARALLEL_OWNED) (hna : e ∉ s.all) (hg : s.ghost = []) (c : Nat) (hc : s.all.getLast? = some c) :
    ∃ s', addEntities m s [e] = .ok s' ∧ s'.all = e :: s.all ∧ indexInSet s' c = .ok (s.all.length : Int) := by
  have hl : s.map.length = m.nAll := by rw [hs.map_len, if_pos hm]
  have h1 : countType m [e] .PARALLEL_OWNED = 1 := by simp [countType, ht]
  have h2 : countType m [e] .PARALLEL_GHOST = 0 := by simp [countType, ht]
  have hall : s.all = s.owned := by rw [hs.all_eq, hg]; simp
  have hnd : (e :: s.all).Nodup := List.nodup_cons.2 ⟨hna, hs.nodup⟩
  obtain ⟨map', i1, i2, i3⟩ := indexLoop_ok (e :: s.all) hnd [s.owned.length] s.map
    (by intro i hi; simp at hi; subst hi; rw [hall]; simp)
    (by intro a ha; rw [hl]; rcases List.mem_cons.1 ha with rfl | h; exacts [hb, hs.bound a h])
  refine ⟨{ s with owned := s.owned ++ [e], all := e :: s.all, map := map' }, ?_, rfl, ?_⟩
  · simp only [addEntities, addLists, h1, h2, hg, hm]
    simp [i1, indexLoop]
  · apply indexInSet_eq
    dsimp only
    have hcm : c ∈ s.all := List.mem_of_getLast? hc
    have hpos : 0 < s.all.length := List.length_pos_of_mem hcm
    have hci : (e :: s.all)[s.all.length]? = some c := by
      rw [List.getElem?_cons, if_neg (by omega)]
      rw [List.getLast?_eq_getElem?] at hc
      exact hc
    obtain ⟨hk, hke⟩ := List.getElem?_eq_some_iff.1 hci
    have hix : (e :: s.all).idxOf c = s.all.length := by
      rw [← hke]; exact List.Nodup.idxOf_getElem hnd _ hk
    rw [i3, if_pos ⟨by simp [hcm], by rw [hix, hall]; simp⟩, hix]

/-- **C79** fails for a material that has cells: adding one more owned cell to a material of owned cells makes the last cell of the
material lose its value in every multi-material vector, `operator()` now gives zero there. -/
theorem added_cell_loses_value_false (w : Reg.World) (s : State V) (A : Mats) (h : Reached w s A) (zero : V) (m : Nat) (x : Mat)
    (hx : A.mats[m]? = some x) (hl : x.late = false)
    (hown : ∀ c ∈ x.cells, (w.view .CELL).typeOf c = .PARALLEL_OWNED) (e : Nat) (he : e < (w.view .CELL).nAll)
    (hna : e ∉ x.cells) (ht : (w.view .CELL).typeOf e = .PARALLEL_OWNED) (c : Nat)
    (hc : (materialCells s m).getLast? = some c) :
    ∃ s', addCells zero s m [e] = .ok s' ∧ c ∈ materialCells s' m ∧ ∀ v ∈ s.vecs, v.vectype = .MULTIVAL → ∀ lay : Layout,
      multiRead zero s' v (firstArg lay c m) (secondArg lay c m) lay = .ok zero := by
  have hi := h.inv
  have hcn : NewCells (w.view .CELL) x.cells [e] :=
    ⟨by simp, by simpa using hna, by simpa using he, by simp [ht], fun _ => ⟨e, by simp, ht⟩⟩
  obtain ⟨s', h1, h2, -⟩ := addCells_ok zero hi m [e] x hx hcn
  obtain ⟨a, o, ha, ho, hoa, hs⟩ := matSet_of hi hx
  obtain ⟨hp, hex⟩ := hs.exact hl
  have hghost : o.ghost = [] := by
    rw [List.eq_nil_iff_forall_not_mem]
    intro g hg
    have h3 := hp.ghost_type g hg
    have h4 : g ∈ x.cells := hs.perm.mem_iff.1 (by rw [hp.all_eq]; simp [hg])
    rw [hown g h4] at h3; cases h3
  have hcells : materialCells s m = o.all := by unfold materialCells; rw [ho]; rfl
  rw [hcells] at hc
  obtain ⟨o', hadd, hall', hidx⟩ := add_entities_last (w.view .CELL) o e hp hs.map he ht
    (fun hh => hna (hs.perm.mem_iff.1 hh)) hghost c hc
  have hset' : matSet s' m = some o' := by
    unfold addCells at h1
    rw [ha] at h1
    dsimp only at h1
    have hgrow : growSet s.w a [e] = .ok { s.w with heap := s.w.heap.set a o' } := by
      unfold growSet
      simp only [hoa, hi.view, hadd]
    rw [hgrow] at h1
    dsimp only at h1
    have halt : a < s.w.heap.length := (List.getElem?_eq_some_iff.1 hoa).1
    split at h1
    · cases h1
    · split at h1
      · cases h1
      · injection h1 with h1
        subst h1
        unfold matSet
        dsimp only
        rw [ha]
        simp [halt]
  have hI : cellIndexInMaterial s' c m = .ok (o.all.length : Int) := by
    simp only [cellIndexInMaterial, hset', hidx]
  refine ⟨s', h1, ?_, fun v hv hmv lay => ?_⟩
  · simp only [materialCells, hset', entities, hall']
    exact List.mem_cons_of_mem _ (List.mem_of_getLast? hc)
  · obtain ⟨hd, l, hlb, hll⟩ := hi.multi v hv hmv
    have hlen : l.length = A.mats.length := by simpa using congrArg List.length hll
    have hm : m < l.length := by rw [hlen]; exact (List.getElem?_eq_some_iff.1 hx).1
    have hrl : l[m].length = o.all.length := by
      have h3 := congrArg (fun l : List Nat => l[m]?) hll
      simp only [List.getElem?_map, hx, Option.map_some, List.getElem?_eq_getElem hm, Option.some.injEq] at h3
      rw [h3, hs.perm.length_eq]
    obtain ⟨-, k2, -⟩ := (multi_vector_values_kept_partial w s A h zero).2 m [e] s' ⟨x, hx, hcn⟩ h1
    have hb := k2 v hv hmv l hlb
    have hrow : (l.modify m fun row => row ++ List.replicate [e].length zero)[m]? = some (l[m] ++ [zero]) := by
      rw [List.getElem?_modify, List.getElem?_eq_getElem hm]
      simp
    rw [read_eq hI, if_pos (by omega)]
    simp only [hb, slot, elem, hrow, Int.toNat_natCast, ← hrl]
    simp

/-! ### Non-vacuity -/

-- "steel" has the value 1 in cells 1 and 2; after cell 3 is added, cell 2 has zero
example : (match run 0 exCount (create 0 exWorld2) exTwo with
    | .ok (_, s) => decide (multiRead 0 s ⟨"vf", .mesh 0, .CELL, .ALL, .MULTIVAL, 0, 0⟩ 0 2 .MATERIAL_CENTRIC = .ok (1 : Int) ∧
        (materialCells s 0).getLast? = some 2)
    | .error _ => false) = true ∧
    (match run 0 exCount (create 0 exWorld2) (exTwo ++ [Op.addCells 0 [3]]) with
    | .ok (_, s) => decide (multiRead 0 s ⟨"vf", .mesh 0, .CELL, .ALL, .MULTIVAL, 0, 0⟩ 0 2 .MATERIAL_CENTRIC = .ok (0 : Int))
    | .error _ => false) = true := by decide +kernel

-- a new material "void", then its cells
example : (match run 0 exCount (create 0 exWorld2) (exTwo ++ [Op.addMaterial "void" [], Op.addCells 2 [4, 5]]) with
    | .ok (_, s) => decide (multiRead 0 s ⟨"vf", .mesh 0, .CELL, .ALL, .MULTIVAL, 0, 0⟩ 0 2 .MATERIAL_CENTRIC = .ok (1 : Int) ∧
        multiRead 0 s ⟨"vf", .mesh 0, .CELL, .ALL, .MULTIVAL, 0, 0⟩ 2 4 .MATERIAL_CENTRIC = .ok (0 : Int) ∧
        materialCells s 2 = [4, 5])
    | .error _ => false) = true := by decide +kernel

end Jali.St
