import Verif.Spec.Materials
import Verif.Proof.State
import Verif.Proof.MeshSetAdd
/-! Lemmas about materials of the state manager. -/
namespace Jali.St
open Jali.MSet
variable {V : Type}

/-- the set of a material -/
structure SetOk (m : MeshView) (x : Mat) (o : Obj) : Prop where
  name : o.name = x.name
  kind : o.kind = .CELL
  loose : Loose m o
  map : o.haveMap = true
  perm : o.all.Perm x.cells
  exact : x.late = false → Proper m o ∧ IndexExact m o

/-- the state agrees with the materials asked for -/
structure MInv (w0 : Reg.World) (s : State V) (A : Mats) : Prop where
  view : s.w.view = w0.view
  reg : RegOk s.w
  len : s.mats.length = A.mats.length
  nodup : s.mats.Nodup
  sets : ∀ (i a : Nat) (x : Mat), s.mats[i]? = some a → A.mats[i]? = some x →
    ∃ o, s.w.heap[a]? = some o ∧ SetOk (w0.view .CELL) x o
  names : (A.mats.map fun x => x.name).Nodup
  fresh : ∀ n, Reg.findMeshset w0 n .CELL = none → n ∉ A.mats.map (fun x => x.name) →
    Reg.findMeshset s.w n .CELL = none
  cellLen : A.mats ≠ [] → s.cellMats.length = (w0.view .CELL).nAll
  cells0 : s.cellMats = [] ∨ s.cellMats.length = (w0.view .CELL).nAll
  cell : ∀ (c : Nat) (l : List Nat), s.cellMats[c]? = some l → l = A.cell c
  cellNil : A.mats = [] → ∀ c, A.cell c = []
  cellNodup : ∀ c, (A.cell c).Nodup
  inv : ∀ c (m : Nat), m ∈ A.cell c ↔ ∃ x, A.mats[m]? = some x ∧ c ∈ x.cells
  dataLt : ∀ v ∈ s.vecs, v.data < s.blocks.length
  dataNodup : (s.vecs.map fun v => v.data).Nodup
  multi : ∀ v ∈ s.vecs, v.vectype = .MULTIVAL → (∃ d, v.domain = .mesh d) ∧
    ∃ l, s.blocks[v.data]? = some (.multi l) ∧ l.map List.length = A.mats.map fun x => x.cells.length
  found : ∀ (i a : Nat) (x : Mat), s.mats[i]? = some a → A.mats[i]? = some x →
    Reg.findMeshset s.w x.name .CELL = some a

theorem minv_create (mesh : Nat) (w : Reg.World) (hw : RegOk w) : MInv w (create (V := V) mesh w) Mats.none := by
  refine ⟨rfl, hw, rfl, List.nodup_nil, ?_, List.nodup_nil, fun n h _ => h, ?_, Or.inl rfl, ?_, ?_, ?_, ?_, ?_,
    List.nodup_nil, ?_, ?_⟩ <;> simp [create, Mats.none]

/-- `pushMats` appends to the lists of the given cells -/
theorem pushMats_ok (m : Nat) (cs : List Nat) : ∀ cm : List (List Nat), cs.Nodup → (∀ c ∈ cs, c < cm.length) →
    ∃ cm', pushMats m cs cm = .ok cm' ∧ cm'.length = cm.length ∧
      ∀ c, cm'[c]? = (cm[c]?).map fun l => if c ∈ cs then l ++ [m] else l := by
  induction cs with
  | nil => intro cm _ _; exact ⟨cm, rfl, rfl, fun c => by simp⟩
  | cons c cs ih =>
    intro cm hn hb
    rw [List.nodup_cons] at hn
    have hc := hb c (by simp)
    obtain ⟨cm', h1, h2, h3⟩ := ih (cm.set c (cm[c] ++ [m])) hn.2 (fun a ha => by
      rw [List.length_set]; exact hb a (by simp [ha]))
    refine ⟨cm', by simp [pushMats, hc, h1], by rw [h2, List.length_set], fun a => ?_⟩
    rw [h3]
    by_cases hca : c = a
    · subst hca
      simp [hc, hn.1]
    · have : a ≠ c := fun h => hca h.symm
      rw [List.getElem?_set_ne hca]
      simp [this]

theorem onMesh_iff (d : Domain) : onMesh d = true ↔ ∃ i, d = .mesh i := by
  cases d <;> simp [onMesh]

/-- the vectors an operation on materials touches -/
def Touched (vs : List Vec) (a : Nat) : Prop := ∃ v ∈ vs, v.vectype = .MULTIVAL ∧ v.data = a

theorem forMulti_ok (f : List (List V) → Except Err (List (List V))) (g : List (List V) → List (List V))
    (vs : List Vec) : ∀ bs : List (Block V), (vs.map fun v => v.data).Nodup →
    (∀ v ∈ vs, v.vectype = .MULTIVAL → (∃ d, v.domain = .mesh d) ∧
      ∃ l, bs[v.data]? = some (.multi l) ∧ f l = .ok (g l)) →
    ∃ bs', forMulti f vs bs = .ok bs' ∧ forMultiUnchecked f vs bs = .ok bs' ∧ bs'.length = bs.length ∧
      (∀ v ∈ vs, v.vectype = .MULTIVAL → ∀ l, bs[v.data]? = some (.multi l) →
        bs'[v.data]? = some (.multi (g l))) ∧
      ∀ a, ¬ Touched vs a → bs'[a]? = bs[a]? := by
  induction vs with
  | nil => intro bs _ _; exact ⟨bs, rfl, rfl, rfl, by simp, fun _ _ => rfl⟩
  | cons v vs ih =>
    intro bs hn h
    rw [List.map_cons, List.nodup_cons] at hn
    have hne : ∀ u ∈ vs, u.data ≠ v.data := fun u hu he => hn.1 (List.mem_map.2 ⟨u, hu, he⟩)
    by_cases hv : v.vectype = .MULTIVAL
    · obtain ⟨hd, l, hl, hf⟩ := h v (by simp) hv
      have hom := (onMesh_iff _).2 hd
      have hset : ∀ a, a ≠ v.data → (bs.set v.data (.multi (g l)))[a]? = bs[a]? := fun a ha =>
        List.getElem?_set_ne (fun he => ha he.symm)
      obtain ⟨bs', h1, h2, h3, h4, h5⟩ := ih (bs.set v.data (.multi (g l))) hn.2 (fun u hu hm => by
        obtain ⟨e1, l', e2, e3⟩ := h u (by simp [hu]) hm
        exact ⟨e1, l', by rw [hset _ (hne u hu)]; exact e2, e3⟩)
      have hlt : v.data < bs.length := (List.getElem?_eq_some_iff.1 hl).1
      have hon : onMulti f bs v.data = .ok (bs.set v.data (.multi (g l))) := by
        unfold onMulti; simp only [hl, hf]
      have hself : bs'[v.data]? = some (.multi (g l)) := by
        rw [h5 v.data (by rintro ⟨u, hu, -, he⟩; exact hne u hu he)]
        simp [hlt]
      refine ⟨bs', by simp [forMulti, hv, hom, hon, h1], by simp [forMultiUnchecked, hv, hom, hon, h2],
        by rw [h3, List.length_set], ?_, ?_⟩
      · intro u hu hm l' hl'
        rcases List.mem_cons.1 hu with rfl | hu
        · rw [hl] at hl'; injection hl' with hl'; injection hl' with hl'; subst hl'; exact hself
        · exact h4 u hu hm l' (by rw [hset _ (hne u hu)]; exact hl')
      · intro a ha
        have h1' : v.data ≠ a := fun he => ha ⟨v, by simp, hv, he⟩
        rw [h5 a (by rintro ⟨u, hu, e1, e2⟩; exact ha ⟨u, by simp [hu], e1, e2⟩), hset a (fun e => h1' e.symm)]
    · obtain ⟨bs', h1, h2, h3, h4, h5⟩ := ih bs hn.2 (fun u hu => h u (by simp [hu]))
      refine ⟨bs', by simp [forMulti, hv, h1], by simp [forMultiUnchecked, hv, h2], h3, ?_, ?_⟩
      · intro u hu hm
        rcases List.mem_cons.1 hu with rfl | hu
        · exact absurd hm hv
        · exact h4 u hu hm
      · intro a ha
        exact h5 a (by rintro ⟨u, hu, e1, e2⟩; exact ha ⟨u, by simp [hu], e1, e2⟩)

/-- look-up in the registry only depends on the names and kinds of the registered sets -/
theorem findMeshset_congr {w w' : Reg.World} {n : String} {k : EntityKind} (hr : w'.reg = w.reg)
    (h : ∀ a ∈ w.reg, Reg.nameKind w' a n k = Reg.nameKind w a n k) :
    Reg.findMeshset w' n k = Reg.findMeshset w n k := by
  unfold Reg.findMeshset
  rw [hr]
  have : ∀ l : List Nat, (∀ a ∈ l, Reg.nameKind w' a n k = Reg.nameKind w a n k) →
      l.find? (fun a => Reg.nameKind w' a n k) = l.find? (fun a => Reg.nameKind w a n k) := by
    intro l
    induction l with
    | nil => intro _; rfl
    | cons a l ih =>
      intro h
      rw [List.find?_cons, List.find?_cons, h a (by simp), ih (fun b hb => h b (by simp [hb]))]
  exact this _ h

theorem growSet_find {w : Reg.World} {a : Nat} {o o' : Obj} (ho : w.heap[a]? = some o) (hid : SameId o o')
    (n : String) (k : EntityKind) :
    Reg.findMeshset { w with heap := w.heap.set a o' } n k = Reg.findMeshset w n k := by
  refine findMeshset_congr (w := w) (w' := { w with heap := w.heap.set a o' }) rfl ?_
  intro b _
  unfold Reg.nameKind
  dsimp only
  by_cases hab : a = b
  · subst hab
    have : a < w.heap.length := (List.getElem?_eq_some_iff.1 ho).1
    rw [List.getElem?_set_self this, ho]
    simp only [hid.name, hid.kind]
  · rw [List.getElem?_set_ne hab]

theorem getElem?_append_one {α : Type} {l : List α} {x y : α} {i : Nat} (h : (l ++ [x])[i]? = some y) :
    l[i]? = some y ∨ (i = l.length ∧ y = x) := by
  by_cases hi : i < l.length
  · rw [List.getElem?_append_left hi] at h; exact Or.inl h
  · rw [List.getElem?_append_right (by omega)] at h
    by_cases h0 : i - l.length = 0
    · rw [h0] at h
      simp at h
      exact Or.inr ⟨by omega, h.symm⟩
    · rw [List.getElem?_eq_none (by simp; omega)] at h; cases h

theorem resize_len (zero : V) (row : List V) (n : Nat) : resizeTo zero row (row.length + n) = row ++ List.replicate n zero := by
  unfold resizeTo
  rw [List.take_of_length_le (by omega)]
  congr 2; omega

theorem addrNamed_iff {w0 : Reg.World} {s : State V} {A : Mats} (h : MInv w0 s A) {i a : Nat} {x : Mat} {n : String}
    (ha : s.mats[i]? = some a) (hx : A.mats[i]? = some x) : addrNamed s n a = true ↔ x.name = n := by
  obtain ⟨o, ho, hs⟩ := h.sets i a x ha hx
  simp [addrNamed, ho, hs.name]

theorem getA {w0 : Reg.World} {s : State V} {A : Mats} (h : MInv w0 s A) {i a : Nat} (ha : s.mats[i]? = some a) :
    ∃ x, A.mats[i]? = some x := by
  have : i < A.mats.length := by rw [← h.len]; exact (List.getElem?_eq_some_iff.1 ha).1
  exact ⟨_, List.getElem?_eq_getElem this⟩

theorem getS {w0 : Reg.World} {s : State V} {A : Mats} (h : MInv w0 s A) {i : Nat} {x : Mat}
    (hx : A.mats[i]? = some x) : ∃ a, s.mats[i]? = some a := by
  have : i < s.mats.length := by rw [h.len]; exact (List.getElem?_eq_some_iff.1 hx).1
  exact ⟨_, List.getElem?_eq_getElem this⟩

theorem any_named {w0 : Reg.World} {s : State V} {A : Mats} (h : MInv w0 s A) (n : String) :
    s.mats.any (fun a => addrNamed s n a) = true ↔ n ∈ A.mats.map (fun x => x.name) := by
  rw [List.any_eq_true, List.mem_map]
  constructor
  · rintro ⟨a, ha, hn⟩
    obtain ⟨i, hi, rfl⟩ := List.getElem_of_mem ha
    have hi' : s.mats[i]? = some s.mats[i] := List.getElem?_eq_getElem hi
    obtain ⟨x, hx⟩ := getA h hi'
    exact ⟨x, List.mem_of_getElem? hx, (addrNamed_iff h hi' hx).1 hn⟩
  · rintro ⟨x, hx, hn⟩
    obtain ⟨i, hi, rfl⟩ := List.getElem_of_mem hx
    have hi' : A.mats[i]? = some A.mats[i] := List.getElem?_eq_getElem hi
    obtain ⟨a, ha⟩ := getS h hi'
    exact ⟨a, List.mem_of_getElem? ha, (addrNamed_iff h ha hi').2 hn⟩

theorem modify_get {α : Type} {l : List α} {i j : Nat} {f : α → α} {y : α} (h : (l.modify i f)[j]? = some y) :
    ∃ x, l[j]? = some x ∧ y = if i = j then f x else x := by
  rw [List.getElem?_modify] at h
  by_cases hij : i = j
  · simp only [hij, if_true, Option.map_eq_map, Option.map_eq_some_iff] at h
    obtain ⟨x, hx, hxy⟩ := h
    exact ⟨x, hx, by simp [hij, hxy]⟩
  · simp only [hij, if_false, Option.map_eq_map, Option.map_id_fun', id_eq] at h
    exact ⟨y, h, by simp [hij]⟩

/-- What happens to the data of the state vectors when a material is added or gets cells. -/
structure DataStep (s s' : State V) (g : List (List V) → List (List V)) : Prop where
  vecs : s'.vecs = s.vecs
  multi : ∀ v ∈ s.vecs, v.vectype = .MULTIVAL → ∀ l, s.blocks[v.data]? = some (.multi l) →
    s'.blocks[v.data]? = some (.multi (g l))
  other : ∀ a, ¬ Touched s.vecs a → s'.blocks[a]? = s.blocks[a]?

/-- a new material -/
theorem addMaterial_new {w0 : Reg.World} {s : State V} {A : Mats} (zero : V) (h : MInv w0 s A) (n : String)
    (cs : List Nat) (hn : n ∉ A.mats.map (fun x => x.name)) (hw : Reg.findMeshset w0 n .CELL = none)
    (hc : NewCells (w0.view .CELL) [] cs) :
    ∃ s', addMaterial zero s n cs = .ok s' ∧ MInv w0 s' ((Op.addMaterial (V := V) n cs).onMats A) ∧
      DataStep s s' (fun l => l ++ [List.replicate cs.length zero]) := by
  have hany : s.mats.any (fun a => addrNamed s n a) ≠ true := fun hh => hn ((any_named h n).1 hh)
  have hfind := h.fresh n hw hn
  -- the new set
  obtain ⟨map, hcon, hml, hme⟩ := construct_ok (s.w.view .CELL) n 0 .CELL [] [] true (by simp) (by simp)
  simp only [List.append_nil, if_true] at hcon hml hme
  let o0 : Obj := ⟨n, 0, .CELL, [], [], [], true, map⟩
  have hview : s.w.view .CELL = w0.view .CELL := by rw [h.view]
  have hloose0 : Loose (w0.view .CELL) o0 :=
    ⟨List.Perm.refl _, List.nodup_nil, by simp [o0], by simp [o0], by simp [o0], by simp [o0, hml, hview]⟩
  have hmap0 : o0.map = List.replicate (w0.view .CELL).nAll (-1) := by
    apply List.ext_getElem?
    intro e
    by_cases he : e < (w0.view .CELL).nAll
    · have := hme trivial e (by rw [hview]; exact he)
      rw [posOrNeg_of_not_mem (by simp)] at this
      simp [o0, this, he]
    · rw [List.getElem?_eq_none (by simp [o0, hml, hview]; omega), List.getElem?_eq_none (by simp; omega)]
  obtain ⟨o1, hadd, hprop, hid, hperm, hex⟩ := addEntities_new (w0.view .CELL) o0 cs hloose0
    ⟨hc.nodup, by simp [o0], hc.bound, hc.typed, hc.some_owned⟩ rfl rfl hmap0
  let w1 : Reg.World := ⟨s.w.view, s.w.heap ++ [o0], s.w.reg ++ [s.w.heap.length]⟩
  have hset : materialSetFor s.w n = .ok (s.w.heap.length, w1) := by
    unfold materialSetFor
    simp only [hfind, Reg.makeMeshset, hcon]
    rfl
  let w2 : Reg.World := ⟨s.w.view, (s.w.heap ++ [o0]).set s.w.heap.length o1, s.w.reg ++ [s.w.heap.length]⟩
  have hgrow : growSet w1 s.w.heap.length cs = .ok w2 := by
    unfold growSet
    have : w1.heap[s.w.heap.length]? = some o0 := by simp [w1]
    have hv : w1.view .CELL = w0.view .CELL := hview
    simp only [this, hv, hadd]
    rfl
  have hszl : (sizedCellMats s).length = (w0.view .CELL).nAll := by
    unfold sizedCellMats
    split
    · rw [hview, List.length_replicate]
    · rcases h.cells0 with h0 | h0
      · rename_i hh; exact absurd (by rw [h0]; rfl) hh
      · exact h0
  have hszc : ∀ c l, (sizedCellMats s)[c]? = some l → l = A.cell c := by
    intro c l hl
    unfold sizedCellMats at hl
    split at hl
    · rename_i h0
      have hl' := List.mem_replicate.1 (List.mem_of_getElem? hl)
      have : A.mats = [] := by
        by_contra hne
        have := h.cellLen hne
        have h3 := (List.getElem?_eq_some_iff.1 hl).1
        rw [List.length_replicate, hview] at h3
        omega
      rw [hl'.2, h.cellNil this c]
    · exact h.cell c l hl
  obtain ⟨cm, hpush, hcml, hcmc⟩ := pushMats_ok s.mats.length cs (sizedCellMats s) hc.nodup
    (fun c hcc => by rw [hszl]; exact hc.bound c hcc)
  obtain ⟨bs, hfor, -, hbl, hbm, hbo⟩ := forMulti_ok (mvAddMaterial zero cs.length)
    (fun l => l ++ [List.replicate cs.length zero]) s.vecs s.blocks h.dataNodup (fun v hv hm => by
      obtain ⟨e1, l, e2, -⟩ := h.multi v hv hm
      exact ⟨e1, l, e2, rfl⟩)
  let s' : State V := { s with w := w2, mats := s.mats ++ [s.w.heap.length], cellMats := cm, blocks := bs }
  have hok : addMaterial zero s n cs = .ok s' := by
    unfold addMaterial
    rw [if_neg hany]
    simp only [hset, hgrow, hpush, hfor]
    rfl
  have hmatslt : ∀ a ∈ s.mats, a < s.w.heap.length := by
    intro a ha
    obtain ⟨i, hi, rfl⟩ := List.getElem_of_mem ha
    have hi' : s.mats[i]? = some s.mats[i] := List.getElem?_eq_getElem hi
    obtain ⟨x, hx⟩ := getA h hi'
    obtain ⟨o, ho, -⟩ := h.sets i _ x hi' hx
    exact (List.getElem?_eq_some_iff.1 ho).1
  have hnew : w2.heap[s.w.heap.length]? = some o1 := by simp [w2]
  have hold : ∀ a, a < s.w.heap.length → w2.heap[a]? = s.w.heap[a]? := by
    intro a ha
    simp only [w2]
    rw [List.getElem?_set_ne (by omega), List.getElem?_append_left ha]
  have hnk : ∀ n' a, a < s.w.heap.length → Reg.nameKind w2 a n' .CELL = Reg.nameKind s.w a n' .CELL := by
    intro n' a ha
    unfold Reg.nameKind
    rw [hold a ha]
  have hreg2 : ∀ n', s.w.reg.find? (fun a => Reg.nameKind w2 a n' .CELL) = Reg.findMeshset s.w n' .CELL := by
    intro n'
    exact findMeshset_congr (w := s.w) (w' := { w2 with reg := s.w.reg }) rfl (fun a ha => hnk n' a (h.reg a ha))
  have hname1 : o1.name = n := hid.name
  have hkind1 : o1.kind = .CELL := hid.kind
  have hfind2 : ∀ n', Reg.findMeshset w2 n' .CELL =
      if n' = n then some s.w.heap.length else Reg.findMeshset s.w n' .CELL := by
    intro n'
    show (s.w.reg ++ [s.w.heap.length]).find? (fun a => Reg.nameKind w2 a n' .CELL) = _
    rw [List.find?_append, hreg2]
    have h3 : Reg.nameKind w2 s.w.heap.length n' .CELL = decide (n = n') := by
      unfold Reg.nameKind
      rw [hnew]
      simp [hname1, hkind1]
    rw [List.find?_cons, h3]
    by_cases hnn : n' = n
    · subst hnn; simp [hfind]
    · have : ¬ n = n' := fun e => hnn e.symm
      simp [hnn, this]
  refine ⟨s', hok, ?_, ⟨rfl, hbm, hbo⟩⟩
  have hA : (Op.addMaterial (V := V) n cs).onMats A =
      ⟨A.mats ++ [⟨n, cs, false⟩], fun c => if c ∈ cs then A.cell c ++ [A.mats.length] else A.cell c⟩ := by
    simp only [Op.onMats, if_neg hn]
  rw [hA]
  have hlenA : ∀ c, A.mats.length ∉ A.cell c := by
    intro c hm
    obtain ⟨x, hx, -⟩ := (h.inv c _).1 hm
    rw [List.getElem?_eq_none (by omega)] at hx; cases hx
  refine ⟨h.view, ?_, by simp [s', h.len], ?_, ?_, ?_, ?_, fun _ => by rw [hcml, hszl],
    Or.inr (by rw [hcml, hszl]), ?_, by simp, ?_, ?_, ?_, h.dataNodup, ?_, ?_⟩
  · intro a ha
    simp only [s', w2, List.mem_append, List.mem_singleton, List.length_set, List.length_append,
      List.length_singleton] at ha ⊢
    rcases ha with ha | ha
    · have := h.reg a ha; omega
    · omega
  · simp only [s']
    rw [List.nodup_append]
    refine ⟨h.nodup, by simp, ?_⟩
    intro a ha b hb hab
    rw [List.mem_singleton] at hb
    have := hmatslt a ha
    omega
  · intro i a x ha hx
    simp only [s'] at ha ⊢
    dsimp only at hx
    rcases getElem?_append_one ha with ha | ⟨hi, rfl⟩
    · rcases getElem?_append_one hx with hx | ⟨hi, -⟩
      · obtain ⟨o, ho, hs⟩ := h.sets i a x ha hx
        exact ⟨o, by rw [hold a (hmatslt a (List.mem_of_getElem? ha))]; exact ho, hs⟩
      · have := (List.getElem?_eq_some_iff.1 ha).1
        have := h.len
        omega
    · rcases getElem?_append_one hx with hx | ⟨-, rfl⟩
      · have := (List.getElem?_eq_some_iff.1 hx).1
        have := h.len
        omega
      · exact ⟨o1, hnew, hid.name, hid.kind, Proper.loose hprop, hid.haveMap, hperm, fun _ => ⟨hprop, hex⟩⟩
  · rw [List.map_append, List.nodup_append]
    refine ⟨h.names, by simp, ?_⟩
    intro a ha b hb hab
    simp only [List.map_cons, List.map_nil, List.mem_singleton] at hb
    subst hb; subst hab
    exact hn ha
  · intro n' hn' hnot
    simp only [List.map_append, List.map_cons, List.map_nil, List.mem_append, List.mem_singleton, not_or] at hnot
    simp only [s']
    rw [hfind2, if_neg hnot.2]
    exact h.fresh n' hn' hnot.1
  · intro c l hl
    simp only [s'] at hl
    rw [hcmc] at hl
    obtain ⟨l0, hl0, rfl⟩ := Option.map_eq_some_iff.1 hl
    rw [hszc c l0 hl0, h.len]
  · intro c
    dsimp only
    split
    · rw [List.nodup_append]
      refine ⟨h.cellNodup c, by simp, ?_⟩
      intro a ha b hb hab
      rw [List.mem_singleton] at hb
      subst hb; subst hab
      exact hlenA c ha
    · exact h.cellNodup c
  · intro c m
    dsimp only
    have hlt : ∀ x, A.mats[m]? = some x → (A.mats ++ [(⟨n, cs, false⟩ : Mat)])[m]? = some x := by
      intro x hx
      rw [List.getElem?_append_left (List.getElem?_eq_some_iff.1 hx).1]; exact hx
    constructor
    · intro hm
      by_cases hcc : c ∈ cs
      · rw [if_pos hcc, List.mem_append, List.mem_singleton] at hm
        rcases hm with hm | rfl
        · obtain ⟨x, hx, hcx⟩ := (h.inv c m).1 hm
          exact ⟨x, hlt x hx, hcx⟩
        · exact ⟨⟨n, cs, false⟩, by simp, hcc⟩
      · rw [if_neg hcc] at hm
        obtain ⟨x, hx, hcx⟩ := (h.inv c m).1 hm
        exact ⟨x, hlt x hx, hcx⟩
    · rintro ⟨x, hx, hcx⟩
      rcases getElem?_append_one hx with hx | ⟨rfl, rfl⟩
      · have := (h.inv c m).2 ⟨x, hx, hcx⟩
        split
        · exact List.mem_append_left _ this
        · exact this
      · dsimp only at hcx
        rw [if_pos hcx]; simp
  · intro v hv
    simp only [s'] at hv ⊢
    rw [hbl]; exact h.dataLt v hv
  · intro v hv hm
    obtain ⟨e1, l, e2, e3⟩ := h.multi v hv hm
    exact ⟨e1, _, hbm v hv hm l e2, by simp [e3]⟩
  · intro i a x ha hx
    simp only [s'] at ha ⊢
    dsimp only at hx
    rw [hfind2]
    rcases getElem?_append_one ha with ha | ⟨hi, rfl⟩
    · rcases getElem?_append_one hx with hx' | ⟨hi, -⟩
      · rw [if_neg]
        · exact h.found i a x ha hx'
        · intro he
          exact hn (List.mem_map.2 ⟨x, List.mem_of_getElem? hx', he⟩)
      · have := (List.getElem?_eq_some_iff.1 ha).1
        have := h.len
        omega
    · rcases getElem?_append_one hx with hx | ⟨-, rfl⟩
      · have := (List.getElem?_eq_some_iff.1 hx).1
        have := h.len
        omega
      · rw [if_pos rfl]

/-- more cells for a material -/
theorem addCells_ok {w0 : Reg.World} {s : State V} {A : Mats} (zero : V) (h : MInv w0 s A) (i : Nat)
    (cs : List Nat) (x : Mat) (hx : A.mats[i]? = some x) (hc : NewCells (w0.view .CELL) x.cells cs) :
    ∃ s', addCells zero s i cs = .ok s' ∧ MInv w0 s' ((Op.addCells (V := V) i cs).onMats A) ∧
      DataStep s s' (fun l => l.modify i fun row => row ++ List.replicate cs.length zero) := by
  obtain ⟨a, ha⟩ := getS h hx
  obtain ⟨o, ho, hs⟩ := h.sets i a x ha hx
  have hview : s.w.view .CELL = w0.view .CELL := by rw [h.view]
  have hAdd : Addable (w0.view .CELL) o cs :=
    ⟨hc.nodup, fun e he hm => hc.absent e he (hs.perm.mem_iff.1 hm), hc.bound, hc.typed, hc.some_owned⟩
  obtain ⟨o', hadd, hloose, hid, hperm, -⟩ := addEntities_loose (w0.view .CELL) o cs hs.loose hAdd
  have hnotlate : (x.late || !x.cells.isEmpty) = false → Proper (w0.view .CELL) o' ∧ IndexExact (w0.view .CELL) o' := by
    intro hl
    rw [Bool.or_eq_false_iff] at hl
    have hemp : o.all = [] := by
      have := hs.perm
      have hx0 : x.cells = [] := by simpa using hl.2
      rw [hx0] at this
      exact List.Perm.eq_nil this
    have hmap0 : o.map = List.replicate (w0.view .CELL).nAll (-1) := by
      have hlen : o.map.length = (w0.view .CELL).nAll := by rw [hs.loose.map_len, if_pos hs.map]
      apply List.ext_getElem?
      intro e
      by_cases he : e < (w0.view .CELL).nAll
      · have := (hs.exact hl.1).2 e he
        rw [entities_all, hemp, posOrNeg_of_not_mem (by simp)] at this
        rw [indexInSet_get (by omega) this]
        simp [he]
      · rw [List.getElem?_eq_none (by omega), List.getElem?_eq_none (by simp; omega)]
    obtain ⟨o2, e1, e2, -, -, e3⟩ := addEntities_new (w0.view .CELL) o cs hs.loose hAdd hemp hs.map hmap0
    rw [hadd] at e1
    injection e1 with e1
    subst e1
    exact ⟨e2, e3⟩
  let w1 : Reg.World := { s.w with heap := s.w.heap.set a o' }
  have hgrow : growSet s.w a cs = .ok w1 := by
    unfold growSet
    simp only [ho, hview, hadd]
    rfl
  have hne : A.mats ≠ [] := by rintro h0; rw [h0] at hx; cases hx
  have hcl := h.cellLen hne
  obtain ⟨cm, hpush, hcml, hcmc⟩ := pushMats_ok i cs s.cellMats hc.nodup
    (fun c hcc => by rw [hcl]; exact hc.bound c hcc)
  have hilt : i < A.mats.length := (List.getElem?_eq_some_iff.1 hx).1
  obtain ⟨bs, -, hfor, hbl, hbm, hbo⟩ := forMulti_ok (mvGrow zero i cs.length)
    (fun l => l.modify i fun row => row ++ List.replicate cs.length zero) s.vecs s.blocks h.dataNodup (fun v hv hm => by
      obtain ⟨e1, l, e2, e3⟩ := h.multi v hv hm
      have hil : i < l.length := by
        have := congrArg List.length e3
        simp only [List.length_map] at this
        omega
      refine ⟨e1, l, e2, ?_⟩
      unfold mvGrow
      simp only [List.getElem?_eq_getElem hil, resize_len]
      congr 1
      apply List.ext_getElem?
      intro j
      rw [List.getElem?_modify]
      by_cases hij : i = j
      · subst hij; simp [hil]
      · rw [List.getElem?_set_ne hij]; simp [hij])
  let s' : State V := { s with w := w1, cellMats := cm, blocks := bs }
  have hok : addCells zero s i cs = .ok s' := by
    unfold addCells
    simp only [ha, hgrow, hpush, hfor]
    rfl
  have halt : a < s.w.heap.length := (List.getElem?_eq_some_iff.1 ho).1
  refine ⟨s', hok, ?_, ⟨rfl, hbm, hbo⟩⟩
  have hnames : ((A.mats.modify i fun x => (⟨x.name, x.cells ++ cs, x.late || !x.cells.isEmpty⟩ : Mat)).map
      fun x => x.name) = A.mats.map fun x => x.name := by
    apply List.ext_getElem?
    intro j
    rw [List.getElem?_map, List.getElem?_map, List.getElem?_modify]
    cases A.mats[j]? with
    | none => simp
    | some y => by_cases hij : i = j <;> simp [hij]
  refine ⟨h.view, ?_, ?_, h.nodup, ?_, ?_, ?_, ?_, Or.inr (by rw [hcml, hcl]), ?_, ?_, ?_, ?_, ?_, h.dataNodup, ?_, ?_⟩
  · intro b hb
    simp only [s', w1, List.length_set] at hb ⊢
    exact h.reg b hb
  · simp only [Op.onMats, s', List.length_modify]; exact h.len
  · intro j b y hb hy
    simp only [s', Op.onMats] at hb hy ⊢
    obtain ⟨z, hz, rfl⟩ := modify_get hy
    by_cases hij : i = j
    · subst hij
      rw [ha] at hb; injection hb with hb; subst hb
      rw [hx] at hz; injection hz with hz; subst hz
      refine ⟨o', by simp [w1, halt], ?_⟩
      rw [if_pos rfl]
      exact ⟨hid.name.trans hs.name, hid.kind.trans hs.kind, hloose, hid.haveMap.trans hs.map,
        hperm.trans (hs.perm.append_right cs), hnotlate⟩
    · rw [if_neg hij]
      have hab : a ≠ b := by
        rintro rfl
        exact hij ((List.getElem?_inj (List.getElem?_eq_some_iff.1 ha).1 h.nodup).1 (ha.trans hb.symm))
      obtain ⟨p, hp, hps⟩ := h.sets j b z hb hz
      exact ⟨p, by simp only [w1]; rw [List.getElem?_set_ne hab]; exact hp, hps⟩
  · simp only [Op.onMats]; rw [hnames]; exact h.names
  · intro n hn hnot
    simp only [Op.onMats] at hnot
    rw [hnames] at hnot
    simp only [s', w1]
    rw [growSet_find ho hid]
    exact h.fresh n hn hnot
  · intro _; rw [hcml, hcl]
  · intro c l hl
    simp only [s'] at hl
    rw [hcmc] at hl
    obtain ⟨l0, hl0, rfl⟩ := Option.map_eq_some_iff.1 hl
    rw [h.cell c l0 hl0]
    rfl
  · intro h0
    simp only [Op.onMats] at h0
    have := congrArg List.length h0
    simp only [List.length_modify, List.length_nil] at this
    omega
  · intro c
    simp only [Op.onMats]
    split
    · rename_i hcc
      rw [List.nodup_append]
      refine ⟨h.cellNodup c, by simp, ?_⟩
      intro p hp q hq hpq
      rw [List.mem_singleton] at hq
      subst hq; subst hpq
      obtain ⟨y, hy, hcy⟩ := (h.inv c _).1 hp
      rw [hx] at hy; injection hy with hy; subst hy
      exact hc.absent c hcc hcy
    · exact h.cellNodup c
  · intro c m
    simp only [Op.onMats]
    constructor
    · intro hm
      have : m ∈ A.cell c ∨ (c ∈ cs ∧ m = i) := by
        split at hm
        · rename_i hcc
          rw [List.mem_append, List.mem_singleton] at hm
          rcases hm with hm | hm
          exacts [Or.inl hm, Or.inr ⟨hcc, hm⟩]
        · exact Or.inl hm
      rcases this with hm | ⟨hcc, rfl⟩
      · obtain ⟨y, hy, hcy⟩ := (h.inv c m).1 hm
        refine ⟨_, by rw [List.getElem?_modify, hy]; rfl, ?_⟩
        by_cases him : i = m
        · simp [him, hcy]
        · simp [him, hcy]
      · exact ⟨_, by rw [List.getElem?_modify, hx]; rfl, by simp [hcc]⟩
    · rintro ⟨y, hy, hcy⟩
      obtain ⟨z, hz, rfl⟩ := modify_get hy
      by_cases him : i = m
      · subst him
        rw [if_pos rfl] at hcy
        dsimp only at hcy
        rcases List.mem_append.1 hcy with hcy | hcy
        · have := (h.inv c i).2 ⟨z, hz, hcy⟩
          split
          · exact List.mem_append_left _ this
          · exact this
        · rw [if_pos hcy]; simp
      · rw [if_neg him] at hcy
        have := (h.inv c m).2 ⟨z, hz, hcy⟩
        split
        · exact List.mem_append_left _ this
        · exact this
  · intro v hv
    simp only [s'] at hv ⊢
    rw [hbl]; exact h.dataLt v hv
  · intro v hv hm
    obtain ⟨e1, l, e2, e3⟩ := h.multi v hv hm
    refine ⟨e1, _, hbm v hv hm l e2, ?_⟩
    simp only [Op.onMats]
    apply List.ext_getElem?
    intro j
    have e3' := congrArg (fun l : List Nat => l[j]?) e3
    simp only [List.getElem?_map] at e3' ⊢
    rw [List.getElem?_modify, List.getElem?_modify]
    by_cases hij : i = j
    · subst hij
      simp only [if_true]
      cases h1 : l[i]? with
      | none => rw [h1] at e3'; cases h2 : A.mats[i]? with
        | none => simp
        | some y => rw [h2] at e3'; cases e3'
      | some row =>
        rw [h1] at e3'
        cases h2 : A.mats[i]? with
        | none => rw [h2] at e3'; cases e3'
        | some y => rw [h2] at e3'; simp at e3' ⊢; exact e3'
    · simpa [hij] using e3'
  · intro j b y hb hy
    simp only [s', Op.onMats, w1] at hb hy ⊢
    obtain ⟨z, hz, rfl⟩ := modify_get hy
    rw [growSet_find ho hid]
    have : (if i = j then (⟨z.name, z.cells ++ cs, z.late || !z.cells.isEmpty⟩ : Mat) else z).name = z.name := by
      split <;> rfl
    rw [this]
    exact h.found j b z hb hz

end Jali.St
