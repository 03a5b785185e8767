import Verif.Proof.StateSites
import Mathlib.Data.List.Forall2
/-! Several state managers on one mesh: the interleaved and the solitary run of one manager. -/
namespace Jali.St
open Jali.MSet
variable {V : Type}

/-- the materials of both runs are the sets of the same names -/
def MatsRel (N : String → Prop) (w w0 : Reg.World) (mats mats0 : List Nat) : Prop :=
  List.Forall₂ (fun a a0 => ∃ n, ¬ N n ∧ Reg.findMeshset w n .CELL = some a ∧ Reg.findMeshset w0 n .CELL = some a0)
    mats mats0

theorem MatsRel.heap {N : String → Prop} {w w0 : Reg.World} (hw : WorldRel N w w0) {mats mats0 : List Nat}
    (h : MatsRel N w w0 mats mats0) :
    List.Forall₂ (fun a a0 => ∃ o : Obj, w.heap[a]? = some o ∧ w0.heap[a0]? = some o) mats mats0 := by
  refine h.imp ?_
  rintro a a0 ⟨n, hn, h1, h2⟩
  rcases hw.sets n hn with ⟨h3, -⟩ | ⟨b, b0, o, h3, h4, h5, h6⟩
  · rw [h1] at h3; cases h3
  · rw [h1] at h3; rw [h2] at h4; cases h3; cases h4; exact ⟨o, h5, h6⟩

theorem MatsRel.mono {N : String → Prop} {w w0 w' w0' : Reg.World} {mats mats0 : List Nat}
    (h : MatsRel N w w0 mats mats0)
    (h1 : ∀ m b, ¬ N m → Reg.findMeshset w m .CELL = some b → Reg.findMeshset w' m .CELL = some b)
    (h2 : ∀ m b, ¬ N m → Reg.findMeshset w0 m .CELL = some b → Reg.findMeshset w0' m .CELL = some b) :
    MatsRel N w' w0' mats mats0 := by
  refine List.Forall₂.imp ?_ h
  rintro a a0 ⟨n, hn, e1, e2⟩
  exact ⟨n, hn, h1 n a hn e1, h2 n a0 hn e2⟩

/-- what the interleaved and the solitary run of a manager have in common -/
structure StRel (N : String → Prop) (s s0 : State V) : Prop where
  eq : s0 = { s with w := s0.w, mats := s0.mats }
  w : WorldRel N s.w s0.w
  mats : MatsRel N s.w s0.w s.mats s0.mats

theorem forall2_get {α β : Type} {R : α → β → Prop} {l : List α} {l' : List β} (h : List.Forall₂ R l l') :
    ∀ i : Nat, (l[i]? = none ∧ l'[i]? = none) ∨ ∃ x y, l[i]? = some x ∧ l'[i]? = some y ∧ R x y := by
  induction h with
  | nil => intro i; left; simp
  | cons hr _ ih =>
    intro i
    cases i with
    | zero => right; exact ⟨_, _, rfl, rfl, hr⟩
    | succ i => simpa using ih i

theorem StRel.heap {N : String → Prop} {s s0 : State V} (h : StRel N s s0) :
    List.Forall₂ (fun a a0 => ∃ o : Obj, s.w.heap[a]? = some o ∧ s0.w.heap[a0]? = some o) s.mats s0.mats :=
  h.mats.heap h.w

theorem StRel.len {N : String → Prop} {s s0 : State V} (h : StRel N s s0) : s.mats.length = s0.mats.length :=
  h.mats.length_eq

theorem StRel.matSet {N : String → Prop} {s s0 : State V} (h : StRel N s s0) (m : Nat) :
    matSet s m = matSet s0 m := by
  unfold St.matSet
  rcases forall2_get h.heap m with ⟨h1, h2⟩ | ⟨a, a0, h1, h2, o, h3, h4⟩
  · rw [h1, h2]
  · rw [h1, h2]; dsimp only; rw [h3, h4]

theorem StRel.allCells {N : String → Prop} {s s0 : State V} (h : StRel N s s0) :
    allCells s.w.heap s.mats = allCells s0.w.heap s0.mats := by
  have := h.heap
  generalize s.mats = l at *
  generalize s0.mats = l0 at *
  clear h
  induction this with
  | nil => rfl
  | cons hr _ ih =>
    obtain ⟨o, h1, h2⟩ := hr
    unfold St.allCells
    rw [h1, h2]; dsimp only; rw [ih]

theorem StRel.index {N : String → Prop} {s s0 : State V} (h : StRel N s s0) (n : String) :
    materialIndexByName s n = materialIndexByName s0 n := by
  have := h.heap
  unfold materialIndexByName
  have key : ∀ l l0 : List Nat,
      List.Forall₂ (fun a a0 => ∃ o : Obj, s.w.heap[a]? = some o ∧ s0.w.heap[a0]? = some o) l l0 →
      l.findIdx? (fun a => addrNamed s n a) = l0.findIdx? (fun a => addrNamed s0 n a) := by
    intro l l0 hl
    induction hl with
    | nil => rfl
    | cons hr _ ih =>
      obtain ⟨o, h1, h2⟩ := hr
      rw [List.findIdx?_cons, List.findIdx?_cons, ih]
      unfold addrNamed
      rw [h1, h2]
  exact key _ _ this

theorem StRel.anyNamed {N : String → Prop} {s s0 : State V} (h : StRel N s s0) (n : String) :
    s.mats.any (fun a => addrNamed s n a) = s0.mats.any (fun a => addrNamed s0 n a) := by
  have := h.heap
  have key : ∀ l l0 : List Nat,
      List.Forall₂ (fun a a0 => ∃ o : Obj, s.w.heap[a]? = some o ∧ s0.w.heap[a0]? = some o) l l0 →
      l.any (fun a => addrNamed s n a) = l0.any (fun a => addrNamed s0 n a) := by
    intro l l0 hl
    induction hl with
    | nil => rfl
    | cons hr _ ih =>
      obtain ⟨o, h1, h2⟩ := hr
      rw [List.any_cons, List.any_cons, ih]
      unfold addrNamed
      rw [h1, h2]
  exact key _ _ this

theorem StRel.cellIndex {N : String → Prop} {s s0 : State V} (h : StRel N s s0) (c m : Nat) :
    cellIndexInMaterial s c m = cellIndexInMaterial s0 c m := by
  unfold cellIndexInMaterial
  rw [h.matSet m]

/-! ### one operation of the manager -/

theorem addMaterial_rel {N : String → Prop} {zero : V} {s s' s0 : State V} {n : String} {cs : List Nat}
    (h : StRel N s s0) (hn : ¬ N n) (ha : addMaterial zero s n cs = .ok s') :
    ∃ s0', addMaterial zero s0 n cs = .ok s0' ∧ StRel N s' s0' := by
  unfold addMaterial at ha ⊢
  rw [← h.anyNamed n]
  split at ha
  · rename_i hc
    cases ha
    rw [if_pos hc]; exact ⟨s0, rfl, h⟩
  · rename_i hc
    rw [if_neg hc]
    split at ha
    · cases ha
    · rename_i a w1 hset
      obtain ⟨a0, w01, hset0, hrel, hf, hf0, hk, hk0⟩ := materialSetFor_rel h.w hn hset
      rw [hset0]; dsimp only
      split at ha
      · cases ha
      · rename_i w2 hgrow
        obtain ⟨w02, hgrow0, hrel2, hf2, hf02⟩ := growSet_rel hrel hn hf hf0 hgrow
        rw [hgrow0]; dsimp only
        have e1 : sizedCellMats s0 = sizedCellMats s := by
          unfold sizedCellMats; rw [h.eq]; dsimp only; rw [h.w.view]
        rw [← h.len, e1]
        split at ha
        · cases ha
        · rename_i cm hcm
          have e2 : s0.vecs = s.vecs := by rw [h.eq]
          have e3 : s0.blocks = s.blocks := by rw [h.eq]
          rw [e2, e3]
          split at ha
          · cases ha
          · rename_i bs hbs
            cases ha
            refine ⟨_, rfl, ⟨?_, hrel2, ?_⟩⟩
            · rw [h.eq]
            · refine List.rel_append (R := fun a a0 => _) ?_ (List.Forall₂.cons ⟨n, hn, ?_, ?_⟩ List.Forall₂.nil)
              · refine MatsRel.mono h.mats (fun m b _ hb => ?_) (fun m b _ hb => ?_)
                · dsimp only; rw [hf2]; exact hk m b hb
                · dsimp only; rw [hf02]; exact hk0 m b hb
              · dsimp only; rw [hf2]; exact hf
              · dsimp only; rw [hf02]; exact hf0

theorem addCells_rel {N : String → Prop} {zero : V} {s s' s0 : State V} {m : Nat} {cs : List Nat}
    (h : StRel N s s0) (ha : addCells zero s m cs = .ok s') :
    ∃ s0', addCells zero s0 m cs = .ok s0' ∧ StRel N s' s0' := by
  unfold addCells at ha ⊢
  rcases forall2_get h.mats m with ⟨h1, -⟩ | ⟨a, a0, h1, h2, n, hn, hf, hf0⟩
  · rw [h1] at ha; cases ha
  · rw [h1] at ha
    rw [h2]
    dsimp only at ha ⊢
    split at ha
    · cases ha
    · rename_i w1 hgrow
      obtain ⟨w01, hgrow0, hrel, hf2, hf02⟩ := growSet_rel h.w hn hf hf0 hgrow
      rw [hgrow0]
      have e1 : s0.cellMats = s.cellMats := by rw [h.eq]
      have e2 : s0.vecs = s.vecs := by rw [h.eq]
      have e3 : s0.blocks = s.blocks := by rw [h.eq]
      dsimp only
      rw [e1, e2, e3]
      split at ha
      · cases ha
      · rename_i cm hcm
        split at ha
        · cases ha
        · rename_i bs hbs
          cases ha
          refine ⟨_, rfl, ⟨?_, hrel, ?_⟩⟩
          · rw [h.eq]
          · refine MatsRel.mono h.mats (fun m b _ hb => ?_) (fun m b _ hb => ?_)
            · dsimp only; rw [hf2]; exact hb
            · dsimp only; rw [hf02]; exact hb

theorem forall2_eraseIdx {α β : Type} {R : α → β → Prop} {l : List α} {l' : List β} (h : List.Forall₂ R l l') :
    ∀ i : Nat, List.Forall₂ R (l.eraseIdx i) (l'.eraseIdx i) := by
  induction h with
  | nil => intro i; simp
  | cons hr ht ih =>
    intro i
    cases i with
    | zero => simpa using ht
    | succ i => simpa using ⟨hr, ih i⟩

theorem remMaterial_rel {N : String → Prop} {s s' s0 : State V} {m : Nat}
    (h : StRel N s s0) (ha : remMaterial s m = .ok s') :
    ∃ s0', remMaterial s0 m = .ok s0' ∧ StRel N s' s0' := by
  unfold remMaterial at ha ⊢
  rw [← h.matSet m]
  split at ha
  · rename_i hm
    cases ha; exact ⟨s0, rfl, h⟩
  · rename_i o hm
    have e1 : s0.cellMats = s.cellMats := by rw [h.eq]
    have e2 : s0.vecs = s.vecs := by rw [h.eq]
    have e3 : s0.blocks = s.blocks := by rw [h.eq]
    rw [e1, e2, e3]
    split at ha
    · cases ha
    · rename_i cm hcm
      split at ha
      · cases ha
      · rename_i bs hbs
        cases ha
        refine ⟨_, rfl, ⟨?_, h.w, forall2_eraseIdx h.mats m⟩⟩
        rw [h.eq]

/-- an operation that only looks at the materials and does not change them -/
theorem rel_of_same {N : String → Prop} {s s0 : State V} (h : StRel N s s0) (g : State V → State V)
    (hg : ∀ s : State V, (g s).w = s.w ∧ (g s).mats = s.mats)
    (he : ∀ (s : State V) (w : Reg.World) (m : List Nat), g { s with w := w, mats := m } = { g s with w := w, mats := m }) :
    StRel N (g s) (g s0) := by
  refine ⟨?_, ?_, ?_⟩
  · rw [(hg s0).1, (hg s0).2, ← he s s0.w s0.mats, ← h.eq]
  · rw [(hg s).1, (hg s0).1]; exact h.w
  · rw [(hg s).1, (hg s0).1, (hg s).2, (hg s0).2]; exact h.mats

end Jali.St
