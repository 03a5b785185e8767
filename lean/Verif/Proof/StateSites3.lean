import Verif.Proof.StateSites2
/-! Several state managers on one mesh: all operations, and histories. -/
namespace Jali.St
open Jali.MSet
variable {V : Type}

theorem StRel.change {N : String → Prop} {s : State V} {w0 : Reg.World} {m0 : List Nat}
    (h : StRel N s { s with w := w0, mats := m0 }) (bl : List (Block V)) (ve : List Vec) (ix : EntityKind → List Int)
    (na : List String) :
    StRel N { s with blocks := bl, vecs := ve, indexes := ix, names := na }
      { s with w := w0, mats := m0, blocks := bl, vecs := ve, indexes := ix, names := na } :=
  ⟨rfl, h.w, h.mats⟩

theorem noPos_ok_of {x : Except Err (State V)} {s : State V} (h : x = .ok s) : noPos x = .ok (none, s) := by
  rw [h]; rfl

theorem copyVec_rel {N : String → Prop} {s s' : State V} {v v' : Vec} {w0 : Reg.World} {m0 : List Nat}
    (h : StRel N s { s with w := w0, mats := m0 }) (ha : copyVec s v = .ok (v', s')) :
    ∃ s0', copyVec { s with w := w0, mats := m0 } v = .ok (v', s0') ∧ StRel N s' s0' := by
  unfold copyVec at ha ⊢
  dsimp only
  split at ha
  · cases ha
  · rename_i b hb
    cases ha
    try rw [hb]
    exact ⟨_, rfl, h.change _ _ _ _⟩

theorem copyForAdd_rel {N : String → Prop} {zero : V} {count : Count} {s s' : State V} {v v' : Vec} {w0 : Reg.World}
    {m0 : List Nat} (h : StRel N s { s with w := w0, mats := m0 }) (ha : copyForAdd zero count s v = .ok (v', s')) :
    ∃ s0', copyForAdd zero count { s with w := w0, mats := m0 } v = .ok (v', s0') ∧ StRel N s' s0' := by
  unfold copyForAdd at ha ⊢
  dsimp only
  split at ha
  · rename_i hc
    rw [if_pos hc]
    exact copyVec_rel h ha
  · rename_i hc
    rw [if_neg hc]
    split at ha
    · rename_i l hl
      try try rw [hl]
      try dsimp only
      split at ha
      · cases ha
      · rename_i b hb
        try rw [hb]
        cases ha
        exact ⟨_, rfl, h.change _ _ _ _⟩
    · cases ha

theorem addCopy_rel {N : String → Prop} {zero : V} {count : Count} {s s' : State V} {v : Vec} {p : Nat}
    {w0 : Reg.World} {m0 : List Nat} (h : StRel N s { s with w := w0, mats := m0 })
    (ha : addCopy zero count s v = .ok (p, s')) :
    ∃ s0', addCopy zero count { s with w := w0, mats := m0 } v = .ok (p, s0') ∧ StRel N s' s0' := by
  unfold addCopy at ha ⊢
  have hf : findTyped { s with w := w0, mats := m0 } v.vectype v.ty v.name v.domain v.kind v.type =
    findTyped s v.vectype v.ty v.name v.domain v.kind v.type := rfl
  rw [hf]
  split at ha
  · rename_i i hi
    cases ha; try rw [hi]
    exact ⟨_, rfl, h⟩
  · rename_i hi
    try try rw [hi]
    try dsimp only
    split at ha
    · cases ha
    · rename_i v1 s1 h1
      obtain ⟨s01, h01, hr⟩ := copyForAdd_rel h h1
      rw [h01]; dsimp only
      have e1 : s01.indexes = s1.indexes := by rw [hr.eq]
      have e2 : s01.vecs = s1.vecs := by rw [hr.eq]
      rw [e1, e2]
      split at ha
      · cases ha
      · rename_i idx hidx
        cases ha
        try rw [hidx]
        refine ⟨_, rfl, ⟨?_, hr.w, hr.mats⟩⟩
        rw [hr.eq]

theorem add_rel {N : String → Prop} {zero : V} {count : Count} {s s' : State V} {r : Req V} {p : Nat}
    {w0 : Reg.World} {m0 : List Nat} (h : StRel N s { s with w := w0, mats := m0 })
    (ha : St.add zero count s r = .ok (p, s')) :
    ∃ s0', St.add zero count { s with w := w0, mats := m0 } r = .ok (p, s0') ∧ StRel N s' s0' := by
  unfold St.add at ha ⊢
  have hf : findTyped { s with w := w0, mats := m0 } r.vt r.ty r.name r.domain r.kind r.type =
    findTyped s r.vt r.ty r.name r.domain r.kind r.type := rfl
  have hc : allCells s.w.heap s.mats = allCells w0.heap m0 := h.allCells
  rw [hf]
  split at ha
  · rename_i i hi
    cases ha; try rw [hi]
    exact ⟨_, rfl, h⟩
  · rename_i hi
    try try rw [hi]
    try dsimp only
    split at ha
    · cases ha
    · rename_i idx hidx
      try try rw [hidx]
      try dsimp only
      rw [hc] at ha
      split at ha
      · cases ha
      · rename_i cells hcells
        try try rw [hcells]
        try dsimp only
        split at ha
        · cases ha
        · rename_i b hb
          try rw [hb]
          cases ha
          exact ⟨_, rfl, h.change _ _ _ _⟩

theorem op_rel {N : String → Prop} {zero : V} {count : Count} {s s' s0 : State V} {o : Op V} {p : Option Nat}
    (h : StRel N s s0) (hn : ∀ n cs, o = .addMaterial n cs → ¬ N n) (ha : o.run zero count s = .ok (p, s')) :
    ∃ s0', o.run zero count s0 = .ok (p, s0') ∧ StRel N s' s0' := by
  have hs := h.eq
  generalize s0.w = w0 at hs
  generalize s0.mats = m0 at hs
  subst hs
  cases o with
  | add r =>
    obtain ⟨i, rfl, h'⟩ := withPos_ok ha
    obtain ⟨s0', h1, h2⟩ := add_rel h h'
    exact ⟨s0', by simp only [Op.run, withPos, h1], h2⟩
  | addCopy v =>
    obtain ⟨i, rfl, h'⟩ := withPos_ok ha
    obtain ⟨s0', h1, h2⟩ := addCopy_rel h h'
    exact ⟨s0', by simp only [Op.run, withPos, h1], h2⟩
  | addMaterial n cs =>
    obtain ⟨rfl, h'⟩ := noPos_ok ha
    obtain ⟨s0', h1, h2⟩ := addMaterial_rel h (hn n cs rfl) h'
    exact ⟨s0', noPos_ok_of h1, h2⟩
  | addCells m cs =>
    obtain ⟨rfl, h'⟩ := noPos_ok ha
    obtain ⟨s0', h1, h2⟩ := addCells_rel h h'
    exact ⟨s0', noPos_ok_of h1, h2⟩
  | remMaterial m =>
    obtain ⟨rfl, h'⟩ := noPos_ok ha
    obtain ⟨s0', h1, h2⟩ := remMaterial_rel h h'
    exact ⟨s0', noPos_ok_of h1, h2⟩
  | remMaterialByName n =>
    obtain ⟨rfl, h'⟩ := noPos_ok ha
    unfold St.remMaterialByName at h'
    rw [h.index] at h'
    split at h'
    · rename_i m hm
      obtain ⟨s0', h1, h2⟩ := remMaterial_rel h h'
      exact ⟨s0', noPos_ok_of (by unfold St.remMaterialByName; rw [hm]; exact h1), h2⟩
    · rename_i hm
      cases h'
      exact ⟨_, noPos_ok_of (by unfold St.remMaterialByName; rw [hm]), h⟩
  | copy v =>
    obtain ⟨rfl, v', h'⟩ := copied_ok ha
    obtain ⟨s0', h1, h2⟩ := copyVec_rel h h'
    exact ⟨s0', by simp only [Op.run, copied, h1], h2⟩
  | uniWrite v i x =>
    obtain ⟨rfl, h'⟩ := noPos_ok ha
    unfold St.uniWrite at h'
    split at h'
    · rename_i l hl
      split at h'
      · rename_i hi
        cases h'
        refine ⟨_, noPos_ok_of (by unfold St.uniWrite; dsimp only; rw [hl]; dsimp only; rw [if_pos hi]), ?_⟩
        exact h.change _ _ _ _
      · cases h'
    · cases h'
  | uniResize v n x =>
    obtain ⟨rfl, h'⟩ := noPos_ok ha
    unfold St.uniResize at h'
    split at h'
    · rename_i l hl
      cases h'
      refine ⟨_, noPos_ok_of (by unfold St.uniResize; dsimp only; rw [hl]), ?_⟩
      exact h.change _ _ _ _
    · cases h'
  | multiWrite v i j l x =>
    obtain ⟨rfl, h'⟩ := noPos_ok ha
    unfold St.multiWrite at h'
    rw [h.cellIndex] at h'
    split at h'
    · cases h'
    · rename_i cloc hcl
      split at h'
      · cases h'
      · rename_i hne
        split at h'
        · rename_i d hd
          split at h'
          · cases h'
          · rename_i y hy
            cases h'
            refine ⟨_, noPos_ok_of (by
              unfold St.multiWrite; rw [hcl]; dsimp only; rw [if_neg hne, hd]; dsimp only; rw [hy]), ?_⟩
            exact h.change _ _ _ _
        · cases h'
  | multiAssign v l d =>
    obtain ⟨rfl, h'⟩ := noPos_ok ha
    unfold St.multiAssign at h'
    have hc : allCells s.w.heap s.mats = allCells w0.heap m0 := h.allCells
    rw [hc] at h'
    split at h'
    · cases h'
    · rename_i cells hcells
      split at h'
      · rename_i b hb
        split at h'
        · cases h'
        · rename_i xs hxs
          cases h'
          refine ⟨_, noPos_ok_of (by
            unfold St.multiAssign; dsimp only; rw [hcells]; dsimp only; rw [hb]; dsimp only; rw [hxs]), ?_⟩
          exact h.change _ _ _ _
      · cases h'
  | multiFill v x =>
    obtain ⟨rfl, h'⟩ := noPos_ok ha
    unfold St.multiFill at h'
    have hc : allCells s.w.heap s.mats = allCells w0.heap m0 := h.allCells
    rw [hc] at h'
    split at h'
    · cases h'
    · rename_i cells hcells
      split at h'
      · rename_i b hb
        cases h'
        refine ⟨_, noPos_ok_of (by
            unfold St.multiFill; dsimp only; rw [hcells]; dsimp only; rw [hb]), ?_⟩
        exact h.change _ _ _ _
      · cases h'

end Jali.St
