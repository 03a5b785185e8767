import Verif.Props.MstkBuild
import Verif.Proof.MstkBuild5
/-! Cells on the two sides of a face of a generated mesh. -/
namespace Jali.MstkGen
open Spec Jali.Mstk

section
variable {K : Type} [Field K] [LinearOrder K] [IsStrictOrderedRing K] {d : Dom K} {b : Blk} {m : MMesh}

namespace Grid
variable (G : Grid d b m)

theorem fo_is (f : Fin m.nf) : IsF d b (G.fo f) := (mem_faces d b).1 (by rw [← G.flist]; exact List.mem_ofFn.mpr ⟨f, rfl⟩)

theorem region_at {I J L : Nat} (h1 : b.i0 ≤ I) (h2 : I < b.i0 + b.nx) (h3 : b.j0 ≤ J) (h4 : J < b.j0 + b.ny) (h5 : b.k0 ≤ L)
    (h6 : L < b.k0 + b.nz) : ∃ r, G.ro r = RG d I J L := by
  have : RG d I J L ∈ (genOf d b).regions := (mem_regions d b).2 ⟨I, J, L, h1, h2, h3, h4, h5, h6, rfl⟩
  rw [← G.rlist] at this
  exact List.mem_ofFn.mp this

theorem face_in_region (hd : GoodDom d) (hb : GoodBlk d b) (f : Fin m.nf) (r : Fin m.nr) :
    f ∈ (m.region r).mrFaces ↔ ∀ v ∈ (G.fo f).vs, v ∈ (G.ro r).vs := by
  obtain ⟨I, J, L, _, hr, f0, f1, f2, f3, f4, f5, hl, a0, a1, a2, a3, a4, a5⟩ := G.region_faces r
  unfold Mstk.Region.mrFaces
  rw [hl, hr]
  simp only [List.map_cons, List.map_nil, List.mem_cons, List.not_mem_nil, or_false]
  constructor
  · rintro (rfl | rfl | rfl | rfl | rfl | rfl)
    · rw [a0]; simp [FZ, RG]
    · rw [a1]; simp [FZ, RG]
    · rw [a2]; simp [FY, RG]
    · rw [a3]; simp [FX, RG]
    · rw [a4]; simp [FY, RG]
    · rw [a5]; simp [FX, RG]
  · intro h
    have hf := G.fo_is f
    generalize hx : G.fo f = x at hf h
    rcases hf with @⟨I', J', L'⟩ | @⟨I', J', L'⟩ | @⟨I', J', L'⟩
    · have e2 := h (V d I' (J' + 1) L') (by simp [FX])
      have e3 := h (V d I' (J' + 1) (L' + 1)) (by simp [FX])
      have e1 := h (V d I' J' L') (by simp [FX])
      simp only [RG, List.mem_cons, List.not_mem_nil, or_false, V_iff d hd] at e1 e2 e3
      have hh : (I' = I ∨ I' = I + 1) ∧ J' = J ∧ L' = L := by omega
      obtain ⟨rfl | rfl, rfl, rfl⟩ := hh
      · right; right; right; right; right; exact G.finj hb (hx.trans a5.symm)
      · right; right; right; left; exact G.finj hb (hx.trans a3.symm)
    · have e2 := h (V d (I' + 1) J' L') (by simp [FY])
      have e3 := h (V d (I' + 1) J' (L' + 1)) (by simp [FY])
      have e1 := h (V d I' J' L') (by simp [FY])
      simp only [RG, List.mem_cons, List.not_mem_nil, or_false, V_iff d hd] at e1 e2 e3
      have hh : (J' = J ∨ J' = J + 1) ∧ I' = I ∧ L' = L := by omega
      obtain ⟨rfl | rfl, rfl, rfl⟩ := hh
      · right; right; left; exact G.finj hb (hx.trans a2.symm)
      · right; right; right; right; left; exact G.finj hb (hx.trans a4.symm)
    · have e2 := h (V d (I' + 1) J' L') (by simp [FZ])
      have e3 := h (V d (I' + 1) (J' + 1) L') (by simp [FZ])
      have e1 := h (V d I' J' L') (by simp [FZ])
      simp only [RG, List.mem_cons, List.not_mem_nil, or_false, V_iff d hd] at e1 e2 e3
      have hh : (L' = L ∨ L' = L + 1) ∧ I' = I ∧ J' = J := by omega
      obtain ⟨rfl | rfl, rfl, rfl⟩ := hh
      · left; exact G.finj hb (hx.trans a0.symm)
      · right; left; exact G.finj hb (hx.trans a1.symm)

theorem mem_mfRegions (hd : GoodDom d) (hb : GoodBlk d b) (f : Fin m.nf) (r : Fin m.nr) :
    r ∈ m.mfRegions f ↔ ∀ v ∈ (G.fo f).vs, v ∈ (G.ro r).vs := by
  rw [← G.face_in_region hd hb]
  unfold MMesh.mfRegions
  simp

theorem ro_is (r : Fin m.nr) : ∃ I J L, G.ro r = RG d I J L ∧ b.i0 ≤ I ∧ I < b.i0 + b.nx ∧ b.j0 ≤ J ∧ J < b.j0 + b.ny ∧ b.k0 ≤ L ∧
    L < b.k0 + b.nz := by
  obtain ⟨I, J, L, ⟨h1, h2, h3, h4, h5, h6⟩, hr, _⟩ := G.region_faces r
  exact ⟨I, J, L, hr, h1, h2, h3, h4, h5, h6⟩

/-- two cells at a face: `p` tells which cells -/
theorem count_two {l : List (Fin m.nr)} (hn : l.Nodup) {r1 r2 : Fin m.nr} (hne : r1 ≠ r2) (h : ∀ r, r ∈ l ↔ r = r1 ∨ r = r2) :
    l.length = 2 := by
  have : l.Perm [r1, r2] := by
    rw [List.perm_ext_iff_of_nodup hn (by simp [hne])]
    simpa using h
  rw [this.length_eq]; rfl
theorem count_one {l : List (Fin m.nr)} (hn : l.Nodup) {r1 : Fin m.nr} (h : ∀ r, r ∈ l ↔ r = r1) : l.length = 1 := by
  have : l.Perm [r1] := by
    rw [List.perm_ext_iff_of_nodup hn (by simp)]
    simpa using h
  rw [this.length_eq]; rfl

theorem mfRegions_nodup (f : Fin m.nf) : (m.mfRegions f).Nodup := (List.nodup_finRange _).filter _

theorem ro_eq (hd : GoodDom d) (hb : GoodBlk d b) {r r' : Fin m.nr} {I J L I' J' L' : Nat} (h : G.ro r = RG d I J L)
    (h' : G.ro r' = RG d I' J' L') : r = r' ↔ I = I' ∧ J = J' ∧ L = L' := by
  constructor
  · rintro rfl
    have := congrArg Region.vs (h.symm.trans h')
    simp only [RG, List.cons.injEq, V_iff d hd] at this
    omega
  · rintro ⟨rfl, rfl, rfl⟩
    exact G.rinj hb (h.trans h'.symm)

/-- the cell at this position is in the block -/
def InB (b : Blk) (I J L : Nat) : Prop := b.i0 ≤ I ∧ I < b.i0 + b.nx ∧ b.j0 ≤ J ∧ J < b.j0 + b.ny ∧ b.k0 ≤ L ∧ L < b.k0 + b.nz

theorem length_two (hd : GoodDom d) (hb : GoodBlk d b) (f : Fin m.nf) {I J L I' J' L' : Nat} (h : InB b I J L) (h' : InB b I' J' L')
    (hne : ¬(I = I' ∧ J = J' ∧ L = L'))
    (hm : ∀ A B C, (∀ v ∈ (G.fo f).vs, v ∈ (RG d A B C).vs) ↔ (A = I ∧ B = J ∧ C = L) ∨ (A = I' ∧ B = J' ∧ C = L')) :
    (m.mfRegions f).length = 2 := by
  obtain ⟨h1, h2, h3, h4, h5, h6⟩ := h
  obtain ⟨g1, g2, g3, g4, g5, g6⟩ := h'
  obtain ⟨r, hr⟩ := G.region_at h1 h2 h3 h4 h5 h6
  obtain ⟨r', hr'⟩ := G.region_at g1 g2 g3 g4 g5 g6
  refine count_two (mfRegions_nodup f) (r1 := r) (r2 := r') (fun e => hne ((G.ro_eq hd hb hr hr').mp e)) fun x => ?_
  obtain ⟨A, B, C, hx, _⟩ := G.ro_is x
  rw [G.mem_mfRegions hd hb, hx, hm, G.ro_eq hd hb hx hr, G.ro_eq hd hb hx hr']

theorem length_one (hd : GoodDom d) (hb : GoodBlk d b) (f : Fin m.nf) {I J L : Nat} (h : InB b I J L)
    (hm : ∀ A B C, InB b A B C → ((∀ v ∈ (G.fo f).vs, v ∈ (RG d A B C).vs) ↔ A = I ∧ B = J ∧ C = L)) :
    (m.mfRegions f).length = 1 := by
  obtain ⟨h1, h2, h3, h4, h5, h6⟩ := h
  obtain ⟨r, hr⟩ := G.region_at h1 h2 h3 h4 h5 h6
  refine count_one (mfRegions_nodup f) (r1 := r) fun x => ?_
  obtain ⟨A, B, C, hx, hin⟩ := G.ro_is x
  rw [G.mem_mfRegions hd hb, hx, hm A B C hin, G.ro_eq hd hb hx hr]

theorem sub_FX (hd : GoodDom d) (I J L A B C : Nat) : (∀ v ∈ (FX d I J L).vs, v ∈ (RG d A B C).vs) ↔ (A = I ∨ A + 1 = I) ∧ B = J ∧ C = L := by
  simp only [FX, RG, List.mem_cons, List.not_mem_nil, or_false, forall_eq_or_imp, forall_eq, V_iff d hd]
  omega
theorem sub_FY (hd : GoodDom d) (I J L A B C : Nat) : (∀ v ∈ (FY d I J L).vs, v ∈ (RG d A B C).vs) ↔ (B = J ∨ B + 1 = J) ∧ A = I ∧ C = L := by
  simp only [FY, RG, List.mem_cons, List.not_mem_nil, or_false, forall_eq_or_imp, forall_eq, V_iff d hd]
  omega
theorem sub_FZ (hd : GoodDom d) (I J L A B C : Nat) : (∀ v ∈ (FZ d I J L).vs, v ∈ (RG d A B C).vs) ↔ (C = L ∨ C + 1 = L) ∧ A = I ∧ B = J := by
  simp only [FZ, RG, List.mem_cons, List.not_mem_nil, or_false, forall_eq_or_imp, forall_eq, V_iff d hd]
  omega

end Grid

theorem bnd_FX (hd : GoodDom d) (I J L : Nat) : OnBoundary d b (FX d I J L) ↔ I = b.i0 ∨ I = b.i0 + b.nx := by
  unfold OnBoundary
  simp only [FX, List.mem_cons, List.not_mem_nil, or_false, forall_eq_or_imp, forall_eq, V, gridCoord_eq _ _ hd.nx,
    gridCoord_eq _ _ hd.ny, gridCoord_eq _ _ hd.nz]
  constructor
  · rintro (h | h | h | h | h | h)
    · exact .inl (gridPt_inj hd.x hd.nx h.1)
    · exact .inr (gridPt_inj hd.x hd.nx h.1)
    · have := gridPt_inj hd.y hd.ny (h.1.trans h.2.1.symm); omega
    · have := gridPt_inj hd.y hd.ny (h.1.trans h.2.1.symm); omega
    · have := gridPt_inj hd.z hd.nz (h.1.trans h.2.2.1.symm); omega
    · have := gridPt_inj hd.z hd.nz (h.1.trans h.2.2.1.symm); omega
  · rintro (rfl | rfl)
    · exact .inl ⟨rfl, rfl, rfl, rfl⟩
    · exact .inr (.inl ⟨rfl, rfl, rfl, rfl⟩)

theorem bnd_FY (hd : GoodDom d) (I J L : Nat) : OnBoundary d b (FY d I J L) ↔ J = b.j0 ∨ J = b.j0 + b.ny := by
  unfold OnBoundary
  simp only [FY, List.mem_cons, List.not_mem_nil, or_false, forall_eq_or_imp, forall_eq, V, gridCoord_eq _ _ hd.nx,
    gridCoord_eq _ _ hd.ny, gridCoord_eq _ _ hd.nz]
  constructor
  · rintro (h | h | h | h | h | h)
    · have := gridPt_inj hd.x hd.nx (h.1.trans h.2.1.symm); omega
    · have := gridPt_inj hd.x hd.nx (h.1.trans h.2.1.symm); omega
    · exact .inl (gridPt_inj hd.y hd.ny h.1)
    · exact .inr (gridPt_inj hd.y hd.ny h.1)
    · have := gridPt_inj hd.z hd.nz (h.1.trans h.2.2.1.symm); omega
    · have := gridPt_inj hd.z hd.nz (h.1.trans h.2.2.1.symm); omega
  · rintro (rfl | rfl)
    · exact .inr (.inr (.inl ⟨rfl, rfl, rfl, rfl⟩))
    · exact .inr (.inr (.inr (.inl ⟨rfl, rfl, rfl, rfl⟩)))

theorem bnd_FZ (hd : GoodDom d) (I J L : Nat) : OnBoundary d b (FZ d I J L) ↔ L = b.k0 ∨ L = b.k0 + b.nz := by
  unfold OnBoundary
  simp only [FZ, List.mem_cons, List.not_mem_nil, or_false, forall_eq_or_imp, forall_eq, V, gridCoord_eq _ _ hd.nx,
    gridCoord_eq _ _ hd.ny, gridCoord_eq _ _ hd.nz]
  constructor
  · rintro (h | h | h | h | h | h)
    · have := gridPt_inj hd.x hd.nx (h.1.trans h.2.1.symm); omega
    · have := gridPt_inj hd.x hd.nx (h.1.trans h.2.1.symm); omega
    · have := gridPt_inj hd.y hd.ny (h.1.trans h.2.2.1.symm); omega
    · have := gridPt_inj hd.y hd.ny (h.1.trans h.2.2.1.symm); omega
    · exact .inl (gridPt_inj hd.z hd.nz h.1)
    · exact .inr (gridPt_inj hd.z hd.nz h.1)
  · rintro (rfl | rfl)
    · exact .inr (.inr (.inr (.inr (.inl ⟨rfl, rfl, rfl, rfl⟩))))
    · exact .inr (.inr (.inr (.inr (.inr ⟨rfl, rfl, rfl, rfl⟩))))

theorem regions_count (hd : GoodDom d) (hb : GoodBlk d b) (G : Grid d b m) (f : Fin m.nf) :
    (OnBoundary d b (G.fo f) → (m.mfRegions f).length = 1) ∧ (¬ OnBoundary d b (G.fo f) → (m.mfRegions f).length = 2) := by
  have two := fun I J L I' J' L' => G.length_two hd hb f (I := I) (J := J) (L := L) (I' := I') (J' := J') (L' := L')
  have one := fun I J L => G.length_one hd hb f (I := I) (J := J) (L := L)
  have hf := G.fo_is f
  have px := hb.nx
  have py := hb.ny
  have pz := hb.nz
  generalize G.fo f = x at two one hf ⊢
  rcases hf with @⟨I, J, L, h1, h2, h3, h4, h5, h6⟩ | @⟨I, J, L, h1, h2, h3, h4, h5, h6⟩ | @⟨I, J, L, h1, h2, h3, h4, h5, h6⟩
  · simp only [Grid.sub_FX hd] at two one
    rw [bnd_FX hd]
    constructor
    · rintro (h | h)
      · exact one (I) (J) (L) (by unfold Grid.InB; omega) (by unfold Grid.InB; omega)
      · exact one (I - 1) (J) (L) (by unfold Grid.InB; omega) (by unfold Grid.InB; omega)
    · intro h
      exact two (I) (J) (L) (I - 1) (J) (L) (by unfold Grid.InB; omega) (by unfold Grid.InB; omega)
        (by omega) (by omega)
  · simp only [Grid.sub_FY hd] at two one
    rw [bnd_FY hd]
    constructor
    · rintro (h | h)
      · exact one (I) (J) (L) (by unfold Grid.InB; omega) (by unfold Grid.InB; omega)
      · exact one (I) (J - 1) (L) (by unfold Grid.InB; omega) (by unfold Grid.InB; omega)
    · intro h
      exact two (I) (J) (L) (I) (J - 1) (L) (by unfold Grid.InB; omega) (by unfold Grid.InB; omega)
        (by omega) (by omega)
  · simp only [Grid.sub_FZ hd] at two one
    rw [bnd_FZ hd]
    constructor
    · rintro (h | h)
      · exact one (I) (J) (L) (by unfold Grid.InB; omega) (by unfold Grid.InB; omega)
      · exact one (I) (J) (L - 1) (by unfold Grid.InB; omega) (by unfold Grid.InB; omega)
    · intro h
      exact two (I) (J) (L) (I) (J) (L - 1) (by unfold Grid.InB; omega) (by unfold Grid.InB; omega)
        (by omega) (by omega)

end
end Jali.MstkGen
