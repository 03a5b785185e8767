import Verif.Proof.MstkBuild2D
import Verif.Proof.MstkBuild7
/-! Cells on the two sides of an edge of a generated quadrilateral mesh. -/
namespace Jali.Mstk

theorem emap_plain (m : MMesh) (h : ∀ i, (m.edge i).ptype = .interior) (i : Fin m.ne) : m.emap.at i.1 = some i := by
  have N := m.enum
  rw [(all_owned h).1, (all_owned h).2, List.append_nil] at N
  exact numbered_range_at N i

theorem cmap_plain (m : MMesh) (h : ∀ i, (m.face i).ptype = .interior) (i : Fin m.nf) : (m.cmap false).at i.1 = some i := by
  have N := m.cnum false
  have e1 : ownedCells false (fun i => (m.face i).ptype) (fun i => (m.face i).bndryGhost) = List.finRange m.nf := by
    unfold ownedCells; exact List.filter_eq_self.mpr fun i _ => by simp [h i]
  have e2 : bndryCells false (fun i => (m.face i).ptype) (fun i => (m.face i).bndryGhost) = [] := by
    unfold bndryCells; exact List.filter_eq_nil_iff.mpr fun i _ => by simp
  rw [e1, e2, (all_owned h).2, List.append_nil, List.append_nil] at N
  exact numbered_range_at N i

end Jali.Mstk

namespace Jali.MstkGen
open Spec Jali.Mstk

section
variable {K : Type} [Field K]

theorem used_hE (d : Dom2 K) (b : Blk2) (i j i' j' : Nat) :
    (∃ dir, (hE d b i j, dir) ∈ (mkFace d b (i', j')).es) ↔ i' = i ∧ (j' = j ∨ j' + 1 = j) := by
  have hh := fun {i j i' j' : Nat} => hE_inj d b (i := i) (j := j) (i' := i') (j' := j')
  have hv := fun {i j i' j' : Nat} => hE_ne_vE d b (i := i) (j := j) (i' := i') (j' := j')
  simp only [mkFace, List.mem_cons, List.not_mem_nil, or_false, Prod.mk.injEq]
  constructor
  · rintro ⟨dir, ⟨a, _⟩ | ⟨a, _⟩ | ⟨a, _⟩ | ⟨a, _⟩⟩
    · have := hh a; omega
    · exact absurd a hv
    · have := hh a; omega
    · exact absurd a hv
  · rintro ⟨rfl, rfl | rfl⟩
    · exact ⟨_, .inl ⟨rfl, rfl⟩⟩
    · exact ⟨_, .inr (.inr (.inl ⟨rfl, rfl⟩))⟩

theorem used_vE (d : Dom2 K) (b : Blk2) (i j i' j' : Nat) :
    (∃ dir, (vE d b i j, dir) ∈ (mkFace d b (i', j')).es) ↔ (i' = i ∨ i' + 1 = i) ∧ j' = j := by
  have hh := fun {i j i' j' : Nat} => vE_inj d b (i := i) (j := j) (i' := i') (j' := j')
  have hv := fun {i j i' j' : Nat} => hE_ne_vE d b (i := i) (j := j) (i' := i') (j' := j')
  simp only [mkFace, List.mem_cons, List.not_mem_nil, or_false, Prod.mk.injEq]
  constructor
  · rintro ⟨dir, ⟨a, _⟩ | ⟨a, _⟩ | ⟨a, _⟩ | ⟨a, _⟩⟩
    · exact absurd a.symm hv
    · have := hh a; omega
    · exact absurd a.symm hv
    · have := hh a; omega
  · rintro ⟨rfl | rfl, rfl⟩
    · exact ⟨_, .inr (.inr (.inr ⟨rfl, rfl⟩))⟩
    · exact ⟨_, .inr (.inl ⟨rfl, rfl⟩)⟩

namespace Grid2
variable {d : Dom2 K} {b : Blk2} {m : MMesh} (G : Grid2 d b m)

theorem mem_meFaces (e : Fin m.ne) (f : Fin m.nf) : f ∈ m.meFaces e ↔ ∃ dir, (G.eo e, dir) ∈ (G.fo f).es := by
  unfold MMesh.meFaces Mstk.Face.mfEdges
  simp only [List.mem_filter, List.mem_finRange, true_and, decide_eq_true_eq, if_true]
  rw [← G.es f]
  constructor
  · intro h
    obtain ⟨⟨e', dir⟩, h1, rfl⟩ := List.mem_map.mp h
    exact ⟨dir, List.mem_map.mpr ⟨_, h1, rfl⟩⟩
  · rintro ⟨dir, h⟩
    obtain ⟨⟨e', dir'⟩, h1, h2⟩ := List.mem_map.mp h
    rw [Prod.mk.injEq] at h2
    obtain rfl := G.einj h2.1
    exact List.mem_map.mpr ⟨_, h1, rfl⟩

theorem fo_at {i j : Nat} (hi : i < b.nx) (hj : j < b.ny) : ∃ f, G.fo f = mkFace d b (i, j) := by
  have : mkFace d b (i, j) ∈ (genOf2 d b).faces := List.mem_map.mpr ⟨(i, j), mem_loopIdx2.mpr ⟨hi, hj⟩, rfl⟩
  rw [← G.flist] at this
  exact List.mem_ofFn.mp this

theorem fo_eq {f f' : Fin m.nf} {i j i' j' : Nat} (h : G.fo f = mkFace d b (i, j)) (h' : G.fo f' = mkFace d b (i', j')) :
    f = f' ↔ i = i' ∧ j = j' := by
  constructor
  · rintro rfl
    have h1 : (mkFace d b (i, j)).es = (mkFace d b (i', j')).es := by rw [← h, h']
    simp only [mkFace, List.cons.injEq, Prod.mk.injEq] at h1
    exact hE_inj d b h1.1.1
  · rintro ⟨rfl, rfl⟩
    exact G.finj (h.trans h'.symm)

theorem meFaces_two {e : Fin m.ne} {i j i' j' : Nat} (h1 : i < b.nx) (h2 : j < b.ny) (h3 : i' < b.nx) (h4 : j' < b.ny)
    (hne : ¬ (i = i' ∧ j = j'))
    (hu : ∀ x y, (∃ dir, (G.eo e, dir) ∈ (mkFace d b (x, y)).es) ↔ (x = i ∧ y = j) ∨ (x = i' ∧ y = j')) : (m.meFaces e).length = 2 := by
  obtain ⟨f, hf⟩ := G.fo_at h1 h2
  obtain ⟨f', hf'⟩ := G.fo_at h3 h4
  have hn : (m.meFaces e).Nodup := (List.nodup_finRange _).filter _
  have : (m.meFaces e).Perm [f, f'] := by
    rw [List.perm_ext_iff_of_nodup hn (by
      have : f ≠ f' := fun h => hne ((G.fo_eq hf hf').mp h)
      simp [this])]
    intro x
    obtain ⟨p, q, _, _, hx⟩ := G.fo_is x
    rw [G.mem_meFaces, hx, hu]
    simp only [List.mem_cons, List.not_mem_nil, or_false, G.fo_eq hx hf, G.fo_eq hx hf']
  rw [this.length_eq]; rfl

theorem meFaces_one {e : Fin m.ne} {i j : Nat} (h1 : i < b.nx) (h2 : j < b.ny)
    (hu : ∀ x y, x < b.nx → y < b.ny → ((∃ dir, (G.eo e, dir) ∈ (mkFace d b (x, y)).es) ↔ x = i ∧ y = j)) :
    (m.meFaces e).length = 1 := by
  obtain ⟨f, hf⟩ := G.fo_at h1 h2
  have hn : (m.meFaces e).Nodup := (List.nodup_finRange _).filter _
  have : (m.meFaces e).Perm [f] := by
    rw [List.perm_ext_iff_of_nodup hn (by simp)]
    intro x
    obtain ⟨p, q, hp, hq, hx⟩ := G.fo_is x
    rw [G.mem_meFaces, hx, hu p q hp hq]
    simp only [List.mem_cons, List.not_mem_nil, or_false, G.fo_eq hx hf]
  rw [this.length_eq]; rfl

end Grid2
end

section
variable {K : Type} [Field K] [LinearOrder K] [IsStrictOrderedRing K]

theorem vx (d : Dom2 K) (hd : GoodDom2 d) (b : Blk2) (i j : Nat) : (mkVert2 d b i j).x = gridPt d.X0 d.X1 d.NX (b.i0 + i) ∧
    (mkVert2 d b i j).y = gridPt d.Y0 d.Y1 d.NY (b.j0 + j) := by
  simp only [mkVert2, gridCoord_eq _ _ hd.nx, gridCoord_eq _ _ hd.ny, and_self]

theorem bnd_hE (d : Dom2 K) (hd : GoodDom2 d) (b : Blk2) (i j : Nat) : OnBoundary2 d b (hE d b i j) ↔ j = 0 ∨ j = b.ny := by
  have ix : ∀ {i i' : Nat}, gridPt d.X0 d.X1 d.NX i = gridPt d.X0 d.X1 d.NX i' ↔ i = i' :=
    fun {i i'} => ⟨fun h => gridPt_inj hd.x hd.nx h, fun h => by rw [h]⟩
  have iy : ∀ {i i' : Nat}, gridPt d.Y0 d.Y1 d.NY i = gridPt d.Y0 d.Y1 d.NY i' ↔ i = i' :=
    fun {i i'} => ⟨fun h => gridPt_inj hd.y hd.ny h, fun h => by rw [h]⟩
  unfold OnBoundary2
  match j with
  | 0 => simp only [hE, bot, (vx d hd b _ _).1, (vx d hd b _ _).2, ix, iy]; simp
  | j + 1 => simp only [hE, top, (vx d hd b _ _).1, (vx d hd b _ _).2, ix, iy]; omega

theorem bnd_vE (d : Dom2 K) (hd : GoodDom2 d) (b : Blk2) (i j : Nat) : OnBoundary2 d b (vE d b i j) ↔ i = 0 ∨ i = b.nx := by
  have ix : ∀ {i i' : Nat}, gridPt d.X0 d.X1 d.NX i = gridPt d.X0 d.X1 d.NX i' ↔ i = i' :=
    fun {i i'} => ⟨fun h => gridPt_inj hd.x hd.nx h, fun h => by rw [h]⟩
  have iy : ∀ {i i' : Nat}, gridPt d.Y0 d.Y1 d.NY i = gridPt d.Y0 d.Y1 d.NY i' ↔ i = i' :=
    fun {i i'} => ⟨fun h => gridPt_inj hd.y hd.ny h, fun h => by rw [h]⟩
  unfold OnBoundary2
  match i with
  | 0 => simp only [vE, lft, (vx d hd b _ _).1, (vx d hd b _ _).2, ix, iy]; simp
  | i + 1 => simp only [vE, rgt, (vx d hd b _ _).1, (vx d hd b _ _).2, ix, iy]; omega

theorem faces_count2 {d : Dom2 K} {b : Blk2} {m : MMesh} (hd : GoodDom2 d) (hb : GoodBlk2 d b) (G : Grid2 d b m) (e : Fin m.ne) :
    (OnBoundary2 d b (G.eo e) → (m.meFaces e).length = 1) ∧ (¬ OnBoundary2 d b (G.eo e) → (m.meFaces e).length = 2) := by
  have hx := hb.nx
  have hy := hb.ny
  have two := fun i j i' j' => G.meFaces_two (e := e) (i := i) (j := j) (i' := i') (j' := j')
  have one := fun i j => G.meFaces_one (e := e) (i := i) (j := j)
  have he := (mem_edges2 d b hx hy).1 (G.eo_mem e)
  generalize G.eo e = x at *
  rcases he with ⟨i, j, hi, hj, rfl⟩ | ⟨i, j, hi, hj, rfl⟩
  · simp only [used_hE] at two one
    rw [bnd_hE d hd]
    constructor
    · rintro (h | h)
      · exact one i j hi (by omega) (by intros; omega)
      · exact one i (j - 1) hi (by omega) (by intros; omega)
    · intro h
      exact two i j i (j - 1) hi (by omega) hi (by omega) (by omega) (by intros; omega)
  · simp only [used_vE] at two one
    rw [bnd_vE d hd]
    constructor
    · rintro (h | h)
      · exact one i j (by omega) hj (by intros; omega)
      · exact one (i - 1) j (by omega) hj (by intros; omega)
    · intro h
      exact two i j (i - 1) j (by omega) hj (by omega) hj (by omega) (by intros; omega)

end
end Jali.MstkGen
