import Verif.Model.MeshSimple
import Verif.Spec.MeshSimpleIds
import Verif.Proof.Loops
/-! Numbering of the structured 3D mesh. -/
namespace Jali.Simple
open Spec

theorem idx_eq (i j k a b : Nat) : i + j * a + k * a * b = a * (b * k + j) + i := by ring

theorem idx_inj {i j k i' j' k' a b : Nat} (hi : i < a) (hj : j < b) (hi' : i' < a) (hj' : j' < b)
    (h : i + j * a + k * a * b = i' + j' * a + k' * a * b) : i = i' ∧ j = j' ∧ k = k' := by
  rw [idx_eq, idx_eq] at h
  obtain ⟨h1, h2⟩ := stride_inj hi hi' h
  obtain ⟨h3, h4⟩ := stride_inj hj hj' h1
  exact ⟨h2, h4, h3⟩

theorem lt_mul_of_digits {q r s m : Nat} (hr : r < s) (hq : q < m) : s * q + r < s * m := by
  calc s * q + r < s * q + s := by omega
    _ = s * (q + 1) := by ring
    _ ≤ s * m := Nat.mul_le_mul_left _ hq

theorem idx_lt {i j k a b c : Nat} (hi : i < a) (hj : j < b) (hk : k < c) :
    i + j * a + k * a * b < a * b * c := by
  rw [idx_eq, Nat.mul_assoc a b c]
  exact lt_mul_of_digits hi (lt_mul_of_digits hj hk)

theorem idx_surj {n a b c : Nat} (h : n < a * b * c) :
    ∃ i j k, i < a ∧ j < b ∧ k < c ∧ i + j * a + k * a * b = n := by
  have ha : 0 < a := by
    rcases Nat.eq_zero_or_pos a with h0 | h0
    · subst h0; simp at h
    · exact h0
  have hb : 0 < b := by
    rcases Nat.eq_zero_or_pos b with h0 | h0
    · subst h0; simp at h
    · exact h0
  refine ⟨n % a, n / a % b, n / a / b, Nat.mod_lt _ ha, Nat.mod_lt _ hb, ?_, ?_⟩
  · rw [Nat.div_div_eq_div_mul]
    exact Nat.div_lt_of_lt_mul h
  · rw [idx_eq, Nat.div_add_mod, Nat.div_add_mod]

variable (d : Dims)

abbrev NodeIn (p : Pos) : Prop := p.In (d.nx + 1) (d.ny + 1) (d.nz + 1)
abbrev CellIn (p : Pos) : Prop := p.In d.nx d.ny d.nz
abbrev FaceIn (f : FacePos) : Prop := f.In d.nx d.ny d.nz

theorem nodeIdx_inj {p q : Pos} (hp : NodeIn d p) (hq : NodeIn d q) (h : nodeIdx d p = nodeIdx d q) :
    p = q := by
  obtain ⟨i, j, k⟩ := p; obtain ⟨i', j', k'⟩ := q
  obtain ⟨h1, h2, h3⟩ := idx_inj hp.1 hp.2.1 hq.1 hq.2.1 h
  simp only at h1 h2 h3
  subst h1 h2 h3; rfl

theorem cellIdx_inj {p q : Pos} (hp : CellIn d p) (hq : CellIn d q) (h : cellIdx d p = cellIdx d q) :
    p = q := by
  obtain ⟨i, j, k⟩ := p; obtain ⟨i', j', k'⟩ := q
  obtain ⟨h1, h2, h3⟩ := idx_inj hp.1 hp.2.1 hq.1 hq.2.1 h
  simp only at h1 h2 h3
  subst h1 h2 h3; rfl

theorem nodeIdx_lt {p : Pos} (hp : NodeIn d p) : nodeIdx d p < numNodes d := idx_lt hp.1 hp.2.1 hp.2.2
theorem cellIdx_lt {p : Pos} (hp : CellIn d p) : cellIdx d p < numCells d := idx_lt hp.1 hp.2.1 hp.2.2

theorem nodeIdx_surj {n : Nat} (h : n < numNodes d) : ∃ p, NodeIn d p ∧ nodeIdx d p = n := by
  obtain ⟨i, j, k, h1, h2, h3, h4⟩ := idx_surj h
  exact ⟨⟨i, j, k⟩, ⟨h1, h2, h3⟩, h4⟩
theorem cellIdx_surj {n : Nat} (h : n < numCells d) : ∃ p, CellIn d p ∧ cellIdx d p = n := by
  obtain ⟨i, j, k, h1, h2, h3, h4⟩ := idx_surj h
  exact ⟨⟨i, j, k⟩, ⟨h1, h2, h3⟩, h4⟩

theorem xy_off : xyFaceIndex d 0 0 (d.nz + 1) = d.nx * d.ny * (d.nz + 1) := by
  simp [xyFaceIndex]; ring
theorem xz_off : xzFaceIndex d 0 0 d.nz = d.nx * (d.ny + 1) * d.nz + d.nx * d.ny * (d.nz + 1) := by
  simp only [xzFaceIndex, xy_off]; ring

theorem faceIdx_xy_lt {p : Pos} (h : FaceIn d ⟨.xy, p⟩) :
    faceIdx d ⟨.xy, p⟩ < d.nx * d.ny * (d.nz + 1) := by
  have h' : p.In d.nx d.ny (d.nz + 1) := h
  exact idx_lt h'.1 h'.2.1 h'.2.2

theorem faceIdx_xz_eq (p : Pos) : faceIdx d ⟨.xz, p⟩ =
    (p.i + p.j * d.nx + p.k * d.nx * (d.ny + 1)) + d.nx * d.ny * (d.nz + 1) := by
  simp only [faceIdx, xzFaceIndex, xy_off]

theorem faceIdx_yz_eq (p : Pos) : faceIdx d ⟨.yz, p⟩ =
    (p.i + p.j * (d.nx + 1) + p.k * (d.nx + 1) * d.ny) +
      (d.nx * (d.ny + 1) * d.nz + d.nx * d.ny * (d.nz + 1)) := by
  simp only [faceIdx, yzFaceIndex, xz_off]

theorem faceIdx_lt {f : FacePos} (hf : FaceIn d f) : faceIdx d f < numFaces d := by
  obtain ⟨o, p⟩ := f
  cases o
  · have := faceIdx_xy_lt d hf
    simp only [numFaces]; omega
  · have h' : p.In d.nx (d.ny + 1) d.nz := hf
    have := idx_lt h'.1 h'.2.1 h'.2.2
    rw [faceIdx_xz_eq]; simp only [numFaces]; omega
  · have h' : p.In (d.nx + 1) d.ny d.nz := hf
    have := idx_lt h'.1 h'.2.1 h'.2.2
    rw [faceIdx_yz_eq]; simp only [numFaces]; omega

theorem faceIdx_surj {n : Nat} (h : n < numFaces d) : ∃ f, FaceIn d f ∧ faceIdx d f = n := by
  simp only [numFaces] at h
  by_cases h1 : n < d.nx * d.ny * (d.nz + 1)
  · obtain ⟨i, j, k, hi, hj, hk, e⟩ := idx_surj h1
    exact ⟨⟨.xy, ⟨i, j, k⟩⟩, ⟨hi, hj, hk⟩, e⟩
  by_cases h2 : n - d.nx * d.ny * (d.nz + 1) < d.nx * (d.ny + 1) * d.nz
  · obtain ⟨i, j, k, hi, hj, hk, e⟩ := idx_surj h2
    refine ⟨⟨.xz, ⟨i, j, k⟩⟩, ⟨hi, hj, hk⟩, ?_⟩
    rw [faceIdx_xz_eq]; dsimp only; omega
  · have h3 : n - (d.nx * (d.ny + 1) * d.nz + d.nx * d.ny * (d.nz + 1)) < (d.nx + 1) * d.ny * d.nz := by
      omega
    obtain ⟨i, j, k, hi, hj, hk, e⟩ := idx_surj h3
    refine ⟨⟨.yz, ⟨i, j, k⟩⟩, ⟨hi, hj, hk⟩, ?_⟩
    rw [faceIdx_yz_eq]; dsimp only; omega

theorem faceIdx_inj {f g : FacePos} (hf : FaceIn d f) (hg : FaceIn d g)
    (h : faceIdx d f = faceIdx d g) : f = g := by
  obtain ⟨o, ⟨i, j, k⟩⟩ := f
  obtain ⟨o', ⟨i', j', k'⟩⟩ := g
  cases o <;> cases o'
  case xy.xy =>
    obtain ⟨h1, h2, h3⟩ := idx_inj hf.1 hf.2.1 hg.1 hg.2.1 h
    simp only at h1 h2 h3; subst h1 h2 h3; rfl
  case xy.xz =>
    have := faceIdx_xy_lt d hf
    rw [h, faceIdx_xz_eq] at this; omega
  case xy.yz =>
    have := faceIdx_xy_lt d hf
    rw [h, faceIdx_yz_eq] at this; omega
  case xz.xy =>
    have := faceIdx_xy_lt d hg
    rw [← h, faceIdx_xz_eq] at this; omega
  case yz.xy =>
    have := faceIdx_xy_lt d hg
    rw [← h, faceIdx_yz_eq] at this; omega
  case xz.xz =>
    rw [faceIdx_xz_eq, faceIdx_xz_eq] at h
    obtain ⟨h1, h2, h3⟩ := idx_inj hf.1 hf.2.1 hg.1 hg.2.1 (Nat.add_right_cancel h)
    simp only at h1 h2 h3; subst h1 h2 h3; rfl
  case yz.yz =>
    rw [faceIdx_yz_eq, faceIdx_yz_eq] at h
    obtain ⟨h1, h2, h3⟩ := idx_inj hf.1 hf.2.1 hg.1 hg.2.1 (Nat.add_right_cancel h)
    simp only at h1 h2 h3; subst h1 h2 h3; rfl
  case xz.yz =>
    have h' : Pos.In ⟨i, j, k⟩ d.nx (d.ny + 1) d.nz := hf
    have := idx_lt h'.1 h'.2.1 h'.2.2
    rw [faceIdx_xz_eq, faceIdx_yz_eq] at h
    omega
  case yz.xz =>
    have h' : Pos.In ⟨i', j', k'⟩ d.nx (d.ny + 1) d.nz := hg
    have := idx_lt h'.1 h'.2.1 h'.2.2
    rw [faceIdx_xz_eq, faceIdx_yz_eq] at h
    omega

end Jali.Simple
