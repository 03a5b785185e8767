import Verif.Props.MstkBase
import Verif.Props.FaceCells
/-
C117: the cells of a face of a mesh made by MSTK, through the cache of the base class.
-/
namespace Jali.Mstk
open Jali.FaceCells

/-- a list without repetitions in which elements with the same key are equal has at most two elements, if there are two keys -/
theorem length_le_two {α : Type} {l : List α} (hn : l.Nodup) (key : ∀ x ∈ l, ∃ _b : Bool, True) (P : α → Bool → Prop)
    (h : ∀ x ∈ l, ∃ b, P x b) (hu : ∀ x y b, P x b → P y b → x = y) : l.length ≤ 2 := by
  match l, hn, h with
  | [], _, _ => simp
  | [_], _, _ => simp
  | [_, _], _, _ => simp
  | a :: b :: c :: t, hn, h =>
    exfalso
    obtain ⟨x, hx⟩ := h a (by simp)
    obtain ⟨y, hy⟩ := h b (by simp)
    obtain ⟨z, hz⟩ := h c (by simp)
    simp only [List.nodup_cons, List.mem_cons, not_or] at hn
    have h1 : x ≠ y := by rintro rfl; exact hn.1.1 (hu _ _ _ hx hy)
    have h2 : x ≠ z := by rintro rfl; exact hn.1.2.1 (hu _ _ _ hx hz)
    have h3 : y ≠ z := by rintro rfl; exact hn.2.1.1 (hu _ _ _ hy hz)
    cases x <;> cases y <;> cases z <;> simp_all

/-- what `face_get_cells` should answer for a type: `all` are the cells of the face, `L` the lists of cells -/
structure PublicFaceCells (q : EntityType → Option (List Int)) (all : Nat → Prop) (L : IdLists) : Prop where
  answers : ∀ ty, ∃ l, q ty = some l ∧ l.Nodup ∧ l.length ≤ 2 ∧ ∀ c ∈ l, 0 ≤ c
  allOk : ∀ c : Nat, Has (q .ALL) (c : Int) ↔ all c
  owned : ∀ c : Nat, Has (q .PARALLEL_OWNED) (c : Int) ↔ all c ∧ c ∈ L.owned
  ghost : ∀ c : Nat, Has (q .PARALLEL_GHOST) (c : Int) ↔ all c ∧ c ∈ L.ghost

theorem types_getD {n : Nat} {L : IdLists} (h : Consecutive L n) (c : Nat) :
    ((((L.cellTypes).getD [])[c]?).getD .DELETED = .PARALLEL_OWNED ↔ c ∈ L.owned) ∧
    ((((L.cellTypes).getD [])[c]?).getD .DELETED = .PARALLEL_GHOST ↔ c ∈ L.ghost) := by
  obtain ⟨a, ha, hb⟩ := Types.typesOfThree_ok (l := ⟨L.owned, L.ghost, L.bndry⟩) (numbered_of h).2
  unfold IdLists.cellTypes
  rw [ha, Option.getD_some]
  obtain ⟨h1, h2, _, _⟩ := hb c
  rw [← h1, ← h2]
  cases a[c]? with
  | none => simp
  | some t => simp

/-- how the cached query follows from the internal one -/
theorem public_of {s : Src} {f n : Nat} {L : IdLists} (hL : Consecutive L n) (hct : ∀ c, s.cellType c = ((((L.cellTypes).getD [])[c]?).getD .DELETED))
    {l : List Nat} (hi : s.faceCellsInternal f = l.map Int.ofNat) (hf : f < s.nfaces) (hn : l.Nodup) (h2 : l.length ≤ 2) :
    PublicFaceCells (fun ty => faceGetCells s f ty) (· ∈ l) L ∧ faceGetCells s f .BOUNDARY_GHOST = some [] := by
  have key : ∀ ty, faceGetCells s f ty = some (ofType s.cellType ty (l.map Int.ofNat)) := by
    intro ty
    have := (face_get_cells_by_type s f ty hf (by rw [hi]; simpa using h2) (by rw [hi]; simp)).1
    rw [this, hi]
  have mem : ∀ ty (c : Nat), Has (faceGetCells s f ty) (c : Int) ↔ c ∈ l ∧
      (ty = .ALL ∨ ((ty = .PARALLEL_OWNED ∨ ty = .PARALLEL_GHOST) ∧ s.cellType c = ty)) := by
    intro ty c
    rw [key]
    unfold Has ofType
    simp only [Option.some.injEq, exists_eq_left', List.mem_filter, List.mem_map, decide_eq_true_eq, Int.toNat_natCast]
    constructor
    · rintro ⟨⟨x, hx, e⟩, h⟩
      have : x = c := Int.ofNat.inj e
      subst this
      exact ⟨hx, h⟩
    · rintro ⟨hx, h⟩
      exact ⟨⟨c, hx, rfl⟩, h⟩
  refine ⟨⟨fun ty => ⟨_, key ty, ?_, ?_, ?_⟩, ?_, ?_, ?_⟩, ?_⟩
  · exact ((hn.map fun a b h => Int.ofNat.inj h).filter _)
  · refine (List.length_filter_le _ _).trans ?_
    rw [List.length_map]; exact h2
  · intro c hc
    obtain ⟨x, _, rfl⟩ := List.mem_map.mp (List.mem_of_mem_filter hc)
    exact Int.natCast_nonneg x
  · intro c; rw [mem]; simp
  · intro c; rw [mem, hct]; simp only [reduceCtorEq, false_or, true_or, or_false, true_and, (types_getD hL c).1]
  · intro c; rw [mem, hct]; simp only [reduceCtorEq, false_or, true_or, or_true, true_and, (types_getD hL c).2]
  · rw [key]
    unfold ofType
    rw [List.filter_eq_nil_iff.mpr]
    intro c _
    simp

/-- **C117** (3D) `face_get_cells` of the type ALL returns the cells that list the face (at most two); OWNED and GHOST select
those in the lists of owned and ghost cells, also if there are boundary ghosts -/
theorem face_get_cells_of_mesh3 (j : JMesh) (r : MeshCache.Request) (h : j.Made3 r) (hf : r.faces = true) (hr : j.m.Regions)
    (f : Nat) (hlt : f < j.m.nf) :
    PublicFaceCells (fun ty => j.faceGetCells3 f ty) (fun c => HasFst (j.cellGetFaces3 c) f) (j.m.cellIds3 j.bg) ∧
      j.faceGetCells3 f .BOUNDARY_GHOST = some [] := by
  have R := h.ready hf
  obtain ⟨q1, _, _⟩ := cached_connectivity3 j r h
  obtain ⟨fh, hfh⟩ := j.m.fnum.at_some hlt
  obtain ⟨l, hl⟩ : ∃ l, j.faceCells3 f .ALL = some l := by
    unfold JMesh.faceCells3; rw [if_pos R.faces, hfh]; exact ⟨_, rfl⟩
  have hn := (cells_listed_once j .ALL).1 f l hl
  have hmem : ∀ c, c ∈ l ↔ HasFst (j.cellGetFaces3 c) f := by
    intro c
    rw [q1 hf, faces_cells_agree3 j R]
    exact ⟨fun h => ⟨l, hl, h⟩, fun ⟨l', e, h⟩ => by rw [hl] at e; cases e; exact h⟩
  have h2 : l.length ≤ 2 := by
    refine length_le_two hn (fun _ _ => ⟨true, trivial⟩)
      (fun c b => ∃ g, (j.m.rmap j.bg).at c = some g ∧ (fh, b) ∈ (j.m.region g).faces) ?_ ?_
    · intro c hc
      have := (has_faceCells3 R.faces f c .ALL).mp ⟨l, hl, hc⟩
      obtain ⟨g, fh', hg, hfh', hm, _⟩ := this
      rw [hfh] at hfh'; cases hfh'
      obtain ⟨p, hp, e⟩ := List.mem_map.mp hm
      exact ⟨p.2, g, hg, by rw [← e]; exact hp⟩
    · rintro c c' b ⟨g, hg, hm⟩ ⟨g', hg', hm'⟩
      have := hr.sides _ _ _ _ hm hm'
      subst this
      rw [← (j.m.rnum j.bg).at_iff.mp hg, ← (j.m.rnum j.bg).at_iff.mp hg']
  have hlen := (len_ids j.m j.bg).2.2.1
  have := public_of (s := j.faceSrc3) (f := f) (ids_consecutive j.m j.bg).2.2.2.1 (fun _ => rfl) (l := l)
    (by show ((j.faceCells3 f .ALL).getD []).map Int.ofNat = _; rw [hl]; rfl)
    (by show f < j.m.faceIds3.all.length; rw [hlen]; exact hlt) hn h2
  have e : ∀ ty, j.faceGetCells3 f ty = faceGetCells j.faceSrc3 f ty := by
    intro ty; unfold JMesh.faceGetCells3; rw [if_pos R.faces]
  simp only [e]
  have e2 : (fun c => HasFst (j.cellGetFaces3 c) f) = (· ∈ l) := by
    funext c; exact propext (hmem c).symm
  rw [e2]
  exact this

/-- **C117** (2D) -/
theorem face_get_cells_of_mesh2 (j : JMesh) (r : MeshCache.Request) (h : j.Made2 r) (hf : r.faces = true)
    (hr : j.m.OrientedCells) (f : Nat) (hlt : f < j.m.ne) :
    PublicFaceCells (fun ty => j.faceGetCells2 f ty) (fun c => HasFst (j.cellGetFaces2 c) f) (j.m.cellIds2 j.bg) ∧
      j.faceGetCells2 f .BOUNDARY_GHOST = some [] := by
  have R := h.ready hf
  obtain ⟨q1, _, _⟩ := cached_connectivity2 j r h 2
  obtain ⟨fh, hfh⟩ := j.m.enum.at_some hlt
  obtain ⟨l, hl⟩ : ∃ l, j.faceCells2 f .ALL = some l := by
    unfold JMesh.faceCells2; rw [if_pos R.faces, hfh]; exact ⟨_, rfl⟩
  have hn := (cells_listed_once j .ALL).2.1 f l hl
  have hmem : ∀ c, c ∈ l ↔ HasFst (j.cellGetFaces2 c) f := by
    intro c
    rw [q1 hf, faces_cells_agree2 j R]
    exact ⟨fun h => ⟨l, hl, h⟩, fun ⟨l', e, h⟩ => by rw [hl] at e; cases e; exact h⟩
  have h2 : l.length ≤ 2 := by
    refine length_le_two hn (fun _ _ => ⟨true, trivial⟩)
      (fun c b => ∃ g, (j.m.cmap j.bg).at c = some g ∧ (fh, b) ∈ (j.m.face g).edges) ?_ ?_
    · intro c hc
      have := (has_faceCells2 R.faces f c .ALL).mp ⟨l, hl, hc⟩
      obtain ⟨g, fh', hg, hfh', hm, _⟩ := this
      rw [hfh] at hfh'; cases hfh'
      unfold Face.mfEdges at hm
      rw [if_pos rfl] at hm
      obtain ⟨p, hp, e⟩ := List.mem_map.mp hm
      exact ⟨p.2, g, hg, by rw [← e]; exact hp⟩
    · rintro c c' b ⟨g, hg, hm⟩ ⟨g', hg', hm'⟩
      have := hr _ _ _ _ hm hm'
      subst this
      rw [← (j.m.cnum j.bg).at_iff.mp hg, ← (j.m.cnum j.bg).at_iff.mp hg']
  have hlen := (len_ids j.m j.bg).2.1
  have := public_of (s := j.faceSrc2) (f := f) (ids_consecutive j.m j.bg).2.2.2.2 (fun _ => rfl) (l := l)
    (by show ((j.faceCells2 f .ALL).getD []).map Int.ofNat = _; rw [hl]; rfl)
    (by show f < j.m.edgeIds.all.length; rw [hlen]; exact hlt) hn h2
  have e : ∀ ty, j.faceGetCells2 f ty = faceGetCells j.faceSrc2 f ty := by
    intro ty; unfold JMesh.faceGetCells2; rw [if_pos R.faces]
  simp only [e]
  have e2 : (fun c => HasFst (j.cellGetFaces2 c) f) = (· ∈ l) := by
    funext c; exact propext (hmem c).symm
  rw [e2]
  exact this

/-- **C117** fails for `BOUNDARY_GHOST`: a boundary ghost cell is among the cells of its face, but not among those of its own
type; the types do not add up -/
theorem boundary_ghosts_have_no_type (j : JMesh) (r : MeshCache.Request) (h : j.Made3 r) (hf : r.faces = true) (hr : j.m.Regions)
    (f c : Nat) (hc : c ∈ (j.m.cellIds3 j.bg).bndry) (hfc : HasFst (j.cellGetFaces3 c) f) (hlt : f < j.m.nf) :
    Has (j.faceGetCells3 f .ALL) (c : Int) ∧ ∀ ty, ty ≠ .ALL → ¬ Has (j.faceGetCells3 f ty) (c : Int) := by
  obtain ⟨P, hb⟩ := face_get_cells_of_mesh3 j r h hf hr f hlt
  refine ⟨(P.allOk c).mpr hfc, ?_⟩
  have hnum := (numbered_of (ids_consecutive j.m j.bg).2.2.2.1).2.facts
  intro ty hty
  by_cases h1 : ty = .PARALLEL_OWNED
  · subst h1
    exact fun hh => hnum.2.2.1 c ((P.owned c).mp hh).2 hc
  by_cases h2 : ty = .PARALLEL_GHOST
  · subst h2
    exact fun hh => hnum.2.2.2 c ((P.ghost c).mp hh).2 hc
  rintro ⟨l, hl, hm⟩
  obtain ⟨fh, hfh⟩ := j.m.fnum.at_some hlt
  unfold JMesh.faceGetCells3 faceGetCells at hl
  rw [if_pos (h.ready hf).faces, if_pos (by show f < j.m.faceIds3.all.length; rw [(len_ids j.m j.bg).2.2.1]; exact hlt)] at hl
  cases hrow : cacheRow (j.faceSrc3.faceCellsInternal f) with
  | none => rw [hrow] at hl; cases hl
  | some row =>
    rw [hrow] at hl
    cases ty <;> simp_all

/-! ### the hypotheses are met -/

/-- the face between an owned cell and a ghost; the face before a boundary ghost -/
example : rankMesh.faceGetCells3 3 .ALL = some [1, 0] ∧ rankMesh.faceGetCells3 3 .PARALLEL_GHOST = some [1] ∧
    rankMesh.faceGetCells3 3 .PARALLEL_OWNED = some [0] ∧ rankMesh.faceGetCells3 0 .PARALLEL_GHOST = some [] ∧
    sample3.faceGetCells3 0 .ALL = some [0, 1] ∧ sample3.faceGetCells3 0 .PARALLEL_OWNED = some [0] ∧
    sample3.faceGetCells3 0 .BOUNDARY_GHOST = some [] ∧ sample2.faceGetCells2 0 .ALL = some [1, 0] := by decide +kernel

example : 1 ∈ (sample3.m.cellIds3 sample3.bg).bndry ∧ HasFst (sample3.cellGetFaces3 1) 0 ∧ sample3.m.Regions ∧ sample3.Made3 reqAll :=
  ⟨by decide +kernel, ⟨[(0, 1)], by decide +kernel, 1, by simp⟩, sample3_ok.1, sample3_made⟩

end Jali.Mstk
