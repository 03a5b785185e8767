import Verif.Spec.MstkMesh
import Verif.Proof.MstkMesh
import Mathlib.Data.Fin.VecNotation
import Mathlib.Tactic.Tauto
/-
C103: entity ids of a mesh made by MSTK.  C104: global ids.
-/
namespace Jali.Mstk

/-- `owned` first, then `ghost`, then `bndry`, without gaps, `n` in all -/
def Consecutive (L : IdLists) (n : Nat) : Prop :=
  L.owned ++ L.ghost ++ L.bndry = List.range n ∧ L.all = List.range n

theorem consecutive_two {n : Nat} (pt : Fin n → PType) :
    Consecutive (idLists2 (idMap2 (ownedList pt) (ghostList pt)) (ownedList pt) (ghostList pt)) n := by
  have h := numbered_two pt
  have a := h.map_part [] (ownedList pt ++ ghostList pt) [] (by simp)
  have hl := h.length
  rw [List.map_append] at a
  rw [hl] at a
  simp only [List.length_nil] at a
  rw [← List.range_eq_range'] at a
  exact ⟨by simpa [idLists2] using a, by simpa [idLists2] using a⟩

theorem consecutive_three {n : Nat} (bg : Bool) (pt : Fin n → PType) (mk : Fin n → Bool) :
    Consecutive (idLists3 (idMap3 bg (ownedCells bg pt mk) (ghostList pt) (bndryCells bg pt mk)) bg (ownedCells bg pt mk)
      (ghostList pt) (bndryCells bg pt mk)) n := by
  have h := numbered_three bg pt mk
  have a := h.map_part [] (ownedCells bg pt mk ++ ghostList pt ++ bndryCells bg pt mk) [] (by simp)
  have hl := h.length
  rw [List.map_append, List.map_append] at a
  rw [hl] at a
  simp only [List.length_nil] at a
  rw [← List.range_eq_range'] at a
  cases bg with
  | true => exact ⟨by simpa [idLists3] using a, by simpa [idLists3] using a⟩
  | false =>
    rw [bndryCells_false] at a ⊢
    exact ⟨by simpa [idLists3] using a, by simpa [idLists3] using a⟩

/-- **C103** ids of nodes, edges, faces and cells are 0, 1, ..., owned entities first, then ghosts, then boundary ghosts -/
theorem ids_consecutive (m : MMesh) (bg : Bool) :
    Consecutive m.nodeIds m.nv ∧ Consecutive m.edgeIds m.ne ∧ Consecutive m.faceIds3 m.nf ∧
    Consecutive (m.cellIds3 bg) m.nr ∧ Consecutive (m.cellIds2 bg) m.nf :=
  ⟨consecutive_two _, consecutive_two _, consecutive_two _, consecutive_three bg _ _, consecutive_three bg _ _⟩

/-- an id names exactly one entity, an entity has exactly one id, and the id is in the list for the entity's ownership -/
structure Names {n : Nat} (im : IdMap n) (L : IdLists) (owned ghost bndry : Fin n → Prop) : Prop where
  ex : ∀ i, i < n ↔ ∃ v, im.at i = some v
  inj : ∀ i i' v, im.at i = some v → im.at i' = some v → i = i'
  surj : ∀ v, ∃ i, im.at i = some v
  owned_iff : ∀ i v, im.at i = some v → (i ∈ L.owned ↔ owned v)
  ghost_iff : ∀ i v, im.at i = some v → (i ∈ L.ghost ↔ ghost v)
  bndry_iff : ∀ i v, im.at i = some v → (i ∈ L.bndry ↔ bndry v)

theorem mem_ids {n : Nat} {im : IdMap n} {L : List (Fin n)} (h : Numbered im L) (A : List (Fin n)) {i : Nat} {v : Fin n}
    (hv : im.at i = some v) : i ∈ A.map (fun v => im.id v - 1) ↔ v ∈ A := by
  rw [List.mem_map]
  constructor
  · rintro ⟨w, hw, e⟩
    have := h.at_iff.mpr e
    rw [hv] at this
    rw [Option.some.inj this]; exact hw
  · intro hm; exact ⟨v, hm, h.at_iff.mp hv⟩

theorem names_two {n : Nat} (pt : Fin n → PType) :
    Names (idMap2 (ownedList pt) (ghostList pt)) (idLists2 (idMap2 (ownedList pt) (ghostList pt)) (ownedList pt) (ghostList pt))
      (fun v => pt v ≠ .ghost) (fun v => pt v = .ghost) (fun _ => False) := by
  have h := numbered_two pt
  refine ⟨fun i => ⟨fun hi => h.at_some hi, fun ⟨v, hv⟩ => h.lt_of_at hv⟩, ?_, fun v => ⟨_, h.at_id v⟩, ?_, ?_, ?_⟩
  · intro i i' v h1 h2
    rw [← h.at_iff.mp h1, ← h.at_iff.mp h2]
  · intro i v hv; simp only [idLists2]; rw [mem_ids h _ hv]; simp [ownedList]
  · intro i v hv; simp only [idLists2]; rw [mem_ids h _ hv]; simp [ghostList]
  · intro i v _; simp [idLists2]

theorem names_three {n : Nat} (bg : Bool) (pt : Fin n → PType) (mk : Fin n → Bool) :
    Names (idMap3 bg (ownedCells bg pt mk) (ghostList pt) (bndryCells bg pt mk))
      (idLists3 (idMap3 bg (ownedCells bg pt mk) (ghostList pt) (bndryCells bg pt mk)) bg (ownedCells bg pt mk)
      (ghostList pt) (bndryCells bg pt mk))
      (fun v => pt v ≠ .ghost ∧ ¬(bg = true ∧ mk v = true)) (fun v => pt v = .ghost)
      (fun v => pt v ≠ .ghost ∧ bg = true ∧ mk v = true) := by
  have h := numbered_three bg pt mk
  refine ⟨fun i => ⟨fun hi => h.at_some hi, fun ⟨v, hv⟩ => h.lt_of_at hv⟩, ?_, fun v => ⟨_, h.at_id v⟩, ?_, ?_, ?_⟩
  · intro i i' v h1 h2
    rw [← h.at_iff.mp h1, ← h.at_iff.mp h2]
  · intro i v hv; simp only [idLists3]; rw [mem_ids h _ hv]
    cases bg <;> simp [ownedCells]
  · intro i v hv; simp only [idLists3]; rw [mem_ids h _ hv]; simp [ghostList]
  · intro i v hv
    cases bg with
    | true => simp only [idLists3, if_true]; rw [mem_ids h _ hv]; simp [bndryCells]
    | false => simp [idLists3]

/-- **C103** each id names one entity; which list it is in says who owns it -/
theorem ids_name_entities (m : MMesh) (bg : Bool) :
    Names m.vmap m.nodeIds (fun v => (m.vtx v).ptype ≠ .ghost) (fun v => (m.vtx v).ptype = .ghost) (fun _ => False) ∧
    Names m.emap m.edgeIds (fun v => (m.edge v).ptype ≠ .ghost) (fun v => (m.edge v).ptype = .ghost) (fun _ => False) ∧
    Names m.fmap m.faceIds3 (fun v => (m.face v).ptype ≠ .ghost) (fun v => (m.face v).ptype = .ghost) (fun _ => False) ∧
    Names (m.rmap bg) (m.cellIds3 bg) (fun v => (m.region v).ptype ≠ .ghost ∧ ¬(bg = true ∧ (m.region v).bndryGhost = true))
      (fun v => (m.region v).ptype = .ghost) (fun v => (m.region v).ptype ≠ .ghost ∧ bg = true ∧ (m.region v).bndryGhost = true) ∧
    Names (m.cmap bg) (m.cellIds2 bg) (fun v => (m.face v).ptype ≠ .ghost ∧ ¬(bg = true ∧ (m.face v).bndryGhost = true))
      (fun v => (m.face v).ptype = .ghost) (fun v => (m.face v).ptype ≠ .ghost ∧ bg = true ∧ (m.face v).bndryGhost = true) :=
  ⟨names_two _, names_two _, names_two _, names_three bg _ _, names_three bg _ _⟩

/-- two triangles side by side, in which the first triangle, one vertex and two edges belong to another rank -/
abbrev sampleMesh : MMesh where
  nv := 4
  ne := 5
  nf := 2
  nr := 0
  vtx := ![⟨.ghost, 1⟩, ⟨.overlap, 2⟩, ⟨.overlap, 3⟩, ⟨.interior, 4⟩]
  edge := ![⟨.ghost, 1, 0, 1, false⟩, ⟨.overlap, 2, 1, 2, false⟩, ⟨.ghost, 3, 2, 0, false⟩, ⟨.interior, 4, 2, 3, false⟩,
    ⟨.interior, 5, 3, 1, false⟩]
  face := ![⟨.ghost, 1, [(0, true), (1, true), (2, true)], false, false⟩,
    ⟨.overlap, 2, [(1, false), (4, false), (3, false)], false, false⟩]
  region := fun i => i.elim0

example : sampleMesh.nodeIds = ⟨[0, 1, 2], [3], [], [0, 1, 2, 3]⟩ ∧ sampleMesh.edgeIds = ⟨[0, 1, 2], [3, 4], [], [0, 1, 2, 3, 4]⟩ ∧
    sampleMesh.cellIds2 false = ⟨[0], [1], [], [0, 1]⟩ ∧ ((sampleMesh.cmap false).at 0).map Fin.val = some 1 := by
  refine ⟨?_, ?_, ?_, ?_⟩ <;> decide +kernel

/-! ### Global ids -/

/-- the global ids of the entities of a class, as MSTK keeps them (0: none) -/
def GidsGiven {n : Nat} (gid : Fin n → Nat) : Prop := (∀ v, gid v ≠ 0) ∧ ∀ v w, gid v = gid w → v = w

/-- **C104** (nodes) different nodes have different global ids, not negative, if MSTK numbered the vertices -/
theorem node_gids (j : JMesh) (h : GidsGiven fun v => (j.m.vtx v).gid) (a b : Nat) (ga gb : Int)
    (ha : j.nodeGid a = some ga) (hb : j.nodeGid b = some gb) : 0 ≤ ga ∧ (ga = gb → a = b) := by
  unfold JMesh.nodeGid at ha hb
  rw [Option.map_eq_some_iff] at ha hb
  obtain ⟨v, hv, rfl⟩ := ha
  obtain ⟨w, hw, rfl⟩ := hb
  have h1 := h.1 v
  have h2 := h.1 w
  simp only at h1 h2
  have e1 : gidOf j.serial (j.m.vtx v).gid (j.m.vmap.id v) = ((j.m.vtx v).gid : Int) - 1 := by unfold gidOf; simp [h1]
  have e2 : gidOf j.serial (j.m.vtx w).gid (j.m.vmap.id w) = ((j.m.vtx w).gid : Int) - 1 := by unfold gidOf; simp [h2]
  rw [e1, e2]
  refine ⟨by omega, fun e => ?_⟩
  have : v = w := h.2 v w (by simp only; omega)
  subst this
  rw [← j.m.vnum.at_iff.mp hv, ← j.m.vnum.at_iff.mp hw]

/-- **C104** in a run on one rank in which MSTK gave no global ids, the global id is the local one -/
theorem serial_gids (j : JMesh) (hs : j.serial = true) (h : ∀ v, (j.m.vtx v).gid = 0) (a : Nat) (ha : a < j.m.nv) :
    j.nodeGid a = some (a : Int) := by
  obtain ⟨v, hv⟩ := j.m.vnum.at_some ha
  unfold JMesh.nodeGid
  rw [hv]
  have := j.m.vnum.id_of_at hv
  simp [gidOf, hs, h v, this]

/-- the global ids of cells (3D) of a run on several ranks: those of MSTK, if MSTK gave them to all cells -/
theorem cell_gids (j : JMesh) (h : GidsGiven fun v => (j.m.region v).gid) (a b : Nat) (ga gb : Int)
    (ha : j.cellGid3 a = some ga) (hb : j.cellGid3 b = some gb) : 0 ≤ ga ∧ (ga = gb → a = b) := by
  unfold JMesh.cellGid3 at ha hb
  rw [Option.map_eq_some_iff] at ha hb
  obtain ⟨v, hv, rfl⟩ := ha
  obtain ⟨w, hw, rfl⟩ := hb
  have h1 := h.1 v
  have h2 := h.1 w
  simp only at h1 h2
  have e1 : gidOf j.serial (j.m.region v).gid ((j.m.rmap j.bg).id v) = ((j.m.region v).gid : Int) - 1 := by
    unfold gidOf; simp [h1]
  have e2 : gidOf j.serial (j.m.region w).gid ((j.m.rmap j.bg).id w) = ((j.m.region w).gid : Int) - 1 := by
    unfold gidOf; simp [h2]
  rw [e1, e2]
  refine ⟨by omega, fun e => ?_⟩
  have : v = w := h.2 v w (by simp only; omega)
  subst this
  rw [← (j.m.rnum j.bg).at_iff.mp hv, ← (j.m.rnum j.bg).at_iff.mp hw]

/-- the same for faces, edges, and 2D cells -/
theorem other_gids (j : JMesh) :
    (GidsGiven (fun v => (j.m.face v).gid) → ∀ a b ga gb, j.faceGid3 a = some ga → j.faceGid3 b = some gb →
      0 ≤ ga ∧ (ga = gb → a = b)) ∧
    (GidsGiven (fun v => (j.m.edge v).gid) → ∀ a b ga gb, j.edgeGid a = some ga → j.edgeGid b = some gb →
      0 ≤ ga ∧ (ga = gb → a = b)) ∧
    (GidsGiven (fun v => (j.m.face v).gid) → ∀ a b ga gb, j.cellGid2 a = some ga → j.cellGid2 b = some gb →
      0 ≤ ga ∧ (ga = gb → a = b)) := by
  have key : ∀ {n : Nat} (im : IdMap n) (L : List (Fin n)) (_ : Numbered im L) (gid : Fin n → Nat), GidsGiven gid →
      ∀ a b ga gb, ((im.at a).map fun v => gidOf j.serial (gid v) (im.id v)) = some ga →
      ((im.at b).map fun v => gidOf j.serial (gid v) (im.id v)) = some gb → 0 ≤ ga ∧ (ga = gb → a = b) := by
    intro n im L hn gid h a b ga gb ha hb
    rw [Option.map_eq_some_iff] at ha hb
    obtain ⟨v, hv, rfl⟩ := ha
    obtain ⟨w, hw, rfl⟩ := hb
    have h1 := h.1 v
    have h2 := h.1 w
    have e1 : gidOf j.serial (gid v) (im.id v) = (gid v : Int) - 1 := by unfold gidOf; simp [h1]
    have e2 : gidOf j.serial (gid w) (im.id w) = (gid w : Int) - 1 := by unfold gidOf; simp [h2]
    rw [e1, e2]
    refine ⟨by omega, fun e => ?_⟩
    have : v = w := h.2 v w (by omega)
    subst this
    rw [← hn.at_iff.mp hv, ← hn.at_iff.mp hw]
  exact ⟨fun h => key _ _ j.m.fnum _ h, fun h => key _ _ j.m.enum _ h, fun h => key _ _ (j.m.cnum j.bg) _ h⟩

example : GidsGiven (fun v => (sampleMesh.vtx v).gid) ∧
    (⟨sampleMesh, true, true, false, false, [], []⟩ : JMesh).nodeGid 3 = some 0 := by
  refine ⟨⟨?_, ?_⟩, ?_⟩
  · show ∀ v : Fin 4, (sampleMesh.vtx v).gid ≠ 0
    decide +kernel
  · show ∀ v w : Fin 4, (sampleMesh.vtx v).gid = (sampleMesh.vtx w).gid → v = w
    decide +kernel
  · decide +kernel

/-- **C104** is false of cells to which MSTK gave no global id (such as the boundary ghosts `create_boundary_ghosts` adds):
in a run on several ranks they all have global id -1 -/
theorem missing_gids (j : JMesh) (hs : j.serial = false) :
    (∀ a r, (j.m.rmap j.bg).at a = some r → (j.m.region r).gid = 0 → j.cellGid3 a = some (-1)) ∧
    (∀ a r, (j.m.cmap j.bg).at a = some r → (j.m.face r).gid = 0 → j.cellGid2 a = some (-1)) := by
  constructor
  · intro a r h0 h1
    unfold JMesh.cellGid3; rw [h0, Option.map_some, h1, hs]; rfl
  · intro a r h0 h1
    unfold JMesh.cellGid2; rw [h0, Option.map_some, h1, hs]; rfl

/-- two cells with the same global id -/
example : ∃ (j : JMesh) (a b : Nat), a ≠ b ∧ j.serial = false ∧ j.cellGid2 a = some (-1) ∧ j.cellGid2 b = some (-1) := by
  refine ⟨⟨{ sampleMesh with face := fun f => { sampleMesh.face f with gid := 0, bndryGhost := true } }, true, true, true, false,
    [], []⟩, 0, 1, by decide, rfl, ?_, ?_⟩ <;> decide +kernel

end Jali.Mstk
