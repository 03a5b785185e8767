import Verif.Spec.MstkBndry
import Verif.Proof.MstkBndry
import Verif.Proof.MstkQueries
/-
`create_boundary_ghosts` of 2D meshes: the generic lemmas for faces on edges.
-/
namespace Jali.Mstk

/-- the faces that get a cell if they have one -/
def MMesh.Ok2 (m : MMesh) (f : Fin m.ne) : Prop := (m.edge f).ptype ≠ .ghost ∧ (m.edge f).parBndry = false

instance (m : MMesh) : DecidablePred m.Ok2 := fun f => by unfold MMesh.Ok2; infer_instance

/-- the cell outside -/
def outside2 {ne : Nat} (p : Fin ne × Bool) : Face ne := ⟨.interior, 0, [p], false, true⟩

/-- the cells added -/
def MMesh.added2 (m : MMesh) : List (Face m.ne) := ghostsFor m.face Face.edges m.Ok2 outside2

/-- face of one region only -/
def MMesh.OuterH2 (m : MMesh) (f : Fin m.ne) (r : Fin m.nf) (d : Bool) : Prop := OuterG m.face Face.edges m.Ok2 f r d

theorem bndryStep2_eq (m : MMesh) : m.bndryStep2 = stepG m.face Face.edges m.Ok2 outside2 := by
  funext added f
  have e : m.facesNow added f =
      ((List.finRange m.nf).map m.face ++ added).filter fun c => f ∈ (Face.edges c).map Prod.fst := rfl
  unfold MMesh.bndryStep2 stepG
  rw [e]
  rcases ((List.finRange m.nf).map m.face ++ added).filter fun c => decide (f ∈ (Face.edges c).map Prod.fst) with
    _ | ⟨a, _ | ⟨b, l⟩⟩
  · rfl
  · have hd : a.edgeDir f = dirOf Face.edges a f := rfl
    dsimp only
    rw [hd]
    rfl
  · rfl

theorem boundaryGhosts2_eq (m : MMesh) : m.boundaryGhosts2 = m.withFaces m.added2 := by
  unfold MMesh.boundaryGhosts2 MMesh.added2
  rw [← fold_stepG_all m.face Face.edges m.Ok2 outside2 (fun _ => rfl), bndryStep2_eq]

theorem withFaces_region (m : MMesh) (A : List (Face m.ne)) : (m.withFaces A).face = extend m.face A := rfl

theorem withFaces_meFaces (m : MMesh) (A : List (Face m.ne)) (f : Fin m.ne) :
    (m.withFaces A).meFaces f = users Face.edges (extend m.face A) f := rfl

theorem meFaces_eq (m : MMesh) (f : Fin m.ne) : m.meFaces f = users Face.edges m.face f := rfl

theorem added2_mem (m : MMesh) (hr : m.Cells2) {c : Face m.ne} :
    c ∈ m.added2 ↔ ∃ f r d, m.OuterH2 f r d ∧ c = outside2 (f, !d) := mem_ghostsFor _ _ _ _ hr.noface

theorem added2_marks (m : MMesh) (hr : m.Cells2) : ∀ c ∈ m.added2, c.ptype = .interior ∧ c.bndryGhost = true := by
  intro c hc
  obtain ⟨f, r, d, _, rfl⟩ := (added2_mem m hr).mp hc
  exact ⟨rfl, rfl⟩

theorem cmap_old (m : MMesh) (hr : m.Cells2) (h0 : ∀ r, (m.face r).bndryGhost = false) (i : Nat) (hi : i < m.nf) :
    ((m.withFaces m.added2).cmap true).at i = ((m.cmap false).at i).map (Fin.castAdd _) :=
  (at_old m.face m.added2 Face.ptype Face.bndryGhost h0 (added2_marks m hr)).1 i hi

theorem cmap_new (m : MMesh) (hr : m.Cells2) (h0 : ∀ r, (m.face r).bndryGhost = false) (i : Fin m.added2.length) :
    ((m.withFaces m.added2).cmap true).at (m.nf + i) = some (Fin.natAdd _ i) :=
  (at_old m.face m.added2 Face.ptype Face.bndryGhost h0 (added2_marks m hr)).2.2.2.2 i

theorem cmap_old_id (m : MMesh) (hr : m.Cells2) (h0 : ∀ r, (m.face r).bndryGhost = false) (r : Fin m.nf) :
    ((m.withFaces m.added2).cmap true).id (Fin.castAdd _ r : Fin (m.nf + m.added2.length)) - 1 = (m.cmap false).id r - 1 := by
  apply ((m.withFaces m.added2).cnum true).at_iff.mp
  rw [cmap_old m hr h0 _ ((m.cnum false).id_lt r), (m.cnum false).at_id]
  rfl

theorem cmap_new_id (m : MMesh) (hr : m.Cells2) (h0 : ∀ r, (m.face r).bndryGhost = false) (i : Fin m.added2.length) :
    ((m.withFaces m.added2).cmap true).id (Fin.natAdd _ i : Fin (m.nf + m.added2.length)) - 1 = m.nf + i :=
  ((m.withFaces m.added2).cnum true).at_iff.mp (cmap_new m hr h0 i)

theorem cellIds2_old (m : MMesh) (hr : m.Cells2) (h0 : ∀ r, (m.face r).bndryGhost = false) :
    ((m.withFaces m.added2).cellIds2 true).owned = (m.cellIds2 false).owned ∧
    ((m.withFaces m.added2).cellIds2 true).ghost = (m.cellIds2 false).ghost ∧
    ((m.withFaces m.added2).cellIds2 true).bndry = (List.range m.added2.length).map (m.nf + ·) := by
  have h := at_old m.face m.added2 Face.ptype Face.bndryGhost h0 (added2_marks m hr)
  have e1 : ((m.withFaces m.added2).cellIds2 true).owned =
      (ownedCells true (fun r => (extend m.face m.added2 r).ptype) fun r => (extend m.face m.added2 r).bndryGhost).map
        (fun v : Fin (m.nf + m.added2.length) => ((m.withFaces m.added2).cmap true).id v - 1) := rfl
  have e2 : ((m.withFaces m.added2).cellIds2 true).ghost =
      (ghostList (fun r => (extend m.face m.added2 r).ptype)).map
        (fun v : Fin (m.nf + m.added2.length) => ((m.withFaces m.added2).cmap true).id v - 1) := rfl
  have e3 : ((m.withFaces m.added2).cellIds2 true).bndry =
      (bndryCells true (fun r => (extend m.face m.added2 r).ptype) fun r => (extend m.face m.added2 r).bndryGhost).map
        (fun v : Fin (m.nf + m.added2.length) => ((m.withFaces m.added2).cmap true).id v - 1) := rfl
  refine ⟨?_, ?_, ?_⟩
  · rw [e1, h.2.1, List.map_map]
    apply List.map_congr_left
    intro r _
    exact cmap_old_id m hr h0 r
  · rw [e2, h.2.2.1, List.map_map]
    apply List.map_congr_left
    intro r _
    exact cmap_old_id m hr h0 r
  · rw [e3, h.2.2.2.1, List.map_map]
    have : (List.range m.added2.length) = (List.finRange m.added2.length).map Fin.val := by simp
    rw [this, List.map_map]
    apply List.map_congr_left
    intro i _
    exact cmap_new_id m hr h0 i

end Jali.Mstk
