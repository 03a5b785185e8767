import Verif.Spec.MstkBndry
import Verif.Proof.MstkBndry
import Verif.Proof.MstkQueries
/-
`create_boundary_ghosts` of 3D meshes: the generic lemmas for regions.
-/
namespace Jali.Mstk

/-- the faces that get a cell if they have one -/
def MMesh.Ok3 (m : MMesh) (f : Fin m.nf) : Prop := (m.face f).ptype ≠ .ghost ∧ (m.face f).parBndry = false

instance (m : MMesh) : DecidablePred m.Ok3 := fun f => by unfold MMesh.Ok3; infer_instance

/-- the cell outside -/
def outside3 {nf : Nat} (p : Fin nf × Bool) : Region nf := ⟨.interior, 0, [p], true⟩

/-- the cells added -/
def MMesh.added3 (m : MMesh) : List (Region m.nf) := ghostsFor m.region Region.faces m.Ok3 outside3

/-- face of one region only -/
def MMesh.OuterH3 (m : MMesh) (f : Fin m.nf) (r : Fin m.nr) (d : Bool) : Prop := OuterG m.region Region.faces m.Ok3 f r d

theorem bndryStep3_eq (m : MMesh) : m.bndryStep3 = stepG m.region Region.faces m.Ok3 outside3 := by
  funext added f
  have e : m.regionsNow added f =
      ((List.finRange m.nr).map m.region ++ added).filter fun c => f ∈ (Region.faces c).map Prod.fst := rfl
  unfold MMesh.bndryStep3 stepG
  rw [e]
  rcases ((List.finRange m.nr).map m.region ++ added).filter fun c => decide (f ∈ (Region.faces c).map Prod.fst) with
    _ | ⟨a, _ | ⟨b, l⟩⟩
  · rfl
  · have hd : a.faceDir f = dirOf Region.faces a f := rfl
    dsimp only
    rw [hd]
    rfl
  · rfl

theorem boundaryGhosts3_eq (m : MMesh) : m.boundaryGhosts3 = m.withRegions m.added3 := by
  unfold MMesh.boundaryGhosts3 MMesh.added3
  rw [← fold_stepG_all m.region Region.faces m.Ok3 outside3 (fun _ => rfl), bndryStep3_eq]

theorem withRegions_region (m : MMesh) (A : List (Region m.nf)) : (m.withRegions A).region = extend m.region A := rfl

theorem withRegions_mfRegions (m : MMesh) (A : List (Region m.nf)) (f : Fin m.nf) :
    (m.withRegions A).mfRegions f = users Region.faces (extend m.region A) f := rfl

theorem mfRegions_eq (m : MMesh) (f : Fin m.nf) : m.mfRegions f = users Region.faces m.region f := rfl

theorem added3_mem (m : MMesh) (hr : m.Regions) {c : Region m.nf} :
    c ∈ m.added3 ↔ ∃ f r d, m.OuterH3 f r d ∧ c = outside3 (f, !d) := mem_ghostsFor _ _ _ _ hr.noface

theorem added3_marks (m : MMesh) (hr : m.Regions) : ∀ c ∈ m.added3, c.ptype = .interior ∧ c.bndryGhost = true := by
  intro c hc
  obtain ⟨f, r, d, _, rfl⟩ := (added3_mem m hr).mp hc
  exact ⟨rfl, rfl⟩

theorem rmap_old (m : MMesh) (hr : m.Regions) (h0 : ∀ r, (m.region r).bndryGhost = false) (i : Nat) (hi : i < m.nr) :
    ((m.withRegions m.added3).rmap true).at i = ((m.rmap false).at i).map (Fin.castAdd _) :=
  (at_old m.region m.added3 Region.ptype Region.bndryGhost h0 (added3_marks m hr)).1 i hi

theorem rmap_new (m : MMesh) (hr : m.Regions) (h0 : ∀ r, (m.region r).bndryGhost = false) (i : Fin m.added3.length) :
    ((m.withRegions m.added3).rmap true).at (m.nr + i) = some (Fin.natAdd _ i) :=
  (at_old m.region m.added3 Region.ptype Region.bndryGhost h0 (added3_marks m hr)).2.2.2.2 i

theorem rmap_old_id (m : MMesh) (hr : m.Regions) (h0 : ∀ r, (m.region r).bndryGhost = false) (r : Fin m.nr) :
    ((m.withRegions m.added3).rmap true).id (Fin.castAdd _ r : Fin (m.nr + m.added3.length)) - 1 = (m.rmap false).id r - 1 := by
  apply ((m.withRegions m.added3).rnum true).at_iff.mp
  rw [rmap_old m hr h0 _ ((m.rnum false).id_lt r), (m.rnum false).at_id]
  rfl

theorem rmap_new_id (m : MMesh) (hr : m.Regions) (h0 : ∀ r, (m.region r).bndryGhost = false) (i : Fin m.added3.length) :
    ((m.withRegions m.added3).rmap true).id (Fin.natAdd _ i : Fin (m.nr + m.added3.length)) - 1 = m.nr + i :=
  ((m.withRegions m.added3).rnum true).at_iff.mp (rmap_new m hr h0 i)

theorem cellIds3_old (m : MMesh) (hr : m.Regions) (h0 : ∀ r, (m.region r).bndryGhost = false) :
    ((m.withRegions m.added3).cellIds3 true).owned = (m.cellIds3 false).owned ∧
    ((m.withRegions m.added3).cellIds3 true).ghost = (m.cellIds3 false).ghost ∧
    ((m.withRegions m.added3).cellIds3 true).bndry = (List.range m.added3.length).map (m.nr + ·) := by
  have h := at_old m.region m.added3 Region.ptype Region.bndryGhost h0 (added3_marks m hr)
  have e1 : ((m.withRegions m.added3).cellIds3 true).owned =
      (ownedCells true (fun r => (extend m.region m.added3 r).ptype) fun r => (extend m.region m.added3 r).bndryGhost).map
        (fun v : Fin (m.nr + m.added3.length) => ((m.withRegions m.added3).rmap true).id v - 1) := rfl
  have e2 : ((m.withRegions m.added3).cellIds3 true).ghost =
      (ghostList (fun r => (extend m.region m.added3 r).ptype)).map
        (fun v : Fin (m.nr + m.added3.length) => ((m.withRegions m.added3).rmap true).id v - 1) := rfl
  have e3 : ((m.withRegions m.added3).cellIds3 true).bndry =
      (bndryCells true (fun r => (extend m.region m.added3 r).ptype) fun r => (extend m.region m.added3 r).bndryGhost).map
        (fun v : Fin (m.nr + m.added3.length) => ((m.withRegions m.added3).rmap true).id v - 1) := rfl
  refine ⟨?_, ?_, ?_⟩
  · rw [e1, h.2.1, List.map_map]
    apply List.map_congr_left
    intro r _
    exact rmap_old_id m hr h0 r
  · rw [e2, h.2.2.1, List.map_map]
    apply List.map_congr_left
    intro r _
    exact rmap_old_id m hr h0 r
  · rw [e3, h.2.2.2.1, List.map_map]
    have : (List.range m.added3.length) = (List.finRange m.added3.length).map Fin.val := by simp
    rw [this, List.map_map]
    apply List.map_congr_left
    intro i _
    exact rmap_new_id m hr h0 i

end Jali.Mstk
