import Verif.Spec.SameRegions
/-
Specification for C184: the part of a mesh that a rank has.
-/
namespace Jali.Reg
open Jali.MSet

/-- Entity `e` of the kind on the rank (mesh `g'`, `w'`) is entity `ren e` of the whole mesh (`g`, `w`): same position, same corners. -/
structure PartOf {P K : Type} [Field K] [LinearOrder K] (g : Geo P K) (w : World) (g' : Geo P K) (w' : World) (kind : EntityKind) (ren : Nat → Nat) :
    Prop where
  into : ∀ e < (w'.view kind).nAll, ren e < (w.view kind).nAll
  dim : g'.celldim = g.celldim
  cellCentroid : kind = .CELL → ∀ e < (w'.view kind).nAll, g'.cellCentroid e = g.cellCentroid (ren e)
  cellCoords : kind = .CELL → ∀ e < (w'.view kind).nAll, (g'.cellCoords e).Perm (g.cellCoords (ren e))
  faceCentroid : kind = .FACE → ∀ e < (w'.view kind).nAll, g'.faceCentroid e = g.faceCentroid (ren e)
  faceCoords : kind = .FACE → ∀ e < (w'.view kind).nAll, (g'.faceCoords e).Perm (g.faceCoords (ren e))
  nodeCoord : kind = .NODE → ∀ e < (w'.view kind).nAll, g'.nodeCoord e = g.nodeCoord (ren e)

/-- a rank: its mesh, its sets and the numbers of its entities in the whole mesh -/
structure Rank (P K : Type) [Field K] [LinearOrder K] where
  geo : Geo P K
  world : World
  ren : Nat → Nat

/-- Every entity of the whole mesh is owned by one rank, as one entity. -/
def OwnedOnce {ι P K : Type} [Field K] [LinearOrder K] (w : World) (kind : EntityKind) (ranks : ι → Rank P K) : Prop :=
  ∀ E < (w.view kind).nAll, ∃ i e, (e < ((ranks i).world.view kind).nOwned ∧ (ranks i).ren e = E) ∧
    ∀ j f, f < ((ranks j).world.view kind).nOwned ∧ (ranks j).ren f = E → j = i ∧ f = e

end Jali.Reg
