import Verif.Spec.SetRegistry
import Verif.Spec.SameMesh
/-
Membership in a region given by positions of entities, and when two meshes have the same entities up to their numbers.
-/
namespace Jali.Reg
open Jali.MSet

/-- Entity `e` belongs to the region named `n`, logical regions being resolved up to `d` levels deep: a union, intersection, difference
or complement of its components, or the region the entity is located in. -/
def member {P K : Type} [Field K] [LinearOrder K] (g : Geo P K) (gm : List (Region P)) (w : World) (kind : EntityKind) : Nat → String → Nat → Prop
  | d, n, e =>
    match findRegion gm n with
    | none => False
    | some r =>
      if r.type = .LOGICAL then
        match d with
        | 0 => False
        | d + 1 =>
          match r.op with
          | .UNION => ∃ c ∈ r.comps, member g gm w kind d c e
          | .INTERSECT => ∀ c ∈ r.comps, member g gm w kind d c e
          | .SUBTRACT =>
            match r.comps with
            | [] => False
            | c :: cs => member g gm w kind d c e ∧ ∀ c' ∈ cs, ¬ member g gm w kind d c' e
          | .COMPLEMENT => e < (w.view kind).nAll ∧ ∀ c ∈ r.comps, ¬ member g gm w kind d c e
          | .NOBOOLEAN => False
      else InRegion g w kind r e

/-- The region named `n` is a box, a plane or a polygon as far as these are defined by positions for the kind, or a logical region with an
operation and enough components, all of them of this sort, nested at most `d` deep. -/
inductive Placed {P : Type} (gm : List (Region P)) (kind : EntityKind) : Nat → String → Prop
  | prim (d n r) : findRegion gm n = some r → Positional kind r.type = true → Placed gm kind d n
  | logical (d n r) : findRegion gm n = some r → r.type = .LOGICAL → r.op ≠ .NOBOOLEAN → r.comps ≠ [] →
      (r.op = .SUBTRACT → 2 ≤ r.comps.length) → (∀ c ∈ r.comps, Placed gm kind d c) → Placed gm kind (d + 1) n

/-- Entity `e` of the kind in the first mesh is entity `ren e` in the second: same position, same corners. -/
structure Alike {P K : Type} [Field K] [LinearOrder K] (g g' : Geo P K) (kind : EntityKind) (n : Nat) (ren : Nat → Nat) : Prop where
  renumbers : MeshGeom.Spec.Renumbers n ren
  dim : g'.celldim = g.celldim
  cellCentroid : kind = .CELL → ∀ e < n, g'.cellCentroid (ren e) = g.cellCentroid e
  cellCoords : kind = .CELL → ∀ e < n, (g.cellCoords e).Perm (g'.cellCoords (ren e))
  faceCentroid : kind = .FACE → ∀ e < n, g'.faceCentroid (ren e) = g.faceCentroid e
  faceCoords : kind = .FACE → ∀ e < n, (g.faceCoords e).Perm (g'.faceCoords (ren e))
  nodeCoord : kind = .NODE → ∀ e < n, g'.nodeCoord (ren e) = g.nodeCoord e

end Jali.Reg
