import Verif.Model.SetInit
/-!
Specification for C181: which types of regions describe entities of which kind.
-/
namespace Jali.Reg
open Jali.MSet

/-- the types of regions that sets of a kind can be made of, as the messages of `build_set_from_region` have it ("not applicable/supported
for cell sets") -/
def Describes (kind : EntityKind) (t : RegionType) : Prop :=
  match kind with
  | .CELL => t = .BOX ∨ t = .PLANE ∨ t = .POINT ∨ t = .COLORFUNCTION ∨ t = .LABELEDSET ∨ t = .LOGICAL
  | .FACE => t = .BOX ∨ t = .PLANE ∨ t = .POLYGON ∨ t = .LABELEDSET ∨ t = .LOGICAL
  | .NODE => t = .BOX ∨ t = .PLANE ∨ t = .POLYGON ∨ t = .POINT ∨ t = .LABELEDSET ∨ t = .LOGICAL
  | _ => False

/-- the kinds sets can be made of -/
def Settable (kind : EntityKind) : Prop := kind = .CELL ∨ kind = .FACE ∨ kind = .NODE

end Jali.Reg
