import Verif.Spec.SameRegions
/-
Specification for C183: when a point is in a region, logical regions being formulas of other regions.
-/
namespace Jali.Reg

/-- The point is in the region named `n`: in the box, plane or polygon, or in the union, intersection, difference or complement of the
components, resolved up to `d` levels deep. -/
def PointIn {P : Type} (gm : List (Region P)) : Nat → String → P → Prop
  | d, n, p =>
    match findRegion gm n with
    | none => False
    | some r =>
      if r.type = .LOGICAL then
        match d with
        | 0 => False
        | d + 1 =>
          match r.op with
          | .UNION => ∃ c ∈ r.comps, PointIn gm d c p
          | .INTERSECT => ∀ c ∈ r.comps, PointIn gm d c p
          | .SUBTRACT =>
            match r.comps with
            | [] => False
            | c :: cs => PointIn gm d c p ∧ ∀ c' ∈ cs, ¬ PointIn gm d c' p
          | .COMPLEMENT => ∀ c ∈ r.comps, ¬ PointIn gm d c p
          | .NOBOOLEAN => False
      else r.inside p = true

end Jali.Reg
