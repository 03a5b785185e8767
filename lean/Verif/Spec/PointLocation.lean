import Verif.Spec.EvenOdd
/-! Specification of C147: outlines that are cut into shorter edges, convex cells and points in them. -/
namespace Jali.Geom.Spec
open Jali.Geom

/-- The directed edges `L` are the directed edges `B`, in some order, some of them cut at points on them. -/
inductive Refines (L : List (Point × Point)) : List (Point × Point) → Prop
  /-- the same edges -/
  | same {B} : L.Perm B → Refines L B
  /-- the edge from `a` to `b` is cut at `v` -/
  | cut {a b v B} : OnSeg a b v.x v.y → Refines L ((a, v) :: (v, b) :: B) → Refines L ((a, b) :: B)
  /-- the order of the edges does not matter -/
  | order {B B'} : B.Perm B' → Refines L B' → Refines L B

/-- A convex polygon that runs counter-clockwise, possibly with additional nodes on its edges. -/
def ConvexOutline (l : List Point) : Prop := ∃ B : List Point, StrictlyConvex B ∧ Refines (polyEdges l) (polyEdges B)

end Jali.Geom.Spec
