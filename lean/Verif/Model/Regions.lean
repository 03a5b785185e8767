import Verif.Model.Geometry
import Verif.Model.SetRegistry
/-
src/geometry/*Region.{hh,cc}, GeometricModel.{hh,cc}, Domain.{hh,cc}: geometric regions, lists of regions.
Real numbers instead of doubles; the results of 0/0 (NaN) are modelled explicitly where the code can produce them. Points have
dimension at most 3 (the size of the array in `Point`). Checks under `#ifdef DEBUG` are not modelled. Texts of messages are dropped.
-/
namespace Jali.Geom
noncomputable section
open Point Jali.Reg

/-- `operator[]` of a point (Point.hh:135-136) -/
def Point.coord (p : Point) : Nat → ℝ
  | 0 => p.x
  | 1 => p.y
  | _ => p.z

/-- `LifeCycle_type` (Region.hh:81) -/
inductive LifeCycle
  | PERMANENT | TEMPORARY
deriving DecidableEq, Repr

/-- How a call ends: it returns a value, throws, or reads memory outside of an array or an indeterminate value. -/
inductive Res (α : Type) where
  | value (a : α)
  | throws
  | undefined

/-- `Region` (Region.hh:175-192): the members of the base class -/
structure Base where
  name : String
  id : Nat
  dim : Nat
  lifecycle : LifeCycle

/-- The region classes with their members. `normal` of a polygon is `none` when it was computed as 0/0 (NaN components).
`op` of a logical region is `none` when it was never set (indeterminate). -/
inductive AnyRegion where
  /-- `BoxRegion` (BoxRegion.hh:127-128) -/
  | box (base : Base) (p0 p1 : Point)
  /-- `PlaneRegion` (PlaneRegion.hh:102-103) -/
  | plane (base : Base) (p n : Point)
  /-- `PointRegion` (PointRegion.hh:98) -/
  | point (base : Base) (p : Point)
  /-- `PolygonRegion` (PolygonRegion.hh:106-113) -/
  | polygon (base : Base) (numPoints : Nat) (points : List Point) (normal : Option Point) (elimDir : Nat)
  /-- `LogicalRegion` (LogicalRegion.hh:120-121) -/
  | logical (base : Base) (op : Option BoolOp) (regionNames : List String)
  /-- `LabeledSetRegion` (LabeledSetRegion.hh:116-119) -/
  | labeled (base : Base) (entityStr file format label : String)

namespace AnyRegion

/-- the base class part -/
def base : AnyRegion → Base
  | box b _ _ | plane b _ _ | point b _ | polygon b _ _ _ _ | logical b _ _ | labeled b _ _ _ _ => b
/-- `name()` (Region.hh:133-138) -/
def name (r : AnyRegion) : String := r.base.name
/-- `id()` (Region.hh:140-145) -/
def id (r : AnyRegion) : Nat := r.base.id
/-- `dimension()` (Region.hh:147-152) -/
def dimension (r : AnyRegion) : Nat := r.base.dim
/-- `lifecycle()` (Region.hh:154-162) -/
def lifecycle (r : AnyRegion) : LifeCycle := r.base.lifecycle
/-- `type()` of the classes (BoxRegion.hh:90, PlaneRegion.hh:87, PointRegion.hh:86, PolygonRegion.hh:90, LogicalRegion.hh:107,
LabeledSetRegion.hh:105) -/
def type : AnyRegion → RegionType
  | box .. => .BOX
  | plane .. => .PLANE
  | point .. => .POINT
  | polygon .. => .POLYGON
  | logical .. => .LOGICAL
  | labeled .. => .LABELEDSET
end AnyRegion

/-- constructor of `BoxRegion` (BoxRegion.cc:72-92): the dimension is reduced by the number of equal coordinates -/
def mkBox (name : String) (id : Nat) (p0 p1 : Point) (lc : LifeCycle) : Res AnyRegion :=
  if p0.d ≠ p1.d then .throws
  else
    let dim := (List.range p0.d).foldl (fun dim i => if p0.coord i = p1.coord i then dim - 1 else dim) p0.d
    .value (.box ⟨name, id, if dim < p0.d then dim else p0.d, lc⟩ p0 p1)

/-- constructor of `PlaneRegion` (PlaneRegion.cc:70-84); `p.dim()-1` for a point without coordinates wraps around in the
code, here it is 0 -/
def mkPlane (name : String) (id : Nat) (p n : Point) (lc : LifeCycle) : Res AnyRegion :=
  if p.d ≠ n.d then .throws else .value (.plane ⟨name, id, p.d - 1, lc⟩ p n)

/-- constructor of `PointRegion` (PointRegion.cc:70-76) -/
def mkPointRegion (name : String) (id : Nat) (p : Point) (lc : LifeCycle) : Res AnyRegion := .value (.point ⟨name, id, 0, lc⟩ p)

/-- `v /= norm(v)` (PolygonRegion.cc:112, 121): 0/0 in all components for the zero vector -/
def normalize (v : Point) : Option Point := if norm v = 0 then none else some (divAssign v (norm v))

/-- the loop that looks for the largest component of the normal (PolygonRegion.cc:144-150); with NaN components no comparison
holds and `dmax` remains -1, which is 4294967295 once stored as unsigned -/
def elimLoop : Option Point → Nat
  | none => 4294967295
  | some n =>
    let step := fun (st : ℝ × Nat) i => if n.coord i > st.1 then (n.coord i, i) else st
    ((List.range 3).foldl step ((-1 : ℝ), 4294967295)).2

/-- constructor of `PolygonRegion` with `init` (PolygonRegion.cc:70-78, 92-160). Reading `points[0]`, `points[1]`, `points[2]`
beyond the end of the vector is undefined. -/
def mkPolygon (name : String) (id : Nat) (numPoints : Nat) (points : List Point) (lc : LifeCycle) : Res AnyRegion :=
  match points with
  | [] => .undefined
  | p0 :: _ =>
    if numPoints < p0.d then .throws
    else if p0.d = 2 then
      match points with
      | p0 :: p1 :: _ =>
        match normalize (p1 - p0) with
        | none => .value (.polygon ⟨name, id, 2, lc⟩ numPoints points none 1)
        | some vec => .value (.polygon ⟨name, id, 2, lc⟩ numPoints points (some (mk2 vec.y (-vec.x))) (if vec.x < vec.y then 0 else 1))
      | _ => .undefined
    else if p0.d = 3 then
      match points with
      | p0 :: p1 :: p2 :: _ =>
        let normal := normalize (cross (p2 - p1) (p0 - p1))
        .value (.polygon ⟨name, id, 3, lc⟩ numPoints points normal (elimLoop normal))
      | _ => .undefined
    else .throws

/-- constructor of `LogicalRegion` from the name of the operation (LogicalRegion.cc:71-95) -/
def mkLogicalStr (name : String) (id : Nat) (operation : String) (regionNames : List String) (lc : LifeCycle) : Res AnyRegion :=
  if operation = "Complement" then .value (.logical ⟨name, id, 3, lc⟩ (some .COMPLEMENT) regionNames)
  else if operation = "Union" then .value (.logical ⟨name, id, 3, lc⟩ (some .UNION) regionNames)
  else if operation = "Intersect" then .value (.logical ⟨name, id, 3, lc⟩ (some .INTERSECT) regionNames)
  else if operation = "Subtract" then .value (.logical ⟨name, id, 3, lc⟩ (some .SUBTRACT) regionNames)
  else .throws

/-- constructor of `LogicalRegion` from the operation (LogicalRegion.cc:97-105) -/
def mkLogical (name : String) (id : Nat) (op : BoolOp) (regionNames : List String) (lc : LifeCycle) : Res AnyRegion :=
  .value (.logical ⟨name, id, 3, lc⟩ (some op) regionNames)

/-- constructor of `LabeledSetRegion` (LabeledSetRegion.cc:71-84) -/
def mkLabeled (name : String) (id : Nat) (entityStr file format label : String) (lc : LifeCycle) : Res AnyRegion :=
  .value (.labeled ⟨name, id, 3, lc⟩ entityStr file format label)

/-- copy constructor of `Region` (Region.cc:76-81) -/
def copyBase (b : Base) : Base := ⟨b.name, b.id, b.dim, b.lifecycle⟩

/-- The copy constructors (BoxRegion.cc:94-98, PlaneRegion.cc:86-90, PointRegion.cc:78-82, PolygonRegion.cc:80-85,
LogicalRegion.cc:107-111, LabeledSetRegion.cc:86-90). The last two copy only the base class: the operation is not initialised,
the list of names and the strings are empty. -/
def copyRegion : AnyRegion → AnyRegion
  | .box b p0 p1 => .box (copyBase b) p0 p1
  | .plane b p n => .plane (copyBase b) p n
  | .point b p => .point (copyBase b) p
  | .polygon b np ps n e => .polygon (copyBase b) np ps n e
  | .logical b _ _ => .logical (copyBase b) none []
  | .labeled b _ _ _ _ => .labeled (copyBase b) "" "" "" ""

/-- `BoxRegion::between_` (BoxRegion.cc:107-112) -/
def between (x x0 x1 : ℝ) : Bool :=
  let tol : ℝ := 1 / 10 ^ 8
  decide ((x0 + tol ≥ x ∧ x ≥ x1 - tol) ∨ (x1 + tol ≥ x ∧ x ≥ x0 - tol))

/-- `BoxRegion::inside` (BoxRegion.cc:117-134) -/
def insideBox (p0 p1 p : Point) : Res Bool :=
  if p.d ≠ p0.d then .throws
  else .value ((List.range p.d).foldl (fun result i => result && between (p.coord i) (p0.coord i) (p1.coord i)) true)

/-- `BoxRegion::is_degenerate` (BoxRegion.cc:139-150): the answer and `*ndeg` -/
def isDegenerate (p0 p1 : Point) : Bool × Nat :=
  let ndeg := (List.range p0.d).foldl (fun k i => if p0.coord i = p1.coord i then k + 1 else k) 0
  (decide (ndeg ≠ 0), ndeg)

/-- `BoxRegion::corners` (BoxRegion.hh:105-119): the low and the high corner; both pointers given -/
def corners (p0 p1 : Point) : Point × Point := (p0, p1)

/-- `PlaneRegion::inside` (PlaneRegion.cc:100-129): the two sums of the loop, then their difference -/
def insidePlane (q n p : Point) : Res Bool :=
  if p.d ≠ q.d then .throws
  else
    let res := (List.range p.d).foldl (fun s i => s + n.coord i * p.coord i) 0
    let d := (List.range p.d).foldl (fun s i => s + n.coord i * q.coord i) 0
    .value (decide (|res - d| ≤ 1 / 10 ^ 12))

/-- `PointRegion::inside` (PointRegion.cc:92-112) -/
def insidePoint (q p : Point) : Res Bool :=
  if p.d ≠ q.d then .throws
  else .value ((List.range p.d).foldl (fun result i => result && decide (|p.coord i - q.coord i| < 1 / 10 ^ 12)) true)

/-- Whether `t` lies on the segment from `a` to `b` (PolygonRegion.cc:196-223 and 269-308): the projection to the line lies in
the segment and is close to `t`. If `a = b` the unit vector is 0/0 and no comparison holds. -/
def onSegment (t a b : Point) : Bool :=
  let vec0 := t - a
  let slen := norm (b - a)
  if slen = 0 then false
  else
    let vec1 := divAssign (b - a) slen
    let dp := dot vec0 vec1
    if 0 ≤ dp ∧ dp ≤ slen then decide (L22 (t - (a + smul dp vec1)) < 1 / 10 ^ 16) else false

/-- `p[d0], p[d1]` as a plane point, with `d0 = (elim_dir_+1)%3`, `d1 = (elim_dir_+2)%3` (PolygonRegion.cc:236-250); the sums
wrap around for 4294967295 -/
def projElim (e : Nat) (p : Point) : Point :=
  mk2 (p.coord ((e + 1) % 4294967296 % 3)) (p.coord ((e + 2) % 4294967296 % 3))

/-- the test against the infinite line or plane (PolygonRegion.cc:178-189); it never fails with a NaN normal -/
def onPlane (normal : Option Point) (q p : Point) : Bool :=
  match normal with
  | none => true
  | some n =>
    let res := (List.range p.d).foldl (fun s i => s + n.coord i * p.coord i) 0
    let d := (List.range p.d).foldl (fun s i => s + n.coord i * q.coord i) 0
    !decide (|res - d| > 1 / 10 ^ 12)

/-- `PolygonRegion::inside` (PolygonRegion.cc:165-314). The crossing test (245-258) is the loop of `point_in_polygon`
(Geometry.cc:431-458) on the projected points. A query point of another dimension reads indeterminate components; an
exaggerated number of points reads beyond the vector. -/
def insidePolygon (dim numPoints : Nat) (points : List Point) (normal : Option Point) (elimDir : Nat) (p : Point) : Res Bool :=
  if p.d ≠ (pt points 0).d ∨ points.length < numPoints then .undefined
  else if !onPlane normal (pt points 0) p then .value false
  else if dim = 2 then .value (onSegment p (pt points 0) (pt points 1))
  else
    let poly := (points.take numPoints).map (projElim elimDir)
    let t := projElim elimDir p
    .value (pointInPolygon t poly ||
      (List.range numPoints).any fun i => onSegment t (pt poly i) (pt poly ((i + 1) % numPoints)))

/-- `inside` of the classes; logical regions (LogicalRegion.cc:122-128) and labeled sets (LabeledSetRegion.cc:101-107) throw -/
def AnyRegion.inside (r : AnyRegion) (p : Point) : Res Bool :=
  match r with
  | .box _ p0 p1 => insideBox p0 p1 p
  | .plane _ q n => insidePlane q n p
  | .point _ q => insidePoint q p
  | .polygon b np ps n e => insidePolygon b.dim np ps n e p
  | .logical _ _ _ => .throws
  | .labeled _ _ _ _ _ => .throws

/-- `operation()` (LogicalRegion.hh:110) -/
def AnyRegion.operation : AnyRegion → Res BoolOp
  | .logical _ (some op) _ => .value op
  | _ => .undefined

/-- `component_regions()` (LogicalRegion.hh:115-116) -/
def AnyRegion.components : AnyRegion → List String
  | .logical _ _ names => names
  | _ => []

/-- `entity_str()` and `label()` (LabeledSetRegion.hh:108, 113) -/
def AnyRegion.labelOf : AnyRegion → String × String
  | .labeled _ e _ _ l => (e, l)
  | _ => ("", "")

end

/-! ### Geometric models and domains -/

/-- A pointer to a region, with what a geometric model asks of it: `name()`, `id()`, `dimension()`. -/
structure RegionInfo where
  ptr : Nat
  name : String
  id : Nat
  dim : Nat
deriving DecidableEq, Repr

/-- `GeometricModel` (GeometricModel.hh): the dimension and the list of regions -/
structure GModel where
  topoDim : Nat
  regions : List RegionInfo
deriving DecidableEq, Repr

namespace GModel
/-- constructor (GeometricModel.cc:74-82); `none`: throws -/
def make (dim : Nat) : Option GModel := if dim ≠ 2 ∧ dim ≠ 3 then none else some ⟨dim, []⟩
/-- constructor with a list of regions (GeometricModel.cc:202-208) -/
def makeList (dim : Nat) (rs : List RegionInfo) : GModel := ⟨dim, rs⟩
/-- copy constructor (GeometricModel.cc:86-97) -/
def copy (g : GModel) : GModel :=
  (List.range g.regions.length).foldl (fun h i => ⟨h.topoDim, h.regions ++ (g.regions[i]?).toList⟩) ⟨g.topoDim, []⟩
/-- `Add_Region` (GeometricModel.cc:213-221); `none`: throws -/
def addRegion (g : GModel) (r : RegionInfo) : Option GModel :=
  if g.topoDim < r.dim then none else some ⟨g.topoDim, g.regions ++ [r]⟩
/-- `Num_Regions` (GeometricModel.cc:226-229) -/
def numRegions (g : GModel) : Nat := g.regions.length
/-- `Region_i` (GeometricModel.cc:234-237); `none`: outside of the vector -/
def region_i (g : GModel) (i : Nat) : Option RegionInfo := g.regions[i]?

/-- the loop of both `FindRegion`s: the index of the first region with the property -/
def findLoop (p : RegionInfo → Bool) : List RegionInfo → Option RegionInfo
  | [] => none
  | r :: rs => if p r then some r else findLoop p rs
/-- `FindRegion(int id)` (GeometricModel.cc:242-260): the argument is converted to unsigned for the comparison -/
def findId (g : GModel) (id : Int) : Option RegionInfo := findLoop (fun r => (r.id : Int) == id % 4294967296) g.regions
/-- `FindRegion(std::string name)` (GeometricModel.cc:265-283) -/
def findName (g : GModel) (name : String) : Option RegionInfo := findLoop (fun r => r.name == name) g.regions
end GModel

/-- `Domain` (Domain.hh): the dimension, geometric models and free regions. Simplification: a domain has the geometric models
themselves instead of pointers to them. -/
structure Dom where
  spatialDim : Nat
  models : List GModel
  freeRegions : List RegionInfo
deriving DecidableEq, Repr

namespace Dom
/-- constructor (Domain.cc:73-82); `none`: throws -/
def make (dim : Nat) : Option Dom := if dim < 2 ∨ dim > 3 then none else some ⟨dim, [], []⟩
/-- constructor with lists (Domain.cc:117-127); `none`: throws -/
def makeList (dim : Nat) (gs : List GModel) (rs : List RegionInfo) : Option Dom :=
  if dim ≠ 2 ∨ dim ≠ 3 then none else some ⟨dim, gs, rs⟩
/-- copy constructor (Domain.cc:86-103) -/
def copy (o : Dom) : Dom :=
  let d := (List.range o.models.length).foldl (fun (d : Dom) i => { d with models := d.models ++ (o.models[i]?).toList }) ⟨o.spatialDim, [], []⟩
  (List.range o.freeRegions.length).foldl
    (fun (d : Dom) i => { d with freeRegions := d.freeRegions ++ (o.freeRegions[i]?).toList }) d
/-- `Add_Geometric_Model` (Domain.cc:133-143); `none`: throws -/
def addModel (o : Dom) (g : GModel) : Option Dom :=
  if o.spatialDim ≠ g.topoDim then none else some { o with models := o.models ++ [g] }
/-- `Add_Free_Region` (Domain.cc:148-156); `none`: throws -/
def addFree (o : Dom) (r : RegionInfo) : Option Dom :=
  if o.spatialDim < r.dim then none else some { o with freeRegions := o.freeRegions ++ [r] }
end Dom

end Jali.Geom
