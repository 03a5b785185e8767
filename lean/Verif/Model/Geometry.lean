import Verif.Model.Point
import Mathlib.Analysis.SpecialFunctions.Trigonometric.Basic
/-
src/geometry/Geometry.cc: volumes, centroids, areas and normals of polyhedra, polygons and segments, and the two
point-in tests. Real numbers instead of doubles. Vectors are lists; `l.getD i` reads entry `i` (all reads are in range when
the arrays have the sizes the interface asks for: `nf = nfnodes.size()`, `fcoords.size()` = sum of `nfnodes`).
-/
namespace Jali.Geom
noncomputable section
open Point

/-- entry `i` of a coordinate vector -/
def pt (l : List Point) (i : Nat) : Point := l.getD i (zero 0)

/-- the loops summing coordinates, followed by `/=` (Geometry.cc:107-110, 140-143, 303-307); `dim` is the dimension the
accumulator was constructed with -/
def meanPoint (dim : Nat) (l : List Point) : Point := divAssign (l.foldl addAssign (zero dim)) l.length

/-- `(v1^v2)*v3` with `v1 = a-o`, `v2 = b-o`, `v3 = c-o`: six times the volume of a tetrahedron (Geometry.cc:101-104, 122-125,
156-159, 222-225) -/
def tet6 (o a b c : Point) : ℝ := dot (cross (a - o) (b - o)) (c - o)

/-- The last step of both computations: a positive total is made negative if some part was inverted
(Geometry.cc:175-180, 346-353). -/
def labelSign (neg : Bool) (v : ℝ) : ℝ := if neg = true ∧ 0 < v then -v else v

/-- `volume`, `centroid` (used for the first moment) and `negvol` during the loop (Geometry.cc:83, 88-89) -/
structure VolAcc where
  vol : ℝ
  mom : Point
  neg : Bool

/-- one tetrahedron is added (Geometry.cc:121-130, 155-164) -/
def addTet (acc : VolAcc) (o a b c : Point) (cen : Point) : VolAcc where
  vol := acc.vol + tet6 o a b c
  mom := addAssign acc.mom (smul (tet6 o a b c) cen)
  neg := acc.neg || decide (tet6 o a b c ≤ 0)

/-- the part of a face: `fcoords[offset .. offset+n-1]` -/
def faceSlice (fcoords : List Point) (offset n : Nat) : List Point := (fcoords.drop offset).take n

/-- One face of the loop (Geometry.cc:117-166): a triangle gives one tetrahedron, another face one tetrahedron per edge. -/
def faceStep (center : Point) (fcoords : List Point) (offset n : Nat) (acc : VolAcc) : VolAcc :=
  if n = 3 then
    addTet acc center (pt fcoords offset) (pt fcoords (offset + 1)) (pt fcoords (offset + 2))
      (sdiv (center + pt fcoords offset + pt fcoords (offset + 1) + pt fcoords (offset + 2)) 4)
  else
    let fcenter := meanPoint 3 (faceSlice fcoords offset n)
    (List.range n).foldl (fun acc j =>
      addTet acc center (pt fcoords (offset + j)) (pt fcoords (offset + (j + 1) % n)) fcenter
        (sdiv (center + fcenter + pt fcoords (offset + j) + pt fcoords (offset + (j + 1) % n)) 4)) acc

/-- The loop over the faces (Geometry.cc:112-170). -/
def facesLoop (center : Point) (fcoords : List Point) : List Nat → Nat → VolAcc → VolAcc
  | [], _, acc => acc
  | n :: ns, offset, acc => facesLoop center fcoords ns (offset + n) (faceStep center fcoords offset n acc)

/-- `polyhed_get_vol_centroid` (Geometry.cc:75-182): volume and centroid. -/
def polyhedVolCentroid (ccoords : List Point) (nfnodes : List Nat) (fcoords : List Point) : ℝ × Point :=
  if ccoords.length < 4 then (0, zero 3)
  else if ccoords.length = 4 then
    (tet6 (pt ccoords 0) (pt ccoords 1) (pt ccoords 2) (pt ccoords 3) / 6,
      sdiv (pt ccoords 0 + pt ccoords 1 + pt ccoords 2 + pt ccoords 3) 4)
  else
    let acc := facesLoop (meanPoint 3 ccoords) fcoords nfnodes 0 ⟨0, zero 3, false⟩
    (labelSign acc.neg (acc.vol / 6), divAssign acc.mom acc.vol)

/-- One face of the loop of `point_in_polyhed` (Geometry.cc:221-260): whether it does not return `false`, and the offset
for the next face. Only the branch for faces other than triangles advances it. -/
def insideFace (t : Point) (fcoords : List Point) (offset n : Nat) : Bool × Nat :=
  if n = 3 then
    (decide (0 ≤ tet6 t (pt fcoords offset) (pt fcoords (offset + 1)) (pt fcoords (offset + 2))), offset)
  else
    let fcenter := meanPoint 3 (faceSlice fcoords offset n)
    ((List.range n).all fun j =>
      decide (0 ≤ tet6 t (pt fcoords (offset + j)) (pt fcoords (offset + (j + 1) % n)) fcenter), offset + n)

/-- The loop of `point_in_polyhed` (Geometry.cc:216-264). -/
def insideLoop (t : Point) (fcoords : List Point) : List Nat → Nat → Bool
  | [], _ => true
  | n :: ns, offset =>
    (insideFace t fcoords offset n).1 && insideLoop t fcoords ns (insideFace t fcoords offset n).2

/-- `point_in_polyhed` (Geometry.cc:203-267) -/
def pointInPolyhed (t : Point) (ccoords : List Point) (nfnodes : List Nat) (fcoords : List Point) : Bool :=
  if ccoords.length < 4 then false else insideLoop t fcoords nfnodes 0

/-- `area`, `centroid`, `normal` and `negvol` (Geometry.cc:286-290) -/
structure AreaAcc where
  area : ℝ
  centroid : Point
  normal : Point
  neg : Bool

/-- One edge of the loop (Geometry.cc:321-343). -/
def edgeStep (dim : Nat) (center : Point) (acc : AreaAcc) (a b : Point) : AreaAcc :=
  let v3 := cross (smul 0.5 (a - center)) (b - center)
  { area := acc.area + norm v3
    centroid := addAssign acc.centroid (sdiv (smul (norm v3) (a + b + center)) 3)
    normal := addAssign acc.normal v3
    neg := acc.neg || (decide (dim = 2) && decide (v3.x ≤ 0)) }

/-- `polygon_get_area_centroid_normal` (Geometry.cc:282-355); `dim` is the dimension of `centroid` and `normal` as passed
by the caller, equal to that of the coordinates in all callers. -/
def polygonAreaCentroidNormal (coords : List Point) : AreaAcc :=
  let dim := (pt coords 0).d
  if coords.length < 3 then ⟨0, zero dim, zero dim, false⟩
  else
    let center := meanPoint dim coords
    if coords.length = 3 then
      let normal := cross (smul 0.5 (pt coords 2 - pt coords 1)) (pt coords 0 - pt coords 1)
      ⟨norm normal, center, normal, false⟩
    else
      let acc := (List.range coords.length).foldl (fun acc i =>
        edgeStep dim center acc (pt coords i) (pt coords ((i + 1) % coords.length))) ⟨0, zero dim, zero dim, false⟩
      { area := labelSign acc.neg acc.area
        centroid := divAssign acc.centroid acc.area
        normal := acc.normal
        neg := acc.neg }

/-- The condition of the `if` in `point_in_polygon` for the edge from `p` to `q` (Geometry.cc:443-447). -/
def crosses (x y : ℝ) (p q : Point) : Bool :=
  (decide ((p.y > y ∧ q.y ≤ y) ∨ (q.y > y ∧ p.y ≤ y))) &&
    decide (x ≤ p.x + (y - p.y) * (q.x - p.x) / (q.y - p.y))

/-- `point_in_polygon` (Geometry.cc:431-458) -/
def pointInPolygon (t : Point) (coords : List Point) : Bool :=
  (List.range coords.length).foldl (fun c i =>
    if crosses t.x t.y (pt coords i) (pt coords ((i + 1) % coords.length)) = true then !c else c) false

/-- `Geom_type` (src/geometry/Geometry.hh) -/
inductive GeomType
  | CARTESIAN | CYLINDRICAL | SPHERICAL
deriving DecidableEq

/-- `segment_get_vol_centroid` (Geometry.cc:461-472); `none`: the results are not set. -/
def segmentVolCentroid (ccoords : List Point) (g : GeomType) : Option (ℝ × Point) :=
  match g with
  | .CARTESIAN => some (norm (pt ccoords 1 - pt ccoords 0), smul 0.5 (pt ccoords 1 + pt ccoords 0))
  | .SPHERICAL => some (4 * Real.pi * ((pt ccoords 1).x ^ 3 - (pt ccoords 0).x ^ 3) / 3, smul 0.5 (pt ccoords 1 + pt ccoords 0))
  | .CYLINDRICAL => none

/-- `face1d_get_area` (Geometry.cc:474-483) -/
def face1dArea (fcoords : List Point) (g : GeomType) : Option ℝ :=
  match g with
  | .CARTESIAN => some 1
  | .SPHERICAL => some (4 * Real.pi * (pt fcoords 0).x ^ 2)
  | .CYLINDRICAL => none

end
end Jali.Geom
