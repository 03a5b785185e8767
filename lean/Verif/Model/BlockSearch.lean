import Verif.Model.Partition
import Verif.Model.MeshGeometry
import Verif.Model.SimpleGeometry
/-
The search of `get_partitioning_by_blocks` for a regular structure in the mesh (src/mesh/Mesh.cc:3262-3371), over an arbitrary mesh
given by its queries. `double` is exact. Printing is dropped. What follows the search is `Partition.byBlocks`.
-/
namespace Jali.BlockSearch
noncomputable section
open Jali.Geom Jali.Geom.Point Jali.MeshGeom

/-- `p[d]` -/
def coord (p : Point) (d : Nat) : ℝ := if d = 0 then p.x else if d = 1 then p.y else p.z

/-- one turn of the innermost loop for the limits (Mesh.cc:3278-3279) -/
def widen (d : Nat) (l : ℝ × ℝ) (p : Point) : ℝ × ℝ :=
  let lo := if coord p d < l.1 then coord p d else l.1
  (lo, if coord p d > l.2 then coord p d else l.2)

/-- `domainlimits[2*d]`, `domainlimits[2*d+1]` (Mesh.cc:3266-3282); `cells` are the owned cells -/
def limits (m : GMesh) (cells : List Nat) (d : Nat) : ℝ × ℝ :=
  (cells.flatMap m.cellCoords).foldl (widen d) ((1e20 : ℝ), -1e20)

/-- `dist` (Mesh.cc:3297-3299) -/
def dist2 (sd : Nat) (lo : Nat → ℝ) (p : Point) : ℝ := ((List.range sd).map fun d => (lo d - coord p d) * (lo d - coord p d)).sum

/-- the first cell with a corner at the low end of the domain (Mesh.cc:3290-3307) -/
def corner (m : GMesh) (cells : List Nat) (lo : Nat → ℝ) : Option Nat :=
  cells.find? fun c => (m.cellCoords c).any fun p => decide (dist2 m.spaceDim lo p < 1e-20)

/-- `refdir` (Mesh.cc:3320-3321) -/
def refdir (sd d : Nat) : Point := ⟨sd, if d = 0 then 1 else 0, if d = 1 then 1 else 0, if d = 2 then 1 else 0⟩

/-- outcome of one turn of the `while` loop: an `assert` failed, the next cell, the high end is reached, the function gives up -/
inductive Step
  | asserts
  | next (c : Nat)
  | reached
  | gives
deriving DecidableEq

/-- the loop over the faces of the cell `c` (Mesh.cc:3333-3369); `owned` selects what `face_get_cells(f, PARALLEL_OWNED)` returns of
the cells of a face, `hi` is the high end of the domain in direction `d` -/
def scan (m : GMesh) (owned : Nat → Bool) (hi : ℝ) (d c : Nat) : List Nat → Step
  | [] => .gives
  | f :: fs =>
    match faceNormal m f (some c) with
    | none => .asserts
    | some n =>
      if |dot (divAssign n (norm n)) (refdir m.spaceDim d) - 1| < 1e-12 then
        match (m.faceCells f).filter owned with
        | [a, b] => .next (if a = c then b else a)
        | _ =>
          match computeFaceGeometry m f with
          | none => .asserts
          | some g => if |coord g.2.1 d - hi| < 1e-12 then .reached else .gives
      else scan m owned hi d c fs

/-- outcome of the `while` loop: `num_cells_in_dir[d]` -/
inductive Walk
  | asserts
  | endless
  | gives
  | count (n : Nat)
deriving DecidableEq

/-- the `while` loop (Mesh.cc:3323-3370) from the cell `c`; `n` is `num_cells_in_dir[d]` -/
def walk (m : GMesh) (owned : Nat → Bool) (hi : ℝ) (d : Nat) : (fuel c n : Nat) → Walk
  | 0, _, _ => .endless
  | fuel + 1, c, n =>
    match scan m owned hi d c ((m.cellFaces c).map Prod.fst) with
    | .asserts => .asserts
    | .next c' => walk m owned hi d fuel c' (n + 1)
    | .reached => .count n
    | .gives => .gives

/-- outcome of the search -/
inductive Found
  | asserts
  | endless
  | gives
  | regular (n : List Nat)
deriving DecidableEq

/-- the loop over the directions (Mesh.cc:3317-3376) -/
def walks (m : GMesh) (owned : Nat → Bool) (hi : Nat → ℝ) (fuel c0 : Nat) : List Nat → Found
  | [] => .regular []
  | d :: ds =>
    match walk m owned (hi d) d fuel c0 1 with
    | .asserts => .asserts
    | .endless => .endless
    | .gives => .gives
    | .count n =>
      match walks m owned hi fuel c0 ds with
      | .regular l => .regular (n :: l)
      | r => r

/-- the search (Mesh.cc:3264-3376): the number of cells in each direction -/
def search (fuel : Nat) (m : GMesh) (cells : List Nat) (owned : Nat → Bool) : Found :=
  match corner m cells fun d => (limits m cells d).1 with
  | none => .gives
  | some c0 => walks m owned (fun d => (limits m cells d).2) fuel c0 (List.range m.spaceDim)

/-- how `get_partitioning_by_blocks` ends -/
inductive Outcome
  | asserts
  | endless
  | outOfRange
  | parts (l : List (List Nat))

/-- `get_partitioning_by_blocks` (Mesh.cc:3262-3421) -/
def partition (fuel : Nat) (m : GMesh) (cells : List Nat) (owned : Nat → Bool) (numParts : Nat) : Outcome :=
  let found : Option (Option (Partition.Regular ℝ)) :=
    match search fuel m cells owned with
    | .regular n => some (some ⟨fun d => (limits m cells d).1, fun d => (limits m cells d).2, fun d => n.getD d 0⟩)
    | .gives => some none
    | _ => none
  match found with
  | none => if search fuel m cells owned = .asserts then .asserts else .endless
  | some r =>
    match Partition.byBlocks fuel m.spaceDim numParts r cells fun c d =>
      match computeCellGeometry m c with
      | some g => coord g.2 d
      | none => 0 with
    | .error _ => .asserts
    | .ok none => .outOfRange
    | .ok (some l) => .parts l

end
end Jali.BlockSearch
