import Verif.Model.BlockPartition
import Mathlib.Algebra.Order.Field.Basic
/-
Model of the partitioners of src/mesh/Mesh.cc:3080-3420 (`get_partitioning*`).
`double` is exact (`Rat`, or any ordered field `K`). Printing to `std::cerr` is dropped.
-/
namespace Jali.Partition

/-- `ceil(static_cast<double>(ncells)/num_parts + 0.5)` (Mesh.cc:3158). -/
def maxCellsPerTile (ncells numParts : Nat) : Nat :=
  (((ncells : Rat) / (numParts : Rat) + 1 / 2).ceil).toNat

/-- The inner loop `for (j = 0; j < maxcells_per_tile && index < ncells; ++j) part[j] = index++` followed by
the `resize` to the number of cells written (Mesh.cc:3166-3172). `left` is `maxcells_per_tile - j`. Returns
the part and the new `index`. -/
def fillPart (ncells : Nat) : (left index : Nat) → List Nat × Nat
  | 0, index => ([], index)
  | left + 1, index =>
    if index < ncells then
      let r := fillPart ncells left (index + 1)
      (index :: r.1, r.2)
    else ([], index)

/-- The outer loop of `get_partitioning_by_index_space` (Mesh.cc:3162-3173) from part `i` on. -/
def fillParts (ncells maxcells : Nat) : (parts index : Nat) → List (List Nat)
  | 0, _ => []
  | parts + 1, index =>
    let r := fillPart ncells maxcells index
    r.1 :: fillParts ncells maxcells parts r.2

/-- `get_partitioning_by_index_space` (Mesh.cc:3151-3175); `partitions` was resized to `num_parts` by the
caller (line 3087). -/
def byIndexSpace (ncells numParts : Nat) : List (List Nat) :=
  fillParts ncells (maxCellsPerTile ncells numParts) numParts 0

/-- `(*partitions)[i].push_back(x)`; `none` if the index is out of range. -/
def pushAt (parts : List (List Nat)) (i x : Nat) : Option (List (List Nat)) :=
  if i < parts.length then some (parts.modify i (· ++ [x])) else none

/-- Collecting METIS' answer (Mesh.cc:3237-3240); `idxpart` is whatever METIS wrote. -/
def bucket (idxpart : Nat → Nat) : (cells : List Nat) → List (List Nat) → Option (List (List Nat))
  | [], parts => some parts
  | c :: cs, parts => (pushAt parts (idxpart c) c).bind (bucket idxpart cs)

/-- `get_partitioning_with_metis` after METIS returned (Mesh.cc:3087, 3237-3240). -/
def withMetis (ncells numParts : Nat) (idxpart : Nat → Nat) : Option (List (List Nat)) :=
  bucket idxpart (List.range ncells) (List.replicate numParts [])

section
variable {K : Type} [Field K] [LinearOrder K]

/-- The test `blocklimits[i][2*d] < ccen[d] && ccen[d] < blocklimits[i][2*d+1]` in all directions
(Mesh.cc:3404-3410). -/
def insideBlock (dim : Nat) (lo hi ccen : Nat → K) : Bool :=
  (List.range dim).all fun d => lo d < ccen d && ccen d < hi d

/-- First block whose limits contain the centroid (Mesh.cc:3403-3415). -/
def findBlock (dim : Nat) (limits : List ((Nat → K) × (Nat → K))) (ccen : Nat → K) : Option Nat :=
  limits.findIdx? fun l => insideBlock dim l.1 l.2 ccen

/-- `blocklimits` (Mesh.cc:3391-3399) computed from the blocks, `domainlimits` and `num_cells_in_dir`. -/
def blockLimits (lo szdelta : Nat → K) (b : BlockPartition.Block) : (Nat → K) × (Nat → K) :=
  let l := fun d => lo d + (if h : d < 3 then (b.lo ⟨d, h⟩ : K) else 0) * szdelta d
  (l, fun d => l d + (if h : d < 3 then (b.num ⟨d, h⟩ : K) else 0) * szdelta d)

/-- The distribution loop of `get_partitioning_by_blocks` (Mesh.cc:3401-3417) after the regular structure
(`domainlimits`, `num_cells_in_dir`) has been recognised and the blocks computed. `cellList` are the owned
cells, `ccen` their centroids. -/
def distribute (dim : Nat) (limits : List ((Nat → K) × (Nat → K))) (ccen : Nat → Nat → K) :
    (cellList : List Nat) → List (List Nat) → Option (List (List Nat))
  | [], parts => some parts
  | c :: cs, parts =>
    match findBlock dim limits (ccen c) with
    | some i => (pushAt parts i c).bind (distribute dim limits ccen cs)
    | none => distribute dim limits ccen cs parts

/-- What the code finds out about the mesh before distributing (Mesh.cc:3265-3370): either it is recognised
as regular, with lower limits, upper limits and number of cells in each direction, or the function returns
early. -/
structure Regular (K : Type) where
  lo : Nat → K
  hi : Nat → K
  n : Fin 3 → Nat

/-- `get_partitioning_by_blocks` (Mesh.cc:3262-3421) given the outcome of the search for a regular structure.
`none` for that search is one of the early returns (3308-3312, 3353-3358, 3363-3368), which leave the parts
empty. Errors of `block_partition_regular_mesh` (assert, no termination) are errors. -/
def byBlocks (fuel dim numParts : Nat) (found : Option (Regular K)) (cellList : List Nat)
    (ccen : Nat → Nat → K) : Except BlockPartition.Err (Option (List (List Nat))) :=
  match found with
  | none => .ok (some (List.replicate numParts []))
  | some r =>
    match BlockPartition.blockPartition fuel dim r.n numParts with
    | .error e => .error e
    | .ok blocks =>
      let szdelta := fun d => (r.hi d - r.lo d) / (if h : d < 3 then (r.n ⟨d, h⟩ : K) else 1)
      .ok (distribute dim (blocks.map (blockLimits r.lo szdelta)) ccen cellList
        (List.replicate numParts []))

end

/-- `Partitioner_type` (MeshDefs.hh:249-255). -/
inductive Partitioner
  | INDEX | BLOCK | METIS | ZOLTAN_GRAPH | ZOLTAN_RCB
deriving DecidableEq, Repr

/-- `get_partitioning` (Mesh.cc:3081-3148): which routine serves which request. -/
inductive Route
  | index | metis | blocks
deriving DecidableEq, Repr

/-- `get_partitioning` (Mesh.cc:3081-3148). -/
def route (haveMetis : Bool) (spaceDim : Nat) (p : Partitioner) : Route :=
  if p = .METIS ∧ spaceDim ≠ 1 then (if haveMetis then .metis else .index)
  else if (p = .ZOLTAN_GRAPH ∨ p = .ZOLTAN_RCB) ∧ spaceDim ≠ 1 then .index
  else if p = .BLOCK then .blocks
  else .index

/-- what `get_partitioning` depends on besides the mesh: whether METIS was built in (`Jali_HAVE_METIS`), the part numbers METIS writes, and
the lists `get_partitioning_by_blocks` leaves (`none` if it does not return; see `byBlocks` and Model/BlockSearch.lean) -/
structure Env where
  haveMetis : Bool
  idxpart : Nat → Nat
  blocks : Option (List (List Nat))

/-- `get_partitioning` (Mesh.cc:3081-3148) of `ncells` owned cells into `numParts` parts; messages on `std::cerr` are dropped -/
def getPartitioning (env : Env) (spaceDim : Nat) (p : Partitioner) (ncells numParts : Nat) : Option (List (List Nat)) :=
  match route env.haveMetis spaceDim p with
  | .metis => withMetis ncells numParts env.idxpart
  | .blocks => env.blocks
  | .index => some (byIndexSpace ncells numParts)

end Jali.Partition
