/-
Model of `block_partition_regular_mesh` (src/mesh/block_partition.cc, lines 72-273).

C++ `int` is `Nat` (a negative request behaves like request 0 in every test the code makes, since
the number of blocks is at least 1).  The argument `domain` is not used by the function.
-/
namespace Jali.BlockPartition

/-- `std::array<int, 3>` (block_partition.cc:76-77). -/
abbrev Arr3 := Fin 3 → Nat

/-- One entry of the two parallel arrays `blimits`, `bnumcells` (block_partition.cc:147-153). -/
structure Block where
  /-- `blimits[ib]`: index of the first cell in each direction -/
  lo : Arr3
  /-- `bnumcells[ib]`: number of cells in each direction -/
  num : Arr3

/-- How a call can end without returning: a failed `assert`, or the loop is still running when the
fuel of the model is used up. -/
inductive Err where
  | assertFailed
  | outOfFuel
  deriving DecidableEq

/-- `ncells_total` (block_partition.cc:88-90). -/
def ncellsTotal (dim : Nat) (n : Arr3) : Nat :=
  ([0, 1, 2] : List (Fin 3)).foldl (fun t d => if d.val < dim then t * n d else t) 1

/-- Local variables of the bisection phase (block_partition.cc:82-86). -/
structure BState where
  nblocks : Nat
  nblocksInDir : Arr3
  nblockcellsInDir : Arr3

/-- Initial values (block_partition.cc:82-86). -/
def bInit (dim : Nat) (n : Arr3) : BState where
  nblocks := 1
  nblocksInDir := fun _ => 1
  nblockcellsInDir := fun d => if d.val < dim then n d else 0

/-- The guard `(dim > d &&) nblockcells_in_dir[d]%2 == 0` and `2*nblocks <= num_blocks_requested`
(block_partition.cc:99-100, 112-113, 126-127); there is no `dim` test for `d = 0`. -/
def canBisect (dim nreq : Nat) (d : Fin 3) (s : BState) : Bool :=
  (d.val = 0 || d.val < dim) && s.nblockcellsInDir d % 2 = 0 && 2 * s.nblocks ≤ nreq

/-- Body of the guard (block_partition.cc:101-104, 114-118, 128-131). -/
def bisectDir (d : Fin 3) (s : BState) : BState where
  nblocks := s.nblocks * 2
  nblocksInDir := fun e => if e = d then s.nblocksInDir e * 2 else s.nblocksInDir e
  nblockcellsInDir := fun e => if e = d then s.nblockcellsInDir e / 2 else s.nblockcellsInDir e

/-- One iteration of the `while (!done)` loop of the bisection phase, as a recursion over the
directions still to be tried (block_partition.cc:97-145). Returns the new state and `done`. -/
def bisectIter (dim nreq : Nat) : List (Fin 3) → Bool → BState → BState × Bool
  | [], bisected, s => (s, !bisected)
  | d :: ds, bisected, s =>
    if canBisect dim nreq d s then
      let s' := bisectDir d s
      if s'.nblocks = nreq then (s', true) else bisectIter dim nreq ds true s'
    else bisectIter dim nreq ds bisected s

/-- The `while (!done)` loop (block_partition.cc:96-145). -/
def bisectLoop (dim nreq : Nat) : Nat → BState → Except Err BState
  | 0, _ => .error .outOfFuel
  | fuel + 1, s =>
    let r := bisectIter dim nreq [0, 1, 2] false s
    if r.2 then .ok r.1 else bisectLoop dim nreq fuel r.1

/-- `if (num_blocks_requested > 1) { ... }` (block_partition.cc:93-146). -/
def bisect (dim nreq fuel : Nat) (n : Arr3) : Except Err BState :=
  if nreq > 1 then bisectLoop dim nreq fuel (bInit dim n) else .ok (bInit dim n)

/-- Populate the block details (block_partition.cc:155-175): the entries not assigned keep their
initial value 0. -/
def populate (dim : Nat) (s : BState) : List Block :=
  (List.range (s.nblocksInDir 0)).flatMap fun i =>
  (List.range (s.nblocksInDir 1)).flatMap fun j =>
  (List.range (s.nblocksInDir 2)).map fun k =>
    { lo := fun d =>
        if d = 0 then i * s.nblockcellsInDir 0
        else if d = 1 then (if dim > 1 then j * s.nblockcellsInDir 1 else 0)
        else (if dim > 2 then k * s.nblockcellsInDir 2 else 0)
      num := fun d =>
        if d = 0 then s.nblockcellsInDir 0
        else if d = 1 then (if dim > 1 then s.nblockcellsInDir 1 else 0)
        else (if dim > 2 then s.nblockcellsInDir 2 else 0) }

/-- "Blanked out block" (block_partition.cc:187-188, 240-241). -/
def isBlank (b : Block) : Bool := b.num 0 = 0 && b.num 1 = 0 && b.num 2 = 0

/-- Blank out the parent block (block_partition.cc:223). -/
def blank (b : Block) : Block := { b with num := fun _ => 0 }

/-- First child block (block_partition.cc:204-211). Components `≥ dim` are never assigned and stay
0 in the real arrays. -/
def child1 (dim : Nat) (dir : Fin 3) (b : Block) : Block where
  num := fun d => if d = dir then b.num dir / 2 else if d.val < dim then b.num d else 0
  lo := fun d => if d = dir then b.lo dir else if d.val < dim then b.lo d else 0

/-- Second child block (block_partition.cc:213-220). -/
def child2 (dim : Nat) (dir : Fin 3) (b : Block) : Block where
  num := fun d =>
    if d = dir then b.num dir - b.num dir / 2 else if d.val < dim then b.num d else 0
  lo := fun d =>
    if d = dir then b.lo dir + b.num dir / 2 else if d.val < dim then b.lo d else 0

/-- The loop `for (ib = 0; ib < nblocks; ib++)` (block_partition.cc:186-235). First list: the blocks
not yet visited. Second list: the blocks `nblocks .. nblocks+nnewblocks-1` appended so far. Result:
the first `nblocks` entries (split ones blanked), the appended entries and `done`. Growing the
storage (lines 196-201) is implicit. -/
def sweep (dim nreq nblocks : Nat) (dir : Fin 3) :
    List Block → List Block → List Block × List Block × Bool
  | [], new => ([], new, false)
  | b :: rest, new =>
    if isBlank b then
      let r := sweep dim nreq nblocks dir rest new
      (b :: r.1, r.2)
    else if b.num dir / 2 = 0 ∨ b.num dir - b.num dir / 2 = 0 then
      let r := sweep dim nreq nblocks dir rest new
      (b :: r.1, r.2)
    else
      let new' := new ++ [child1 dim dir b, child2 dim dir b]
      if nblocks + new'.length / 2 ≥ nreq then (blank b :: rest, new', true)
      else
        let r := sweep dim nreq nblocks dir rest new'
        (blank b :: r.1, r.2)

/-- Squeeze out blanked blocks, `for (ib = nblocks-1; ib >= 0; ib--)` (block_partition.cc:238-254);
the shift of the tail by one position is `List.eraseIdx`. -/
def squeeze : Nat → List Block → List Block
  | 0, l => l
  | n + 1, l =>
    squeeze n (match l[n]? with
      | some b => if isBlank b then l.eraseIdx n else l
      | none => l)

/-- The loop `for (dir = 0; dir < dim; dir++)` (block_partition.cc:184-258), over the directions
left. Returns the blocks and `done`. -/
def dirLoop (dim nreq : Nat) : List (Fin 3) → List Block → List Block × Bool
  | [], bs => (bs, false)
  | d :: ds, bs =>
    if d.val < dim then
      let r := sweep dim nreq bs.length d bs []
      let bs' := squeeze bs.length (r.1 ++ r.2.1)
      if r.2.2 then (bs', true) else dirLoop dim nreq ds bs'
    else dirLoop dim nreq ds bs

/-- The loop `while (!done)` of the uneven splitting phase (block_partition.cc:183-259). -/
def splitLoop (dim nreq : Nat) : Nat → List Block → Except Err (List Block)
  | 0, _ => .error .outOfFuel
  | fuel + 1, bs =>
    let r := dirLoop dim nreq [0, 1, 2] bs
    if r.2 then .ok r.1 else splitLoop dim nreq fuel r.1

/-- `block_partition_regular_mesh` (block_partition.cc:72-273). `.ok bs` lists, in order, the
entries of `block_start_indices` and `block_num_cells`. -/
def blockPartition (fuel dim : Nat) (n : Arr3) (nreq : Nat) : Except Err (List Block) :=
  if nreq ≤ ncellsTotal dim n then
    match bisect dim nreq fuel n with
    | .error e => .error e
    | .ok s =>
      let bs := populate dim s
      if s.nblocks ≠ nreq then splitLoop dim nreq fuel bs else .ok bs
  else .error .assertFailed

end Jali.BlockPartition
