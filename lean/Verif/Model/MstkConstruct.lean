import Verif.Model.MstkGenerate
import Verif.Model.BlockPartition
/-
The part of the constructors of `Mesh_MSTK` that generates a regular mesh on each rank
(src/mesh/mesh_mstk/Mesh_MSTK.cc:239-370): block partitioning, then generation of the block of this rank. The
weaving of the ranks' meshes by MSTK and everything after it is not modelled. `none` is a failed `assert`, an exception or
undefined behaviour.
-/
namespace Jali.MstkGen

variable {K : Type} [Field K]

/-- the arguments `block_start_index[myprocid][..]`, `block_num_cells[myprocid][..]` (Mesh_MSTK.cc:336-341) -/
def blkOf (b : BlockPartition.Block) : Blk := ⟨b.lo 0, b.lo 1, b.lo 2, b.num 0, b.num 1, b.num 2⟩

/-- `num_cells_in_dir` (Mesh_MSTK.cc:307-310) -/
def numCellsInDir (d : Dom K) : Fin 3 → Nat := ![d.NX, d.NY, d.NZ]

/-- what rank `rank` of `numprocs` generates (Mesh_MSTK.cc:274-341; `serial_run` is set in 5154); `fuel` bounds the loops
of the partitioner -/
def rankMesh (fuel : Nat) (d : Dom K) (numprocs rank : Nat) : Option (RegMesh K) :=
  if numprocs = 1 then generateSerial d else
    match BlockPartition.blockPartition fuel 3 (numCellsInDir d) numprocs with
    | .error _ => none
    | .ok bs => (bs[rank]?).bind fun b => generate d (blkOf b)

end Jali.MstkGen
