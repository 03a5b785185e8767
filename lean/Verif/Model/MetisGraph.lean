import Verif.Model.MstkMesh
import Verif.Model.MeshSimple
/-
The graph that `get_partitioning_with_metis` hands to METIS (src/mesh/Mesh.cc:3179-3207). What METIS answers and what is made of
the answer is `Partition.withMetis`. `idx_t` is unbounded.
-/
namespace Jali.Metis

/-- how the construction of the graph ends: a failed `assert`, a write past the end of `xadj` or `adjncy`, or the two arrays
(what was written of them) -/
inductive Built
  | stopped
  | overrun
  | graph (xadj adjncy : List Nat)
deriving DecidableEq, Repr

/-- `for (nbr : nbrcells) adjncy[ipos++] = nbr;` (Mesh.cc:3200-3201); `ipos` is the number of entries written, `cap` the size of
the array; `none` is a write past the end -/
def writeAll (cap : Nat) (a : List Nat) : List Nat → Option (List Nat)
  | [] => some a
  | x :: xs => if a.length < cap then writeAll cap (a ++ [x]) xs else none

/-- the loop over the owned cells (Mesh.cc:3198-3203); `xcap`, `acap` are the sizes of the arrays, `adj` is
`cell_get_face_adj_cells(c, PARALLEL_OWNED, ..)`, `none` if that fails -/
def loop (xcap acap : Nat) (adj : Nat → Option (List Nat)) : List Nat → List Nat → List Nat → Built
  | [], x, a => .graph x a
  | c :: cs, x, a =>
    match adj c with
    | none => .stopped
    | some l =>
      match writeAll acap a l with
      | none => .overrun
      | some a' => if x.length < xcap then loop xcap acap adj cs (x ++ [a'.length]) a' else .overrun

/-- `get_partitioning_with_metis` up to the call of METIS (Mesh.cc:3187-3203) -/
def build (owned : List Nat) (ncellsAll nfacesAll : Nat) (adj : Nat → Option (List Nat)) : Built :=
  loop (ncellsAll + 1) (2 * nfacesAll) adj owned [0] []

end Jali.Metis

namespace Jali.Mstk

/-- the graph of a 3D mesh made by MSTK -/
def JMesh.metisGraph3 (j : JMesh) : Metis.Built :=
  Metis.build (j.m.cellIds3 j.bg).owned (j.m.cellIds3 j.bg).all.length j.m.faceIds3.all.length fun c => j.faceAdj3 c .PARALLEL_OWNED

/-- the graph of a 2D mesh made by MSTK -/
def JMesh.metisGraph2 (j : JMesh) : Metis.Built :=
  Metis.build (j.m.cellIds2 j.bg).owned (j.m.cellIds2 j.bg).all.length j.m.edgeIds.all.length fun c => j.faceAdj2 c .PARALLEL_OWNED

end Jali.Mstk

namespace Jali.Simple

/-- the graph of a `Mesh_simple` with faces: all cells are owned, `cell_get_face_adj_cells` ignores the type
(Mesh_simple.cc:870-893) -/
def metisGraph (d : Dims) : Metis.Built :=
  Metis.build (cellIds d) (cellIds d).length (faceIds d).length fun c => some ((cellGetFaceAdjCells d c).map Int.toNat)

end Jali.Simple
