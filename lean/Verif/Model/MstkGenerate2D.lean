import Verif.Model.MstkGenerate
import Verif.Model.BlockPartition
/-
Model of the generation of a regular quadrilateral mesh, or of one block of it, for the MSTK framework:
`Mesh_MSTK::generate_regular_mesh`, two dimensions (src/mesh/mesh_mstk/Mesh_MSTK.cc:4926-5139).

Simplifications: as in `Verif.Model.MstkGenerate`. A pointer to a vertex is compared by the place of the array `verts` it
was stored in (`ptr`); `MVs_CommonEdge` (an MSTK function) returns an edge that has both vertices as its end points, the
oldest one if there should be several, and none if there is none.
-/
namespace Jali.MstkGen

/-- the arguments `X0 .. Y1, NX, NY` (Mesh_MSTK.cc:4927-4928) -/
structure Dom2 (K : Type) where
  X0 : K
  Y0 : K
  X1 : K
  Y1 : K
  NX : Nat
  NY : Nat

/-- the arguments `i0, j0, nx, ny` (Mesh_MSTK.cc:4929) -/
structure Blk2 where
  i0 : Nat
  j0 : Nat
  nx : Nat
  ny : Nat
  deriving DecidableEq

/-- an `MVertex` with what is set on it (Mesh_MSTK.cc:4957-4997); `xyz[2]` is 0 -/
structure Vert2 (K : Type) where
  /-- which `verts[i][j]` this is -/
  ptr : Nat × Nat
  x : K
  y : K
  gdim : Nat
  gent : Nat
  id : Nat
  deriving DecidableEq

/-- an `MEdge` with what is set on it (Mesh_MSTK.cc:5017-5031) -/
structure Edge2 (K : Type) where
  v0 : Vert2 K
  v1 : Vert2 K
  gdim : Nat
  gent : Nat
  id : Nat
  deriving DecidableEq

/-- an `MFace` with what is set on it (Mesh_MSTK.cc:5008, 5124-5130): edges with directions -/
structure Face2 (K : Type) where
  es : List (Edge2 K × Bool)
  gdim : Nat
  gent : Nat
  id : Nat
  deriving DecidableEq

/-- the generated mesh -/
structure RegMesh2 (K : Type) where
  verts : List (Vert2 K)
  edges : List (Edge2 K)
  faces : List (Face2 K)
  deriving DecidableEq

section
variable {K : Type} [Field K]

/-- classification of a vertex: dimension and number of the model entity (Mesh_MSTK.cc:4960-4992) -/
def vclass2 (d : Dom2 K) (IG JG : Nat) : Nat × Nat :=
  if IG = 0 then
    if JG = 0 then (0, 1) else if JG = d.NY then (0, 4) else (1, 4)
  else if IG = d.NX then
    if JG = 0 then (0, 2) else if JG = d.NY then (0, 3) else (1, 2)
  else
    if JG = 0 then (1, 1) else if JG = d.NY then (1, 3) else (2, 1)

/-- body of the loop over vertices (Mesh_MSTK.cc:4949-4999) -/
def mkVert2 (d : Dom2 K) (b : Blk2) (i j : Nat) : Vert2 K :=
  let IG := b.i0 + i
  let JG := b.j0 + j
  { ptr := (i, j)
    x := gridCoord d.X0 d.X1 d.NX IG
    y := gridCoord d.Y0 d.Y1 d.NY JG
    gdim := (vclass2 d IG JG).1
    gent := (vclass2 d IG JG).2
    id := IG * (d.NY + 1) + JG + 1 }

/-- the array `verts` after the loop (Mesh_MSTK.cc:4943-5000) -/
def mkVerts2 (d : Dom2 K) (b : Blk2) : List (List (Vert2 K)) :=
  (List.range (b.nx + 1)).map fun i => (List.range (b.ny + 1)).map fun j => mkVert2 d b i j

/-- `verts[i][j]`, undefined outside the array -/
def at2 (vs : List (List (Vert2 K))) (i j : Nat) : Option (Vert2 K) := do
  let p ← vs[i]?
  p[j]?

/-- `MVs_CommonEdge(v0, v1)` (called in Mesh_MSTK.cc:5013, 5041, 5070, 5098) -/
def commonEdge (es : List (Edge2 K)) (v0 v1 : Vert2 K) : Option (Edge2 K) :=
  es.find? fun e => (e.v0.ptr == v0.ptr && e.v1.ptr == v1.ptr) || (e.v0.ptr == v1.ptr && e.v1.ptr == v0.ptr)

/-- finding or creating one edge of a face (Mesh_MSTK.cc:5013-5036 and the three like it): the edge, its direction in the
face, and the edges of the mesh afterwards -/
def edgeFor (es : List (Edge2 K)) (v0 v1 : Vert2 K) (onBoundary : Bool) (bndryId globalid : Nat) :
    (Edge2 K × Bool) × List (Edge2 K) :=
  match commonEdge es v0 v1 with
  | some e => ((e, e.v0.ptr == v0.ptr), es)
  | none =>
    let me : Edge2 K := { v0 := v0, v1 := v1, gdim := if onBoundary then 1 else 2,
                          gent := if onBoundary then bndryId else 1, id := globalid + 1 }
    ((me, true), es ++ [me])

/-- body of the loop over faces (Mesh_MSTK.cc:5003-5131) -/
def cell2 (d : Dom2 K) (b : Blk2) (vs : List (List (Vert2 K))) (st : List (Edge2 K) × List (Face2 K)) (i j : Nat) :
    Option (List (Edge2 K) × List (Face2 K)) := do
  let IG := b.i0 + i
  let JG := b.j0 + j
  let L0 := IG * d.NY + IG * (d.NY + 1)
  let v00 ← at2 vs i j
  let v10 ← at2 vs (i + 1) j
  let v11 ← at2 vs (i + 1) (j + 1)
  let v01 ← at2 vs i (j + 1)
  let r0 := edgeFor st.1 v00 v10 (decide (JG = 0)) 1 (L0 + d.NY + JG)
  let r1 := edgeFor r0.2 v10 v11 (decide (IG = d.NX - 1)) 2 (L0 + d.NY + (d.NY + 1) + JG)
  let r2 := edgeFor r1.2 v11 v01 (decide (JG = d.NY - 1)) 3 (L0 + d.NY + JG + 1)
  let r3 := edgeFor r2.2 v01 v00 (decide (IG = 0)) 4 (L0 + JG)
  return (r3.2, st.2 ++ [{ es := [r0.1, r1.1, r2.1, r3.1], gdim := 2, gent := 1, id := IG * d.NY + JG + 1 }])

/-- `for (i..) for (j..)` over the cells of the block (Mesh_MSTK.cc:5003-5006) -/
def loopIdx2 (na nb : Nat) : List (Nat × Nat) :=
  (List.range na).flatMap fun a => (List.range nb).map fun b => (a, b)

/-- `if (nx == 0) nx = NX; ...` (Mesh_MSTK.cc:4937-4938) -/
def fillBlk2 (d : Dom2 K) (b : Blk2) : Blk2 :=
  { b with nx := if b.nx = 0 then d.NX else b.nx
           ny := if b.ny = 0 then d.NY else b.ny }

/-- `generate_regular_mesh`, two dimensions (Mesh_MSTK.cc:4926-5139) -/
def generate2 (d : Dom2 K) (b0 : Blk2) : Option (RegMesh2 K) := do
  let b := fillBlk2 d b0
  let vs := mkVerts2 d b
  let st ← (loopIdx2 b.nx b.ny).foldlM (fun st p => cell2 d b vs st p.1 p.2) ([], [])
  return { verts := vs.flatten, edges := st.1, faces := st.2 }

/-- the call without the block arguments (Mesh_MSTK.hh:650-653; Mesh_MSTK.cc:425, serial run) -/
def generate2Serial (d : Dom2 K) : Option (RegMesh2 K) := generate2 d ⟨0, 0, 0, 0⟩

/-- the block of a rank (Mesh_MSTK.cc:469-472) -/
def blkOf2 (b : BlockPartition.Block) : Blk2 := ⟨b.lo 0, b.lo 1, b.num 0, b.num 1⟩

/-- `num_cells_in_dir` (Mesh_MSTK.cc:441-444) -/
def numCellsInDir2 (d : Dom2 K) : Fin 3 → Nat := ![d.NX, d.NY, 0]

/-- what rank `rank` of `numprocs` generates (Mesh_MSTK.cc:421-472) -/
def rankMesh2 (fuel : Nat) (d : Dom2 K) (numprocs rank : Nat) : Option (RegMesh2 K) :=
  if numprocs = 1 then generate2Serial d else
    match BlockPartition.blockPartition fuel 2 (numCellsInDir2 d) numprocs with
    | .error _ => none
    | .ok bs => (bs[rank]?).bind fun b => generate2 d (blkOf2 b)

end
end Jali.MstkGen
