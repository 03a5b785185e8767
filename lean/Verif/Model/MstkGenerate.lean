import Mathlib.Data.Fin.VecNotation
import Mathlib.Algebra.Field.Defs
/-
Model of the generation of a regular hexahedral mesh, or of one block of it, for the MSTK framework:
`Mesh_MSTK::generate_regular_mesh` (src/mesh/mesh_mstk/Mesh_MSTK.cc:4592-4921).

Simplifications: coordinates are elements of a field `K` (exact arithmetic instead of `double`); `int` is `Nat` (no
overflow, no negative argument); a pointer to an MSTK entity is the record of what has been set on the entity. Reads
outside an array and `%` by zero are undefined behaviour and give `none`. What MSTK itself does in
`MF_Set_Vertices` and `MR_Set_Vertices` (look up the edges and faces on the given vertices) is not modelled.
-/
namespace Jali.MstkGen

/-- the arguments `X0 .. Z1, NX .. NZ`: the global domain (Mesh_MSTK.cc:4593-4595) -/
structure Dom (K : Type) where
  X0 : K
  Y0 : K
  Z0 : K
  X1 : K
  Y1 : K
  Z1 : K
  NX : Nat
  NY : Nat
  NZ : Nat

/-- the arguments `i0 .. nz`: the part to be generated (Mesh_MSTK.cc:4596-4597) -/
structure Blk where
  i0 : Nat
  j0 : Nat
  k0 : Nat
  nx : Nat
  ny : Nat
  nz : Nat
  deriving DecidableEq

/-- an `MVertex` with what is set on it (Mesh_MSTK.cc:4691-4702) -/
structure Vert (K : Type) where
  x : K
  y : K
  z : K
  gdim : Nat
  gent : Nat
  id : Nat
  deriving DecidableEq

/-- an `MEdge` with what is set on it (Mesh_MSTK.cc:4714-4736) -/
structure Edge (K : Type) where
  v0 : Vert K
  v1 : Vert K
  gdim : Nat
  gent : Nat
  id : Nat
  deriving DecidableEq

/-- an `MFace` with what is set on it (Mesh_MSTK.cc:4805-4827) -/
structure Face (K : Type) where
  vs : List (Vert K)
  gdim : Nat
  gent : Nat
  id : Nat
  deriving DecidableEq

/-- an `MRegion` with what is set on it (Mesh_MSTK.cc:4894-4910) -/
structure Region (K : Type) where
  vs : List (Vert K)
  gent : Nat
  id : Nat
  deriving DecidableEq

/-- the generated mesh; the lists are in order of creation -/
structure RegMesh (K : Type) where
  verts : List (Vert K)
  edges : List (Edge K)
  faces : List (Face K)
  regions : List (Region K)
  deriving DecidableEq

/-- `vgid_tmpl` (Mesh_MSTK.cc:4646-4648) -/
def vgid : Fin 3 → Fin 3 → Fin 3 → Nat :=
  ![![![1, 4, 5], ![9, 6, 12], ![3, 8, 7]],
    ![![1, 1, 3], ![3, 1, 4], ![5, 2, 7]],
    ![![2, 2, 6], ![10, 5, 11], ![4, 6, 8]]]

/-- `vgdim_tmpl` (Mesh_MSTK.cc:4649-4651) -/
def vgdim : Fin 3 → Fin 3 → Fin 3 → Nat :=
  ![![![0, 1, 0], ![1, 2, 1], ![0, 1, 0]],
    ![![1, 2, 1], ![2, 3, 2], ![1, 2, 1]],
    ![![0, 1, 0], ![1, 2, 1], ![0, 1, 0]]]

/-- `egdim_tmpl` (Mesh_MSTK.cc:4652) -/
def egdim : Fin 3 → Fin 3 → Nat := ![![1, 2, 1], ![2, 3, 2], ![1, 2, 1]]
/-- `egid_tmpl2` (Mesh_MSTK.cc:4653) -/
def egid2 : Fin 3 → Fin 3 → Nat := ![![4, 6, 8], ![1, 1, 2], ![2, 5, 6]]
/-- `egid_tmpl1` (Mesh_MSTK.cc:4654) -/
def egid1 : Fin 3 → Fin 3 → Nat := ![![9, 6, 12], ![3, 1, 4], ![10, 5, 11]]
/-- `egid_tmpl0` (Mesh_MSTK.cc:4655) -/
def egid0 : Fin 3 → Fin 3 → Nat := ![![1, 1, 3], ![3, 1, 4], ![5, 2, 7]]
/-- `fgdim_tmpl` (Mesh_MSTK.cc:4656) -/
def fgdim : Fin 3 → Nat := ![2, 3, 2]
/-- `fgid_tmpl0` (Mesh_MSTK.cc:4657) -/
def fgid0 : Fin 3 → Nat := ![6, 1, 5]
/-- `fgid_tmpl1` (Mesh_MSTK.cc:4658) -/
def fgid1 : Fin 3 → Nat := ![1, 1, 2]
/-- `fgid_tmpl2` (Mesh_MSTK.cc:4659) -/
def fgid2 : Fin 3 → Nat := ![3, 1, 4]

/-- `(IG%NX) ? 1 : (IG ? 2 : 0)` (Mesh_MSTK.cc:4679, and in every other loop); `NX` is not 0 where it is used -/
def side (IG NX : Nat) : Fin 3 := if IG % NX ≠ 0 then 1 else if IG ≠ 0 then 2 else 0

section
variable {K : Type} [Field K]

/-- `(IG == NX) ? X1 : X0 + IG*DX` with `DX = (X1-X0)/NX` (Mesh_MSTK.cc:4665-4667, 4678, 4683, 4688) -/
def gridCoord (X0 X1 : K) (NX IG : Nat) : K :=
  if IG = NX then X1 else X0 + (IG : K) * ((X1 - X0) / (NX : K))

/-- body of the loop over vertices (Mesh_MSTK.cc:4676-4705) -/
def mkVert (d : Dom K) (b : Blk) (i j k : Nat) : Vert K :=
  let IG := b.i0 + i
  let JG := b.j0 + j
  let KG := b.k0 + k
  let ii := side IG d.NX
  let jj := side JG d.NY
  let kk := side KG d.NZ
  { x := gridCoord d.X0 d.X1 d.NX IG
    y := gridCoord d.Y0 d.Y1 d.NY JG
    z := gridCoord d.Z0 d.Z1 d.NZ KG
    gdim := vgdim ii jj kk
    gent := vgid ii jj kk
    id := IG * (d.NY + 1) * (d.NZ + 1) + JG * (d.NZ + 1) + KG + 1 }

/-- the array `verts` after the loop over vertices (Mesh_MSTK.cc:4669-4705) -/
def mkVerts (d : Dom K) (b : Blk) : List (List (List (Vert K))) :=
  (List.range (b.nx + 1)).map fun i => (List.range (b.ny + 1)).map fun j =>
    (List.range (b.nz + 1)).map fun k => mkVert d b i j k

/-- `verts[i][j][k]`, undefined outside the array -/
def at3 (vs : List (List (List (Vert K)))) (i j k : Nat) : Option (Vert K) := do
  let p ← vs[i]?
  let r ← p[j]?
  r[k]?

/-- the values a loop nest `for a < na, for b < nb, for c < nc` goes through, in order (Mesh_MSTK.cc:4713-4718 and others) -/
def loopIdx (na nb nc : Nat) : List (Nat × Nat × Nat) :=
  (List.range na).flatMap fun a => (List.range nb).flatMap fun b => (List.range nc).map fun c => (a, b, c)

/-- body of the loop over edges in Z direction (Mesh_MSTK.cc:4714-4736) -/
def edgeZ (d : Dom K) (b : Blk) (vs : List (List (List (Vert K)))) (i j k : Nat) : Option (Edge K) := do
  let IG := b.i0 + i
  let JG := b.j0 + j
  let KG := b.k0 + k
  let v0 ← at3 vs i j k
  let v1 ← at3 vs i j (k + 1)
  let ii := side IG d.NX
  let jj := side JG d.NY
  let L0 := IG * ((d.NY + 1) * d.NZ + d.NY * (d.NZ + 1) + (d.NY + 1) * (d.NZ + 1))
  return { v0 := v0, v1 := v1, gdim := egdim ii jj, gent := egid2 ii jj, id := L0 + JG * d.NZ + KG + 1 }

/-- body of the loop over edges in Y direction (Mesh_MSTK.cc:4743-4765) -/
def edgeY (d : Dom K) (b : Blk) (vs : List (List (List (Vert K)))) (i j k : Nat) : Option (Edge K) := do
  let IG := b.i0 + i
  let JG := b.j0 + j
  let KG := b.k0 + k
  let v0 ← at3 vs i j k
  let v1 ← at3 vs i (j + 1) k
  let ii := side IG d.NX
  let kk := side KG d.NZ
  let L0 := IG * ((d.NY + 1) * d.NZ + d.NY * (d.NZ + 1) + (d.NY + 1) * (d.NZ + 1))
  return { v0 := v0, v1 := v1, gdim := egdim ii kk, gent := egid1 ii kk,
           id := L0 + (d.NY + 1) * d.NZ + JG * (d.NZ + 1) + KG + 1 }

/-- body of the loop over edges in X direction (Mesh_MSTK.cc:4772-4794) -/
def edgeX (d : Dom K) (b : Blk) (vs : List (List (List (Vert K)))) (i j k : Nat) : Option (Edge K) := do
  let IG := b.i0 + i
  let JG := b.j0 + j
  let KG := b.k0 + k
  let v0 ← at3 vs i j k
  let v1 ← at3 vs (i + 1) j k
  let jj := side JG d.NY
  let kk := side KG d.NZ
  let L0 := IG * ((d.NY + 1) * d.NZ + d.NY * (d.NZ + 1) + (d.NY + 1) * (d.NZ + 1))
  return { v0 := v0, v1 := v1, gdim := egdim jj kk, gent := egid0 jj kk,
           id := L0 + (d.NY + 1) * d.NZ + d.NY * (d.NZ + 1) + JG * (d.NZ + 1) + KG + 1 }

/-- body of the loop over faces normal to X (Mesh_MSTK.cc:4805-4827) -/
def faceX (d : Dom K) (b : Blk) (vs : List (List (List (Vert K)))) (i j k : Nat) : Option (Face K) := do
  let IG := b.i0 + i
  let JG := b.j0 + j
  let KG := b.k0 + k
  let v0 ← at3 vs i j k
  let v1 ← at3 vs i (j + 1) k
  let v2 ← at3 vs i (j + 1) (k + 1)
  let v3 ← at3 vs i j (k + 1)
  let ii := side IG d.NX
  let L0 := IG * (d.NY * d.NZ + d.NY * (d.NZ + 1) + d.NZ * (d.NY + 1))
  return { vs := [v0, v1, v2, v3], gdim := fgdim ii, gent := fgid0 ii, id := L0 + JG * d.NZ + KG + 1 }

/-- body of the loop over faces normal to Y (Mesh_MSTK.cc:4834-4856) -/
def faceY (d : Dom K) (b : Blk) (vs : List (List (List (Vert K)))) (i j k : Nat) : Option (Face K) := do
  let IG := b.i0 + i
  let JG := b.j0 + j
  let KG := b.k0 + k
  let v0 ← at3 vs i j k
  let v1 ← at3 vs (i + 1) j k
  let v2 ← at3 vs (i + 1) j (k + 1)
  let v3 ← at3 vs i j (k + 1)
  let jj := side JG d.NY
  let L0 := IG * (d.NY * d.NZ + d.NY * (d.NZ + 1) + d.NZ * (d.NY + 1))
  return { vs := [v0, v1, v2, v3], gdim := fgdim jj, gent := fgid1 jj,
           id := L0 + d.NY * d.NZ + JG * d.NZ + KG + 1 }

/-- body of the loop over faces normal to Z (Mesh_MSTK.cc:4863-4885) -/
def faceZ (d : Dom K) (b : Blk) (vs : List (List (List (Vert K)))) (i j k : Nat) : Option (Face K) := do
  let IG := b.i0 + i
  let JG := b.j0 + j
  let KG := b.k0 + k
  let v0 ← at3 vs i j k
  let v1 ← at3 vs (i + 1) j k
  let v2 ← at3 vs (i + 1) (j + 1) k
  let v3 ← at3 vs i (j + 1) k
  let kk := side KG d.NZ
  let L0 := IG * (d.NY * d.NZ + d.NY * (d.NZ + 1) + d.NZ * (d.NY + 1))
  return { vs := [v0, v1, v2, v3], gdim := fgdim kk, gent := fgid2 kk,
           id := L0 + d.NY * d.NZ + (d.NY + 1) * d.NZ + JG * (d.NZ + 1) + KG + 1 }

/-- body of the loop over regions (Mesh_MSTK.cc:4894-4910) -/
def mkRegion (d : Dom K) (b : Blk) (vs : List (List (List (Vert K)))) (i j k : Nat) : Option (Region K) := do
  let IG := b.i0 + i
  let JG := b.j0 + j
  let KG := b.k0 + k
  let v0 ← at3 vs i j k
  let v1 ← at3 vs (i + 1) j k
  let v2 ← at3 vs (i + 1) (j + 1) k
  let v3 ← at3 vs i (j + 1) k
  let v4 ← at3 vs i j (k + 1)
  let v5 ← at3 vs (i + 1) j (k + 1)
  let v6 ← at3 vs (i + 1) (j + 1) (k + 1)
  let v7 ← at3 vs i (j + 1) (k + 1)
  return { vs := [v0, v1, v2, v3, v4, v5, v6, v7], gent := 1, id := IG * d.NY * d.NZ + JG * d.NZ + KG + 1 }

/-- `if (nx == 0) nx = NX;` and the same for `ny`, `nz` (Mesh_MSTK.cc:4661-4663) -/
def fillBlk (d : Dom K) (b : Blk) : Blk :=
  { b with nx := if b.nx = 0 then d.NX else b.nx
           ny := if b.ny = 0 then d.NY else b.ny
           nz := if b.nz = 0 then d.NZ else b.nz }

/-- `generate_regular_mesh`, three dimensions (Mesh_MSTK.cc:4592-4921); at least one vertex is always created, so a
zero `NX`, `NY` or `NZ` is divided by. -/
def generate (d : Dom K) (b0 : Blk) : Option (RegMesh K) :=
  if d.NX = 0 ∨ d.NY = 0 ∨ d.NZ = 0 then none else do
    let b := fillBlk d b0
    let vs := mkVerts d b
    let ez ← (loopIdx (b.nx + 1) (b.ny + 1) b.nz).mapM fun p => edgeZ d b vs p.1 p.2.1 p.2.2
    let ey ← (loopIdx (b.nx + 1) b.ny (b.nz + 1)).mapM fun p => edgeY d b vs p.1 p.2.1 p.2.2
    let ex ← (loopIdx b.nx (b.nz + 1) (b.ny + 1)).mapM fun p => edgeX d b vs p.1 p.2.2 p.2.1
    let fx ← (loopIdx (b.nx + 1) b.ny b.nz).mapM fun p => faceX d b vs p.1 p.2.1 p.2.2
    let fy ← (loopIdx b.nx (b.ny + 1) b.nz).mapM fun p => faceY d b vs p.1 p.2.1 p.2.2
    let fz ← (loopIdx b.nx b.ny (b.nz + 1)).mapM fun p => faceZ d b vs p.1 p.2.1 p.2.2
    let rs ← (loopIdx b.nx b.ny b.nz).mapM fun p => mkRegion d b vs p.1 p.2.1 p.2.2
    return { verts := vs.flatten.flatten, edges := ez ++ ey ++ ex, faces := fx ++ fy ++ fz, regions := rs }

/-- the call without the block arguments, which default to 0 (Mesh_MSTK.hh:624-629; Mesh_MSTK.cc:278, serial run) -/
def generateSerial (d : Dom K) : Option (RegMesh K) := generate d ⟨0, 0, 0, 0, 0, 0⟩

end
end Jali.MstkGen
