import Mathlib.Data.List.Infix
import Verif.Model.MeshDefs
/-
Reading a mesh: `init_mesh_from_file_` and the constructor of `Mesh_MSTK` from the name of a file
(src/mesh/mesh_mstk/Mesh_MSTK.cc:64-145, 150-231).

The functions of MSTK give an answer (`ok` is 0 or 1) on each rank; the calls are listed in order. `collapse_degen_edges` is in
Model/MstkCollapse.lean. What happens after `post_create_steps_` is called is not followed here.
-/
namespace Jali.MstkFile

/-- what the constructor asks of MSTK -/
inductive Call
  | importExodus
  | importNemesis
  | collapse
  | renumber
  | distribute (topoDim layers method : Int)
  | weave (topoDim layers : Int)
  | renumberGids
deriving DecidableEq, Repr

/-- the answers of MSTK on one rank, the number of regions before the distribution, and what the rank has afterwards: the number of
regions and the third coordinates of the vertices -/
structure Rank (α : Type) where
  importOk : Bool
  distributeOk : Bool
  weaveOk : Bool
  gidsOk : Bool
  regionsRead : Nat
  regions : Nat
  zs : List α
deriving DecidableEq

/-- `filename.find(s) != std::string::npos` -/
def found (s name : String) : Bool := decide (s.toList <:+: name.toList)

/-- `MESH_Num_Regions(mesh) ? 3 : 2` -/
def dimOf (n : Nat) : Int := if n = 0 then 2 else 3

variable {α : Type}

/-- `init_mesh_from_file_` (Mesh_MSTK.cc:64-145): the calls with the value of `ok` at the end; `none` for a name that is refused -/
def initFromFile (name : String) (numprocs : Nat) (layers : Int) (contiguous : Bool) (p : PartitionerType) (r : Rank α) :
    Option (List Call × Bool) :=
  if found ".exo" name then
    if 1 < numprocs then
      some ([.importExodus, .collapse, .renumber, .distribute (dimOf r.regionsRead) layers (p.code - 2)] ++
          (if contiguous then [.renumberGids] else []),
        r.importOk && r.distributeOk && (!contiguous || r.gidsOk))
    else some ([.importExodus, .collapse, .renumber], r.importOk)
  else if found ".par" name then
    some ([.importNemesis, .collapse, .renumber, .weave (dimOf r.regionsRead) layers] ++ (if contiguous then [.renumberGids] else []),
      r.importOk && r.weaveOk && (!contiguous || r.gidsOk))
  else none

/-- the call in the constructor (Mesh_MSTK.cc:184): the partitioner is not passed on, the default of the declaration is `METIS`
(Mesh_MSTK.hh:550-552, MeshDefs.hh:257) -/
def load (name : String) (numprocs : Nat) (layers : Int) (contiguous : Bool) (_partitioner : PartitionerType) (r : Rank α) :
    Option (List Call × Bool) := initFromFile name numprocs layers contiguous .METIS r

/-- what becomes of a rank: an exception, a collective operation that another rank never reaches, a null pointer, or a mesh with
its manifold and its space dimension -/
inductive Result
  | throws
  | waits
  | undefined
  | made (manifold space : Int)
deriving DecidableEq, Repr

/-- the search for a vertex out of the plane (Mesh_MSTK.cc:204-220): the space dimension of this rank; no vertex is a null pointer -/
def planarDim [DecidableEq α] : List α → Option Int
  | [] => none
  | z0 :: zs => some (if (z0 :: zs).all (· = z0) then 2 else 3)

/-- the constructor (Mesh_MSTK.cc:150-231) up to `post_create_steps_`, on all ranks -/
def construct [DecidableEq α] (name : String) (layers : Int) (contiguous : Bool) (p : PartitionerType) (rs : List (Rank α)) : List Result :=
  let loaded := rs.map fun r => load name rs.length layers contiguous p r
  if loaded.any (fun l => l.isNone || l.any fun q => !q.2) then
    -- `MPI_Allreduce(&cell_dim, ...)` is reached by the ranks that did not throw
    loaded.map fun l => if l.any fun q => q.2 then .waits else .throws
  else
    let max := (rs.map fun r => dimOf r.regions).foldl Max.max 0
    if max = 2 then
      if rs.any fun r => (planarDim r.zs).isNone then rs.map fun r => if (planarDim r.zs).isNone then .undefined else .waits
      else
        let space := (rs.map fun r => (planarDim r.zs).getD 0).foldl Max.max 0
        rs.map fun _ => .made 2 space
    else rs.map fun r => if dimOf r.regions ≠ max then .throws else .made max 3

end Jali.MstkFile
