import Verif.Model.MstkMesh
import Verif.Model.State
/-
Fields of a mesh: `get_field_info`, `get_field`, `store_field` of `Mesh_MSTK` (src/mesh/mesh_mstk/Mesh_MSTK.cc:5306-5517,
Mesh_MSTK.hh:727-751, 842-964) and `init_from_mesh`, `export_to_mesh` of the state manager
(src/statemanager/JaliState.cc:161-275).

A field is an attribute (`MAttrib`) of the MSTK mesh: a value for each entity of one dimension, here indexed by the number of the
entity in the MSTK mesh (`MESH_Vertex(mesh, i)`, ...). The data pointers of the caller are lists; reading or writing past the end
is undefined. Element types are told apart as in the model of the state manager: 0 is `int`, 1 is `double`, 2, 3 and 6 are
`std::array<double, N>`. Messages and the memory of replaced arrays are left out.
-/
namespace Jali.Mstk
open Jali.St

/-- `MType` -/
inductive MType | vertex | edge | face | region
deriving DecidableEq, Repr

/-- `MAttType` -/
inductive AttType | int | double | vector | tensor | pointer
deriving DecidableEq, Repr

/-- a value of an element type, or what an attribute has for an entity: `null` is the null pointer of a vector
attribute that was not set; `junk` is an element never written (`new T[n]`) -/
inductive Val (D : Type)
  | int (i : Int)
  | real (x : D)
  | vec (l : List D)
  | null
  | junk
deriving DecidableEq, Repr

/-- an `MAttrib_ptr` with the values it has for the entities -/
structure Attr (D : Type) where
  name : String
  type : AttType
  dim : MType
  ncomp : Nat
  val : Nat → Val D

/-- a `Mesh_MSTK` with its attributes: `manifold_dimension()`, `space_dimension()` -/
structure FMesh (D : Type) where
  j : JMesh
  mdim : Nat
  sdim : Nat
  atts : List (Attr D)

/-- result of a call: undefined behaviour, `false`, or `true` with what was written -/
inductive Res (α : Type)
  | ub
  | no
  | yes (a : α)
deriving DecidableEq, Repr

variable {D : Type}

/-- the table `kind2mtype` (Mesh_MSTK.hh:743-747) -/
def kind2mtype : List (List MType) :=
  [[.vertex, .vertex, .vertex, .vertex],
   [.vertex, .vertex, .vertex, .edge],
   [.vertex, .edge, .edge, .face],
   [.vertex, .edge, .face, .region]]

/-- `entity_kind_to_mtype` (Mesh_MSTK.hh:728-750); an index outside the table is undefined -/
def FMesh.toMtype (fm : FMesh D) (k : EntityKind) : Option MType :=
  if k.code < 0 then none else (kind2mtype[fm.mdim]?).bind fun row => row[k.code.toNat]?

/-- `MESH_Num_Vertices`, ... (the `switch` of Mesh_MSTK.cc:5353-5360) -/
def FMesh.nent (fm : FMesh D) : MType → Nat
  | .vertex => fm.j.m.nv
  | .edge => fm.j.m.ne
  | .face => fm.j.m.nf
  | .region => fm.j.m.nr

/-- `MESH_AttribByName`: the first attribute with the name -/
def FMesh.byName (fm : FMesh D) (name : String) : Option (Attr D) := fm.atts.find? fun a => a.name = name

/-- `get_field_info`: names and types of the attributes on a kind of entities (Mesh_MSTK.cc:5306-5337) -/
def FMesh.fieldInfo (fm : FMesh D) (k : EntityKind) : Option (List (String × AttType)) :=
  if fm.atts = [] then some []
  else (fm.toMtype k).map fun t => (fm.atts.filter fun a => t = a.dim).map fun a => (a.name, a.type)

/-- `get_field` for `int` (Mesh_MSTK.cc:5341-5380) and `double` (5386-5425) with a buffer of `cap` elements: the elements
written -/
def FMesh.getScalar (fm : FMesh D) (ty : AttType) (name : String) (k : EntityKind) (cap : Nat) : Res (List (Val D)) :=
  match fm.byName name with
  | none => .no
  | some a =>
    match fm.toMtype k with
    | none => .ub
    | some t =>
      if t ≠ a.dim then .no
      else if a.type ≠ ty then .no
      else if fm.nent a.dim ≤ cap then .yes ((List.range (fm.nent a.dim)).map a.val)
      else .ub

/-- `data[i][j] = ((double *)pval)[j]` for `j < N` (Mesh_MSTK.hh:887-888) -/
def readVec (N : Nat) : Val D → Option (Val D)
  | .vec l => if N ≤ l.length then some (.vec (l.take N)) else none
  | _ => none

/-- `get_field_internal` for `std::array<double, N>` (Mesh_MSTK.hh:844-894) -/
def FMesh.getArray (fm : FMesh D) (N : Nat) (name : String) (k : EntityKind) (cap : Nat) : Res (List (Val D)) :=
  match fm.byName name with
  | none => .no
  | some a =>
    match fm.toMtype k with
    | none => .ub
    | some t =>
      if t ≠ a.dim then .no
      else if a.type ≠ .vector ∧ a.type ≠ .tensor then .no
      else if a.ncomp ≠ N then .no
      else if fm.nent a.dim ≤ cap then
        match (List.range (fm.nent a.dim)).mapM fun i => readVec N (a.val i) with
        | some l => .yes l
        | none => .ub
      else .ub

/-- the overloads of `get_field` (Mesh_MSTK.hh:455, 466, 484-495) -/
def FMesh.get (fm : FMesh D) (ty : Nat) (name : String) (k : EntityKind) (cap : Nat) : Res (List (Val D)) :=
  if ty = 0 then fm.getScalar .int name k cap
  else if ty = 1 then fm.getScalar .double name k cap
  else fm.getArray ty name k cap

/-- `MEnt_Set_AttVal(ent, att, ...)` for the first `n` entities -/
def Attr.write (a : Attr D) (n : Nat) (data : List (Val D)) : Attr D :=
  { a with val := fun i => if i < n then data.getD i .junk else a.val i }

/-- change the first attribute with the name, or add one -/
def FMesh.put (fm : FMesh D) (a : Attr D) : FMesh D :=
  match fm.atts.findIdx? fun b => b.name = a.name with
  | some i => { fm with atts := fm.atts.set i a }
  | none => { fm with atts := fm.atts ++ [a] }

/-- the loop over the entities: it reads `data[i]` for all of them -/
def FMesh.writeAll (fm : FMesh D) (a : Attr D) (data : List (Val D)) : Res (FMesh D) :=
  if fm.nent a.dim ≤ data.length then .yes (fm.put (a.write (fm.nent a.dim) data)) else .ub

/-- the values of a new attribute -/
def noVal (ty : AttType) (zero : D) : Val D :=
  match ty with
  | .int => .int 0
  | .double => .real zero
  | _ => .null

/-- `store_field` for `int` (Mesh_MSTK.cc:5427-5470) and `double` (5475-5517) -/
def FMesh.storeScalar (zero : D) (fm : FMesh D) (ty : AttType) (name : String) (k : EntityKind) (data : List (Val D)) :
    Res (FMesh D) :=
  match fm.toMtype k with
  | none => .ub
  | some t =>
    match fm.byName name with
    | some a =>
      if t ≠ a.dim then .no
      else if a.type ≠ ty then .no
      else fm.writeAll a data
    | none => fm.writeAll ⟨name, ty, t, 1, fun _ => noVal ty zero⟩ data

/-- `store_field_internal` for `std::array<double, N>` (Mesh_MSTK.hh:900-964) -/
def FMesh.storeArray (zero : D) (fm : FMesh D) (N : Nat) (name : String) (k : EntityKind) (data : List (Val D)) :
    Res (FMesh D) :=
  match fm.toMtype k with
  | none => .ub
  | some t =>
    match fm.byName name with
    | some a =>
      if t ≠ a.dim then .no
      else if a.type ≠ .vector ∨ a.type ≠ .tensor then .no
      else if a.ncomp ≠ N then .no
      else fm.writeAll a data
    | none =>
      if N ≠ 2 ∧ N ≠ 3 ∧ N ≠ 6 then .no
      else
        let ty : AttType := if N = 2 ∨ (N = 3 ∧ fm.sdim = 3) then .vector else .tensor
        fm.writeAll ⟨name, ty, t, N, fun _ => noVal ty zero⟩ data

/-- the overloads of `store_field` (Mesh_MSTK.hh:503, 511, 521-532) -/
def FMesh.store (zero : D) (fm : FMesh D) (ty : Nat) (name : String) (k : EntityKind) (data : List (Val D)) :
    Res (FMesh D) :=
  if ty = 0 then fm.storeScalar zero .int name k data
  else if ty = 1 then fm.storeScalar zero .double name k data
  else fm.storeArray zero ty name k data

/-- `cell_get_type` reads the attribute `Cell_type` (Mesh_MSTK.cc:1248-1260) that `label_celltype` made (4549-4573); the code
keeps a pointer to it, and it is the first attribute of this name. The value is that of the cell with the given id. -/
def FMesh.cellTypeCode (fm : FMesh D) (h : Nat) : Option (Val D) := (fm.byName "Cell_type").map fun a => a.val h

/-! ### The state manager -/

/-- element type with which `init_from_mesh` reads a field (JaliState.cc:180-216); `none`: the field is skipped -/
def importTy (sdim : Nat) : AttType → Option Nat
  | .int => some 0
  | .double => some 1
  | .vector => if sdim = 2 then some 2 else if sdim = 3 then some 3 else none
  | .tensor => if sdim = 2 then some 3 else if sdim = 3 then some 6 else none
  | .pointer => none

/-- `T *data = new T[nent]; get_field(name, kind, data)`: the contents of the buffer; the return value is ignored -/
def buffer (nent : Nat) : Res (List (Val D)) → Option (List (Val D))
  | .ub => none
  | .no => some (List.replicate nent .junk)
  | .yes l => some (l ++ List.replicate (nent - l.length) .junk)

/-- one field (JaliState.cc:180-216) -/
def importField (count : St.Domain → EntityKind → EntityType → Nat) (zero : Val D) (fm : FMesh D) (k : EntityKind)
    (s : State (Val D)) (f : String × AttType) : Except St.Err (State (Val D)) :=
  match importTy fm.sdim f.2 with
  | none => .ok s
  | some ty =>
    match buffer (count (.mesh s.mesh) k .ALL) (fm.get ty f.1 k (count (.mesh s.mesh) k .ALL)) with
    | none => .error .undefinedBehaviour
    | some data =>
      match add zero count s ⟨.UNIVAL, ty, f.1, .mesh s.mesh, k, .ALL, .array data⟩ with
      | .error e => .error e
      | .ok (_, s') => .ok s'

/-- the loop over the fields of a kind (JaliState.cc:168-217) -/
def importKind (count : St.Domain → EntityKind → EntityType → Nat) (zero : Val D) (fm : FMesh D) (s : State (Val D))
    (k : EntityKind) : Except St.Err (State (Val D)) :=
  match fm.fieldInfo k with
  | none => .error .undefinedBehaviour
  | some fs => fs.foldlM (importField count zero fm k) s

/-- `State::init_from_mesh` (JaliState.cc:161-220) -/
def initFromMesh (count : St.Domain → EntityKind → EntityType → Nat) (zero : Val D) (fm : FMesh D) (s : State (Val D)) :
    Except St.Err (State (Val D)) :=
  [EntityKind.NODE, .FACE, .CELL].foldlM (importKind count zero fm) s

/-- one vector of `export_to_mesh` (JaliState.cc:236-264); a failed cast gives a null pointer, which is dereferenced -/
def exportVec (zero : D) (s : State (Val D)) (fm : FMesh D) (v : Vec) : Res (FMesh D) :=
  if v.vectype = .UNIVAL then
    if v.ty = 0 ∨ v.ty = 1 ∨ v.ty = 2 ∨ v.ty = 3 ∨ v.ty = 6 then
      if onMesh v.domain then
        match s.blocks[v.data]? with
        | some (.uni l) => fm.store zero v.ty v.name v.kind l
        | _ => .ub
      else .ub
    else .no
  else .no

/-- `State::export_to_mesh` (JaliState.cc:228-275) -/
def exportToMesh (zero : D) (s : State (Val D)) : List Vec → FMesh D → Except St.Err (FMesh D)
  | [], fm => .ok fm
  | v :: vs, fm =>
    match exportVec zero s fm v with
    | .ub => .error .undefinedBehaviour
    | .no => exportToMesh zero s vs fm
    | .yes fm' => exportToMesh zero s vs fm'

end Jali.Mstk
