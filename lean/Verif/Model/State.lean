import Verif.Model.SetRegistry
/-
Model of the state manager `State` (src/statemanager/JaliState.h, JaliState.cc) and of the state vectors
`UniStateVector`, `MultiStateVector` (src/statemanager/JaliStateVector.h).

A state vector object is its meta data (`Vec`) with the address of its data block; `shared_ptr` data blocks live in
`State.blocks`. The C++ element types `T` are told apart by the number `ty`; the values of all of them are
elements of one type `V` with a `zero` (`T(0)` and the value-initialised `T()` are the same). Mesh sets live in the registry
model's `World`. Undefined behaviour, failed `assert`s and exceptions are error outcomes. Printing,
`init_from_mesh` and `export_to_mesh` are in `MstkFields.lean`.
-/
namespace Jali.St
open Jali.MSet

inductive Err
  | set (e : MSet.Err)       -- from a MeshSet operation
  | reg (e : Reg.Err)        -- from make_meshset
  | thrown                   -- std::runtime_error
  | assertFailed
  | undefinedBehaviour
deriving DecidableEq, Repr

/-- `shared_ptr<Mesh>` or `shared_ptr<MeshTile>`: the `DomainType` and the pointer -/
inductive Domain
  | mesh (id : Nat)
  | tile (id : Nat)
deriving DecidableEq, Repr

/-- `StateVector_type` (JaliStateVector.h:64) -/
inductive VecType
  | UNIVAL | MULTIVAL
deriving DecidableEq, Repr

/-- `Data_layout` (JaliStateVector.h:65) -/
inductive Layout
  | CELL_CENTRIC | MATERIAL_CENTRIC
deriving DecidableEq, Repr

/-- A `UniStateVector<T, DomainType>` or `MultiStateVector<T, DomainType>` (JaliStateVector.h:142-156, 255, 429-431,
592, 977): `data` is the address of the shared data block. -/
structure Vec where
  name : String
  domain : Domain
  kind : EntityKind
  type : EntityType
  vectype : VecType
  ty : Nat
  data : Nat
deriving DecidableEq, Repr

/-- `std::vector<T>` of a univalued, `std::vector<std::vector<T>>` of a multi-material vector -/
inductive Block (V : Type)
  | uni (l : List V)
  | multi (l : List (List V))
deriving DecidableEq, Repr

/-- Data members of `State` (JaliState.h:1434-1462). `mesh` identifies `mymesh_`, `w` holds its sets, `blocks` all data
blocks ever made. `dummy_cellset_` and `dummy_cellmats_` are always empty and dropped. -/
structure State (V : Type) where
  mesh : Nat
  w : Reg.World
  blocks : List (Block V)
  vecs : List Vec
  indexes : EntityKind → List Int
  names : List String
  mats : List Nat
  cellMats : List (List Nat)

/-- `State::create` / constructor (JaliState.h:81-97, 1425-1431) -/
def create {V : Type} (mesh : Nat) (w : Reg.World) : State V :=
  ⟨mesh, w, [], [], fun _ => [], [], [], []⟩

/-! ### Look-up of vectors -/

/-- the tests on name, entity kind and entity type common to all `find`s (JaliState.h:346-350) -/
def fits (name : String) (kind : EntityKind) (type : EntityType) (v : Vec) : Bool :=
  v.name = name && (kind = .ANY_KIND || v.kind = kind) && (type = .ALL || v.type = type)

/-- `find(name, kind, type)` (JaliState.h:340-357, 380-397); the position of the vector, `none` for `end()` -/
def findName {V : Type} (s : State V) (name : String) (kind : EntityKind) (type : EntityType) : Option Nat :=
  s.vecs.findIdx? fun v => fits name kind type v

/-- `find<DomainType>(name, domain, kind, type)` (JaliState.h:417-447, 471-501). A vector casts to
`UniStateVectorBase<DomainType>` or `MultiStateVectorBase<DomainType>` if its domain is of this type. -/
def findDomain {V : Type} (s : State V) (name : String) (domain : Domain) (kind : EntityKind) (type : EntityType) :
    Option Nat :=
  s.vecs.findIdx? fun v => fits name kind type v && v.domain = domain

/-- `find<DomainType, vectype>(name, domain, kind, type)` (JaliState.h:524-557, 581-614) -/
def findVectype {V : Type} (s : State V) (vt : VecType) (name : String) (domain : Domain) (kind : EntityKind)
    (type : EntityType) : Option Nat :=
  s.vecs.findIdx? fun v => fits name kind type v && v.vectype = vt && v.domain = domain

/-- `find<T, DomainType, StateVecType>(name, domain, kind, type)` (JaliState.h:704-729, 750-775) and, with the enum
value, JaliState.h:636-648, 669-681 -/
def findTyped {V : Type} (s : State V) (vt : VecType) (ty : Nat) (name : String) (domain : Domain)
    (kind : EntityKind) (type : EntityType) : Option Nat :=
  s.vecs.findIdx? fun v => v.vectype = vt && v.ty = ty && v.domain = domain && fits name kind type v

/-- `get` (JaliState.h:800-1081): the found vector, assigned to the caller's vector or pointer; `none` for
`false` -/
def get {V : Type} (s : State V) (vt : VecType) (ty : Nat) (name : String) (domain : Domain)
    (kind : EntityKind) (type : EntityType) : Option Vec :=
  match findTyped s vt ty name domain kind type with
  | some i => s.vecs[i]?
  | none => none

/-! ### Materials: queries -/

/-- the mesh set of a material (JaliState.h:145-147) -/
def matSet {V : Type} (s : State V) (m : Nat) : Option Obj :=
  match s.mats[m]? with
  | some a => s.w.heap[a]?
  | none => none

/-- `num_materials` (JaliState.h:118-121) -/
def numMaterials {V : Type} (s : State V) : Nat := s.mats.length

/-- `material_name` (JaliState.h:125-128) -/
def materialName {V : Type} (s : State V) (m : Nat) : String :=
  match matSet s m with
  | some o => o.name
  | none => "UNDEFINED_MATERIAL"

/-- does the set at address `a` have this name? -/
def addrNamed {V : Type} (s : State V) (name : String) (a : Nat) : Bool :=
  match s.w.heap[a]? with
  | some o => o.name = name
  | none => false

/-- `material_index_by_name` (JaliState.h:132-138), `none` for -1 -/
def materialIndexByName {V : Type} (s : State V) (name : String) : Option Nat :=
  s.mats.findIdx? fun a => addrNamed s name a

/-- `material_cells` (JaliState.h:164-170) -/
def materialCells {V : Type} (s : State V) (m : Nat) : List Nat :=
  match matSet s m with
  | some o => entities o .ALL
  | none => []

/-- `num_material_cells` (JaliState.h:152-158) -/
def numMaterialCells {V : Type} (s : State V) (m : Nat) : Nat :=
  match matSet s m with
  | some o => numEntities o .ALL
  | none => 0

/-- `cell_materials` (JaliState.h:182-184) -/
def cellMaterials {V : Type} (s : State V) (c : Nat) : Except Err (List Nat) :=
  if s.mats.length ≠ 0 then
    match s.cellMats[c]? with
    | some l => .ok l
    | none => .error .undefinedBehaviour
  else .ok []

/-- `num_cell_materials` (JaliState.h:175-178) -/
def numCellMaterials {V : Type} (s : State V) (c : Nat) : Except Err Nat :=
  match cellMaterials s c with
  | .ok l => .ok l.length
  | .error e => .error e

/-- `cell_index_in_material` (JaliState.h:217-220) -/
def cellIndexInMaterial {V : Type} (s : State V) (c m : Nat) : Except Err Int :=
  match matSet s m with
  | none => .error .assertFailed
  | some o =>
    match indexInSet o c with
    | .ok i => .ok i
    | .error e => .error (.set e)

/-! ### Data of multi-material vectors -/

/-- `std::vector::resize` with value-initialised new elements -/
def resizeTo {A : Type} (zero : A) (l : List A) (n : Nat) : List A :=
  l.take n ++ List.replicate (n - l.length) zero

/-- the entity lists of all materials, in order; a dangling pointer is undefined behaviour -/
def allCells (heap : List Obj) : List Nat → Except Err (List (List Nat))
  | [] => .ok []
  | a :: as =>
    match heap[a]? with
    | none => .error .undefinedBehaviour
    | some o =>
      match allCells heap as with
      | .error e => .error e
      | .ok ls => .ok (entities o .ALL :: ls)

/-- `allocate` (JaliStateVector.h:743-753) -/
def allocate {V : Type} (zero : V) (cells : List (List Nat)) : List (List V) :=
  cells.map fun l => List.replicate l.length zero

/-- element of a rectangular array; reading past it is undefined behaviour (`none`) -/
def elem {V : Type} (data : List (List V)) (i j : Nat) : Option V :=
  match data[i]? with
  | some row => row[j]?
  | none => none

/-- `(layout == CELL_CENTRIC) ? data[c][m] : data[m][c]` (JaliStateVector.h:782-783) -/
def elemAt {V : Type} (layout : Layout) (data : List (List V)) (c m : Nat) : Option V :=
  match layout with
  | .CELL_CENTRIC => elem data c m
  | .MATERIAL_CENTRIC => elem data m c

/-- the loop over the cells of a material (JaliStateVector.h:779-784) -/
def copyCells {V : Type} (layout : Layout) (data : List (List V)) (m : Nat) : List Nat → Except Err (List V)
  | [] => .ok []
  | c :: cs =>
    match elemAt layout data c m with
    | none => .error .undefinedBehaviour
    | some x =>
      match copyCells layout data m cs with
      | .error e => .error e
      | .ok xs => .ok (x :: xs)

/-- the loop over the materials of `assign(layout, data)` with an array (JaliStateVector.h:770-786), from material `m`
on -/
def assignFrom {V : Type} (layout : Layout) (data : List (List V)) : Nat → List (List Nat) →
    Except Err (List (List V))
  | _, [] => .ok []
  | m, cells :: rest =>
    match copyCells layout data m cells with
    | .error e => .error e
    | .ok xs =>
      match assignFrom layout data (m + 1) rest with
      | .error e => .error e
      | .ok xss => .ok (xs :: xss)

/-- `assign(initval)` (JaliStateVector.h:800-815) -/
def assignValue {V : Type} (x : V) (cells : List (List Nat)) : List (List V) :=
  cells.map fun l => List.replicate l.length x

/-! ### Adding vectors -/

/-- how the elements are initialised: the overloads of `add` other than by copy. Arrays are not null. -/
inductive Init (V : Type)
  | uninitialized                                        -- JaliState.h:1102-1136
  | array (data : List V)                                -- JaliState.h:1156-1190
  | array2 (layout : Layout) (data : List (List V))      -- JaliState.h:1208-1244
  | value (x : V)                                        -- JaliState.h:1293-1334

/-- arguments of `add` -/
structure Req (V : Type) where
  vectype : VecType
  ty : Nat
  name : String
  domain : Domain
  kind : EntityKind
  type : EntityType
  init : Init V

/-- the data block a `UniStateVector` or `MultiStateVector` constructor makes (JaliStateVector.h:300-337, 653-694).
`num` is `domain->num_entities(kind, type)`; an array shorter than that is read past its end. The `array`
overload makes a univalued, `array2` a multi-material vector whatever `vectype` says (see `Req.vt`). -/
def newBlock {V : Type} (zero : V) (num : Nat) (cells : List (List Nat)) (vt : VecType) :
    Init V → Except Err (Block V)
  | .uninitialized =>
    match vt with
    | .UNIVAL => .ok (.uni (List.replicate num zero))
    | .MULTIVAL => .ok (.multi (allocate zero cells))
  | .array data => if num ≤ data.length then .ok (.uni (data.take num)) else .error .undefinedBehaviour
  | .array2 layout data =>
    match assignFrom layout data 0 cells with
    | .ok xs => .ok (.multi xs)
    | .error e => .error e
  | .value x =>
    match vt with
    | .UNIVAL => .ok (.uni (List.replicate num x))
    | .MULTIVAL => .ok (.multi (assignValue x cells))

/-- the class of the vector an overload makes -/
def Req.vt {V : Type} (r : Req V) : VecType :=
  match r.init with
  | .array _ => .UNIVAL
  | .array2 _ _ => .MULTIVAL
  | _ => r.vectype

/-- the position pushed to `entity_indexes_[kind]`: the overloads for no data and for arrays push
`state_vectors_.size()-1` before the vector is added (JaliState.h:1120, 1174, 1227), the one for a value
after it (JaliState.h:1311-1318) -/
def pushedIndex {V : Type} (n : Nat) : Init V → Int
  | .value _ => (n + 1 : Int) - 1
  | _ => (n : Int) - 1

/-- `entity_indexes_[ikind].emplace_back(i)`; kinds below 0 are no index of the array -/
def pushIndex (indexes : EntityKind → List Int) (kind : EntityKind) (i : Int) :
    Except Err (EntityKind → List Int) :=
  if kind.code < 0 then .error .undefinedBehaviour
  else .ok fun k => if k = kind then indexes k ++ [i] else indexes k

/-- `add` with a name, all overloads (JaliState.h:1102-1334): the position of the returned vector and the new state.
`count` is `num_entities` of the domains. -/
def add {V : Type} (zero : V) (count : Domain → EntityKind → EntityType → Nat) (s : State V) (r : Req V) :
    Except Err (Nat × State V) :=
  match findTyped s r.vt r.ty r.name r.domain r.kind r.type with
  | some i => .ok (i, s)
  | none =>
    match pushIndex s.indexes r.kind (pushedIndex s.vecs.length r.init) with
    | .error e => .error e
    | .ok idx =>
      match allCells s.w.heap s.mats with
      | .error e => .error e
      | .ok cells =>
        match newBlock zero (count r.domain r.kind r.type) cells r.vt r.init with
        | .error e => .error e
        | .ok b =>
          .ok (s.vecs.length,
            { s with
              blocks := s.blocks ++ [b]
              vecs := s.vecs ++ [⟨r.name, r.domain, r.kind, r.type, r.vt, r.ty, s.blocks.length⟩]
              indexes := idx
              names := s.names ++ [r.name] })

/-- `UniStateVector(UniStateVector const&)`, `MultiStateVector(MultiStateVector const&)` (JaliStateVector.h:350-359,
707-716): a new block with the same contents -/
def copyVec {V : Type} (s : State V) (v : Vec) : Except Err (Vec × State V) :=
  match s.blocks[v.data]? with
  | none => .error .undefinedBehaviour
  | some b => .ok ({ v with data := s.blocks.length }, { s with blocks := s.blocks ++ [b] })

/-- `operator=` of `UniStateVector` and `MultiStateVector` (JaliStateVector.h:369-379, 726-736): the vector assigned to. Class
and element type are those of both sides. -/
def assignVec (old src : Vec) : Vec :=
  { name := src.name, domain := src.domain, kind := src.kind, type := src.type
    vectype := old.vectype, ty := old.ty, data := src.data }

/-- the data of the copy in `add(in_vec)`: for a vector of another mesh, a vector on this mesh made from the raw data
(JaliState.h:1363-1383) -/
def copyForAdd {V : Type} (zero : V) (count : Domain → EntityKind → EntityType → Nat) (s : State V) (v : Vec) :
    Except Err (Vec × State V) :=
  if v.domain = .mesh s.mesh then copyVec s v
  else
    match s.blocks[v.data]? with
    | some (.uni l) =>
      match newBlock zero (count (.mesh s.mesh) v.kind v.type) [] .UNIVAL (.array l) with
      | .error e => .error e
      | .ok b => .ok ({ v with domain := .mesh s.mesh, data := s.blocks.length }, { s with blocks := s.blocks ++ [b] })
    | _ => .error .undefinedBehaviour

/-- `add(in_vec)` (JaliState.h:1345-1413). It only compiles for a `UniStateVector` on a `Mesh`. -/
def addCopy {V : Type} (zero : V) (count : Domain → EntityKind → EntityType → Nat) (s : State V) (v : Vec) :
    Except Err (Nat × State V) :=
  match findTyped s v.vectype v.ty v.name v.domain v.kind v.type with
  | some i => .ok (i, s)
  | none =>
    match copyForAdd zero count s v with
    | .error e => .error e
    | .ok (v', s1) =>
      match pushIndex s1.indexes v.kind ((s1.vecs.length + 1 : Int) - 1) with
      | .error e => .error e
      | .ok idx =>
        .ok (s1.vecs.length,
          { s1 with vecs := s1.vecs ++ [v'], indexes := idx, names := s1.names ++ [v.name] })

/-! ### Iteration -/

/-- dereferencing the permutation iterator at each stored position -/
def derefAll {A : Type} (l : List A) : List Int → Except Err (List A)
  | [] => .ok []
  | i :: is =>
    if i < 0 then .error .undefinedBehaviour
    else
      match l[i.toNat]? with
      | none => .error .undefinedBehaviour
      | some x =>
        match derefAll l is with
        | .error e => .error e
        | .ok xs => .ok (x :: xs)

/-- the vectors from `entity_begin(kind)` to `entity_end(kind)` (JaliState.h:271-280) -/
def vecsOfKind {V : Type} (s : State V) (kind : EntityKind) : Except Err (List Vec) :=
  if kind.code < 0 then .error .undefinedBehaviour else derefAll s.vecs (s.indexes kind)

/-- the names from `names_entity_begin(kind)` to `names_entity_end(kind)` (JaliState.h:293-302) -/
def namesOfKind {V : Type} (s : State V) (kind : EntityKind) : Except Err (List String) :=
  if kind.code < 0 then .error .undefinedBehaviour else derefAll s.names (s.indexes kind)

/-! ### Changing materials -/

/-- change the data of a multi-material vector -/
def onMulti {V : Type} (f : List (List V) → Except Err (List (List V))) (blocks : List (Block V)) (a : Nat) :
    Except Err (List (Block V)) :=
  match blocks[a]? with
  | some (.multi l) =>
    match f l with
    | .ok l' => .ok (blocks.set a (.multi l'))
    | .error e => .error e
  | _ => .error .undefinedBehaviour

/-- `std::dynamic_pointer_cast<MultiStateVectorBase<Mesh>>` succeeds -/
def onMesh : Domain → Bool
  | .mesh _ => true
  | .tile _ => false

/-- the loop over the state vectors in `add_material` and `rem_material` (JaliState.cc:90-95, 116-121) -/
def forMulti {V : Type} (f : List (List V) → Except Err (List (List V))) :
    List Vec → List (Block V) → Except Err (List (Block V))
  | [], bs => .ok bs
  | v :: vs, bs =>
    if v.vectype = .MULTIVAL && onMesh v.domain then
      match onMulti f bs v.data with
      | .error e => .error e
      | .ok bs' => forMulti f vs bs'
    else forMulti f vs bs

/-- the loop over the state vectors in `add_cells_to_material` (JaliState.cc:133-139): the result of the cast is not
checked -/
def forMultiUnchecked {V : Type} (f : List (List V) → Except Err (List (List V))) :
    List Vec → List (Block V) → Except Err (List (Block V))
  | [], bs => .ok bs
  | v :: vs, bs =>
    if v.vectype = .MULTIVAL then
      if onMesh v.domain then
        match onMulti f bs v.data with
        | .error e => .error e
        | .ok bs' => forMultiUnchecked f vs bs'
      else .error .undefinedBehaviour
    else forMultiUnchecked f vs bs

/-- `MultiStateVector::add_material` (JaliStateVector.h:952-956) -/
def mvAddMaterial {V : Type} (zero : V) (n : Nat) (l : List (List V)) : Except Err (List (List V)) :=
  .ok (l ++ [List.replicate n zero])

/-- `MultiStateVector::rem_material` (JaliStateVector.h:959-961) -/
def mvRemMaterial {V : Type} (m : Nat) (l : List (List V)) : Except Err (List (List V)) :=
  if m < l.length then .ok (l.eraseIdx m) else .error .undefinedBehaviour

/-- `mv->resize(m, mv->size(m) + n)` (JaliState.cc:136-137, JaliStateVector.h:935-938) -/
def mvGrow {V : Type} (zero : V) (m n : Nat) (l : List (List V)) : Except Err (List (List V)) :=
  match l[m]? with
  | some row => .ok (l.set m (resizeTo zero row (row.length + n)))
  | none => .error .undefinedBehaviour

/-- `for (c : cells) cell_materials_[c].push_back(m)` (JaliState.cc:86-87, 130-131) -/
def pushMats (m : Nat) : List Nat → List (List Nat) → Except Err (List (List Nat))
  | [], cm => .ok cm
  | c :: cs, cm =>
    match cm[c]? with
    | some l => pushMats m cs (cm.set c (l ++ [m]))
    | none => .error .undefinedBehaviour

/-- the set of a new material: the cell set of this name, or a new empty one (JaliState.cc:67-76) -/
def materialSetFor (w : Reg.World) (name : String) : Except Err (Nat × Reg.World) :=
  match Reg.findMeshset w name .CELL with
  | some a => .ok (a, w)
  | none =>
    match Reg.makeMeshset w name .CELL [] [] true with
    | .ok r => .ok r
    | .error e => .error (.reg e)

/-- `set->add_entities(cells)` on the set at address `a` -/
def growSet (w : Reg.World) (a : Nat) (cells : List Nat) : Except Err Reg.World :=
  match w.heap[a]? with
  | none => .error .undefinedBehaviour
  | some o =>
    match addEntities (w.view .CELL) o cells with
    | .error e => .error (.set e)
    | .ok o' => .ok { w with heap := w.heap.set a o' }

/-- `if (cell_materials_.size() == 0) cell_materials_.resize(num cells)` (JaliState.cc:83-85) -/
def sizedCellMats {V : Type} (s : State V) : List (List Nat) :=
  if s.cellMats.length = 0 then List.replicate (s.w.view .CELL).nAll [] else s.cellMats

/-- `State::add_material` (JaliState.cc:59-96) -/
def addMaterial {V : Type} (zero : V) (s : State V) (name : String) (cells : List Nat) : Except Err (State V) :=
  if s.mats.any (fun a => addrNamed s name a) then .ok s
  else
    match materialSetFor s.w name with
    | .error e => .error e
    | .ok (a, w1) =>
      match growSet w1 a cells with
      | .error e => .error e
      | .ok w2 =>
        match pushMats s.mats.length cells (sizedCellMats s) with
        | .error e => .error e
        | .ok cm =>
          match forMulti (mvAddMaterial zero cells.length) s.vecs s.blocks with
          | .error e => .error e
          | .ok bs => .ok { s with w := w2, mats := s.mats ++ [a], cellMats := cm, blocks := bs }

/-- the inner loop of `rem_material` (JaliState.cc:107-110): `i` runs to the number of materials at the start of the
loop, the list may have become shorter -/
def eraseLoop (m : Nat) : List Nat → List Nat → Except Err (List Nat)
  | [], l => .ok l
  | i :: is, l =>
    match l[i]? with
    | none => .error .undefinedBehaviour
    | some x => if m = x then eraseLoop m is (l.eraseIdx i) else eraseLoop m is l

/-- the loop over the cells of the material (JaliState.cc:106-111) -/
def eraseCells (m : Nat) : List Nat → List (List Nat) → Except Err (List (List Nat))
  | [], cm => .ok cm
  | c :: cs, cm =>
    match cm[c]? with
    | none => .error .undefinedBehaviour
    | some l =>
      match eraseLoop m (List.range l.length) l with
      | .error e => .error e
      | .ok l' => eraseCells m cs (cm.set c l')

/-- `State::rem_material` (JaliState.cc:99-122) -/
def remMaterial {V : Type} (s : State V) (m : Nat) : Except Err (State V) :=
  match matSet s m with
  | none => .ok s
  | some o =>
    match eraseCells m (entities o .ALL) s.cellMats with
    | .error e => .error e
    | .ok cm =>
      match forMulti (mvRemMaterial m) s.vecs s.blocks with
      | .error e => .error e
      | .ok bs => .ok { s with mats := s.mats.eraseIdx m, cellMats := cm, blocks := bs }

/-- `rem_material_by_name` (JaliState.h:208-212) -/
def remMaterialByName {V : Type} (s : State V) (name : String) : Except Err (State V) :=
  match materialIndexByName s name with
  | some m => remMaterial s m
  | none => .ok s

/-- `State::add_cells_to_material` (JaliState.cc:126-140) -/
def addCells {V : Type} (zero : V) (s : State V) (m : Nat) (cells : List Nat) : Except Err (State V) :=
  match s.mats[m]? with
  | none => .error .assertFailed
  | some a =>
    match growSet s.w a cells with
    | .error e => .error e
    | .ok w1 =>
      match pushMats m cells s.cellMats with
      | .error e => .error e
      | .ok cm =>
        match forMultiUnchecked (mvGrow zero m cells.length) s.vecs s.blocks with
        | .error e => .error e
        | .ok bs => .ok { s with w := w1, cellMats := cm, blocks := bs }

/-- `rem_cells_from_material` (JaliState.cc:144-155) -/
def remCells {V : Type} (_s : State V) (_m : Nat) (_cells : List Nat) : Except Err (State V) := .error .thrown

/-! ### Elements of vectors -/

/-- `operator[]` of a univalued vector (JaliStateVector.h:416-417) -/
def uniRead {V : Type} (s : State V) (v : Vec) (i : Nat) : Except Err V :=
  match s.blocks[v.data]? with
  | some (.uni l) =>
    match l[i]? with
    | some x => .ok x
    | none => .error .undefinedBehaviour
  | _ => .error .undefinedBehaviour

/-- assignment to `operator[]` of a univalued vector -/
def uniWrite {V : Type} (s : State V) (v : Vec) (i : Nat) (x : V) : Except Err (State V) :=
  match s.blocks[v.data]? with
  | some (.uni l) =>
    if i < l.length then .ok { s with blocks := s.blocks.set v.data (.uni (l.set i x)) }
    else .error .undefinedBehaviour
  | _ => .error .undefinedBehaviour

/-- `resize(n, val)` of a univalued vector (JaliStateVector.h:420-421) -/
def uniResize {V : Type} (s : State V) (v : Vec) (n : Nat) (x : V) : Except Err (State V) :=
  match s.blocks[v.data]? with
  | some (.uni l) => .ok { s with blocks := s.blocks.set v.data (.uni (resizeTo x l n)) }
  | _ => .error .undefinedBehaviour

/-- material and cell of the two arguments of `operator()` (JaliStateVector.h:890-891) -/
def matOf (i j : Nat) : Layout → Nat
  | .MATERIAL_CENTRIC => i
  | .CELL_CENTRIC => j

/-- see `matOf` -/
def cellOf (i j : Nat) : Layout → Nat
  | .MATERIAL_CENTRIC => j
  | .CELL_CENTRIC => i

/-- `(*mydata_)[m][cloc]` -/
def slot {V : Type} (l : List (List V)) (m : Nat) (cloc : Int) : Except Err V :=
  if cloc < 0 then .error .undefinedBehaviour
  else
    match elem l m cloc.toNat with
    | some x => .ok x
    | none => .error .undefinedBehaviour

/-- `operator()(i, j, layout) const` (JaliStateVector.h:888-902) -/
def multiRead {V : Type} (zero : V) (s : State V) (v : Vec) (i j : Nat) (layout : Layout) : Except Err V :=
  match cellIndexInMaterial s (cellOf i j layout) (matOf i j layout) with
  | .error e => .error e
  | .ok cloc =>
    if cloc ≠ -1 then
      match s.blocks[v.data]? with
      | some (.multi l) => slot l (matOf i j layout) cloc
      | _ => .error .undefinedBehaviour
    else .ok zero

/-- assignment to `operator()(i, j, layout)` (JaliStateVector.h:915-929) -/
def multiWrite {V : Type} (s : State V) (v : Vec) (i j : Nat) (layout : Layout) (x : V) : Except Err (State V) :=
  match cellIndexInMaterial s (cellOf i j layout) (matOf i j layout) with
  | .error e => .error e
  | .ok cloc =>
    if cloc = -1 then .error .thrown
    else
      match s.blocks[v.data]? with
      | some (.multi l) =>
        match slot l (matOf i j layout) cloc with
        | .error e => .error e
        | .ok _ =>
          .ok { s with
            blocks := s.blocks.set v.data
              (.multi (l.modify (matOf i j layout) fun row => row.set cloc.toNat x)) }
      | _ => .error .undefinedBehaviour

/-- `assign(layout, data)` with an array (JaliStateVector.h:766-788) -/
def multiAssign {V : Type} (s : State V) (v : Vec) (layout : Layout) (data : List (List V)) :
    Except Err (State V) :=
  match allCells s.w.heap s.mats with
  | .error e => .error e
  | .ok cells =>
    match s.blocks[v.data]? with
    | some (.multi _) =>
      match assignFrom layout data 0 cells with
      | .error e => .error e
      | .ok xs => .ok { s with blocks := s.blocks.set v.data (.multi xs) }
    | _ => .error .undefinedBehaviour

/-- `assign(initval)` (JaliStateVector.h:800-815) -/
def multiFill {V : Type} (s : State V) (v : Vec) (x : V) : Except Err (State V) :=
  match allCells s.w.heap s.mats with
  | .error e => .error e
  | .ok cells =>
    match s.blocks[v.data]? with
    | some (.multi _) => .ok { s with blocks := s.blocks.set v.data (.multi (assignValue x cells)) }
    | _ => .error .undefinedBehaviour

end Jali.St
