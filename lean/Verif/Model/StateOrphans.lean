import Verif.Model.State
/-
State vectors and the lifetime of the state manager. A vector refers to its manager by a `std::weak_ptr`
(src/statemanager/JaliStateVector.h:155) and to its data by a `std::shared_ptr` (JaliStateVector.h:431, 974): a vector object of
the program's own (a copy, or one assigned from the manager's) may be used after the manager is gone. `none` is an
expired `weak_ptr`. The references returned by `State::add` are to objects of the manager and dangle then; they are not
covered here. With NDEBUG the failed asserts are null pointer dereferences instead.
-/
namespace Jali.St
open Jali.MSet

/-- `state_get_num_materials` (JaliStateVector.cc:64-70) -/
def weakNumMaterials {V : Type} : Option (State V) → Nat
  | some s => numMaterials s
  | none => 0

/-- `state_get_material_set` (JaliStateVector.cc:72-79) with `material_set` (JaliState.h:145-147); `none` for `nullptr` (and
for an index out of range, never used so) -/
def weakMaterialSet {V : Type} (st : Option (State V)) (m : Nat) : Option Obj :=
  match st with
  | some s => matSet s m
  | none => none

/-- `mset->index_in_set(c)` of both versions of `operator()`, after the assert (JaliStateVector.h:892-896, 919-924) -/
def weakIndex {V : Type} (st : Option (State V)) (c m : Nat) : Except Err Int :=
  if m < weakNumMaterials st then
    match weakMaterialSet st m with
    | none => .error .undefinedBehaviour
    | some o =>
      match indexInSet o c with
      | .ok i => .ok i
      | .error e => .error (.set e)
  else .error .assertFailed

/-- `operator()(i, j, layout) const` (JaliStateVector.h:888-902) of a vector whose data block is among `blocks` -/
def weakRead {V : Type} (zero : V) (st : Option (State V)) (blocks : List (Block V)) (v : Vec) (i j : Nat)
    (layout : Layout) : Except Err V :=
  match weakIndex st (cellOf i j layout) (matOf i j layout) with
  | .error e => .error e
  | .ok cloc =>
    if cloc ≠ -1 then
      match blocks[v.data]? with
      | some (.multi l) => slot l (matOf i j layout) cloc
      | _ => .error .undefinedBehaviour
    else .ok zero

/-- `operator()(i, j, layout)` as the target of an assignment (JaliStateVector.h:915-929) -/
def weakWrite {V : Type} (st : Option (State V)) (blocks : List (Block V)) (v : Vec) (i j : Nat) (layout : Layout)
    (x : V) : Except Err (List (Block V)) :=
  match weakIndex st (cellOf i j layout) (matOf i j layout) with
  | .error e => .error e
  | .ok cloc =>
    if cloc = -1 then .error .thrown
    else
      match blocks[v.data]? with
      | some (.multi l) =>
        match slot l (matOf i j layout) cloc with
        | .error e => .error e
        | .ok _ => .ok (blocks.set v.data (.multi (l.modify (matOf i j layout) fun row => row.set cloc.toNat x)))
      | _ => .error .undefinedBehaviour

/-- the cells of the materials, as the loops of `assign` get them: `mset->entities()` for `m` from 0
(JaliStateVector.h:770-776, 804-810); a null set is undefined behaviour -/
def weakCells {V : Type} (st : Option (State V)) : Nat → List Nat → Except Err (List (List Nat))
  | _, [] => .ok []
  | m, _ :: ms =>
    match weakMaterialSet st m with
    | none => .error .undefinedBehaviour
    | some o =>
      match weakCells st (m + 1) ms with
      | .error e => .error e
      | .ok ls => .ok (entities o .ALL :: ls)

/-- `assign(initval)` (JaliStateVector.h:800-815): `mydata_->resize(nummats)`, then the rows one by one -/
def weakFill {V : Type} (st : Option (State V)) (blocks : List (Block V)) (v : Vec) (x : V) :
    Except Err (List (Block V)) :=
  match weakCells st 0 (List.range (weakNumMaterials st)) with
  | .error e => .error e
  | .ok cells =>
    match blocks[v.data]? with
    | some (.multi _) => .ok (blocks.set v.data (.multi (assignValue x cells)))
    | _ => .error .undefinedBehaviour

/-- `assign(layout, data)` with an array (JaliStateVector.h:766-788) -/
def weakAssign {V : Type} (st : Option (State V)) (blocks : List (Block V)) (v : Vec) (layout : Layout)
    (data : List (List V)) : Except Err (List (Block V)) :=
  match weakCells st 0 (List.range (weakNumMaterials st)) with
  | .error e => .error e
  | .ok cells =>
    match blocks[v.data]? with
    | some (.multi _) =>
      match assignFrom layout data 0 cells with
      | .error e => .error e
      | .ok xs => .ok (blocks.set v.data (.multi xs))
    | _ => .error .undefinedBehaviour

/-- `size()`, `size(m)`, `get_matdata(m)` (JaliStateVector.h:835-841, 932-935): the rows themselves -/
def rows {V : Type} (blocks : List (Block V)) (v : Vec) : Option (List (List V)) :=
  match blocks[v.data]? with
  | some (.multi l) => some l
  | _ => none

/-- the elements of a univalued vector, as all its members see them (JaliStateVector.h:381-427) -/
def elements {V : Type} (blocks : List (Block V)) (v : Vec) : Option (List V) :=
  match blocks[v.data]? with
  | some (.uni l) => some l
  | _ => none

end Jali.St
