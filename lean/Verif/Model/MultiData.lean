import Verif.Model.State
/-
Direct access to the values of one material of a multi-material vector: `get_raw_data(m)`, `get_matdata(m)`, `begin(m)`, `end(m)`,
`size`, `resize`, `clear` (JaliStateVector.h:821-860, 932-949). A row is the list of its values; an iterator or pointer is a position in
it. `get_raw_data()` without a material does not compile when used (a `std::vector<T>*` is not a `T*`) and is not modelled.
-/
namespace Jali.St
variable {V : Type}

/-- `*mydata_` -/
def multiRows (s : State V) (v : Vec) : Except Err (List (List V)) :=
  match s.blocks[v.data]? with
  | some (.multi l) => .ok l
  | _ => .error .undefinedBehaviour

/-- `size()` (JaliStateVector.h:932) -/
def multiSize (s : State V) (v : Vec) : Except Err Nat :=
  match multiRows s v with
  | .ok l => .ok l.length
  | .error e => .error e

/-- `get_matdata(m)` (JaliStateVector.h:839-843); also the range from `begin(m)` to `end(m)` (857-860) -/
def matData (s : State V) (v : Vec) (m : Nat) : Except Err (List V) :=
  match multiRows s v with
  | .error e => .error e
  | .ok l =>
    match l[m]? with
    | some row => .ok row
    | none => .error .undefinedBehaviour

/-- `size(m)` (JaliStateVector.h:935) -/
def matSize (s : State V) (v : Vec) (m : Nat) : Except Err Nat :=
  match matData s v m with
  | .ok row => .ok row.length
  | .error e => .error e

/-- reading `get_raw_data(m)[k]`, `get_matdata(m)[k]` or `*(begin(m) + k)` (JaliStateVector.h:827-833) -/
def matGet (s : State V) (v : Vec) (m k : Nat) : Except Err V :=
  match matData s v m with
  | .error e => .error e
  | .ok row =>
    match row[k]? with
    | some x => .ok x
    | none => .error .undefinedBehaviour

/-- a change of the row of a material -/
def onRow (s : State V) (v : Vec) (m : Nat) (f : List V → List V) : Except Err (State V) :=
  match multiRows s v with
  | .error e => .error e
  | .ok l =>
    match l[m]? with
    | some row => .ok { s with blocks := s.blocks.set v.data (.multi (l.set m (f row))) }
    | none => .error .undefinedBehaviour

/-- writing `get_raw_data(m)[k] = x`, `get_matdata(m)[k] = x` or `*(begin(m) + k) = x` -/
def matPut (s : State V) (v : Vec) (m k : Nat) (x : V) : Except Err (State V) :=
  match matGet s v m k with
  | .error e => .error e
  | .ok _ => onRow s v m fun row => row.set k x

/-- `resize(m, n, val)` (JaliStateVector.h:941-943); `resize(m, n)` (938) is `resize(m, n, 0)` -/
def matResize (s : State V) (v : Vec) (m n : Nat) (x : V) : Except Err (State V) := onRow s v m fun row => resizeTo x row n

/-- `clear(m)` (JaliStateVector.h:949) -/
def matClear (s : State V) (v : Vec) (m : Nat) : Except Err (State V) := onRow s v m fun _ => []

/-- `clear()` (JaliStateVector.h:946) -/
def multiClear (s : State V) (v : Vec) : Except Err (State V) :=
  match multiRows s v with
  | .error e => .error e
  | .ok _ => .ok { s with blocks := s.blocks.set v.data (.multi []) }

end Jali.St
