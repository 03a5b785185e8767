import Verif.Model.State
import Verif.Spec.MeshSet
/-! Vocabulary for the state manager properties C38 – C44. -/
namespace Jali.St
open Jali.MSet

/-- Everything a program can do with a state manager and its vectors. `handle` arguments are vectors the program holds
(from `add`, `get`, copies). -/
inductive Op (V : Type)
  | add (r : Req V)
  | addCopy (handle : Vec)
  | addMaterial (name : String) (cells : List Nat)
  | addCells (m : Nat) (cells : List Nat)
  | remMaterial (m : Nat)
  | remMaterialByName (name : String)
  | copy (handle : Vec)
  | uniWrite (handle : Vec) (i : Nat) (x : V)
  | uniResize (handle : Vec) (n : Nat) (x : V)
  | multiWrite (handle : Vec) (i j : Nat) (layout : Layout) (x : V)
  | multiAssign (handle : Vec) (layout : Layout) (data : List (List V))
  | multiFill (handle : Vec) (x : V)

/-- The number of entities of each domain, by kind and type. -/
abbrev Count := Domain → EntityKind → EntityType → Nat

/-- forget the position an operation returns -/
def noPos {V : Type} : Except Err (State V) → Except Err (Option Nat × State V)
  | .ok s => .ok (none, s)
  | .error e => .error e

/-- keep the position an operation returns -/
def withPos {V : Type} : Except Err (Nat × State V) → Except Err (Option Nat × State V)
  | .ok (i, s) => .ok (some i, s)
  | .error e => .error e

/-- the state after a copy -/
def copied {V : Type} : Except Err (Vec × State V) → Except Err (Option Nat × State V)
  | .ok (_, s) => .ok (none, s)
  | .error e => .error e

/-- Run one operation. For `add` also the position (in the list of state vectors) of the vector it returns. -/
def Op.run {V : Type} (zero : V) (count : Count) (s : State V) : Op V → Except Err (Option Nat × State V)
  | .add r => withPos (St.add zero count s r)
  | .addCopy v => withPos (St.addCopy zero count s v)
  | .addMaterial n cs => noPos (St.addMaterial zero s n cs)
  | .addCells m cs => noPos (St.addCells zero s m cs)
  | .remMaterial m => noPos (St.remMaterial s m)
  | .remMaterialByName n => noPos (St.remMaterialByName s n)
  | .copy v => copied (St.copyVec s v)
  | .uniWrite v i x => noPos (St.uniWrite s v i x)
  | .uniResize v n x => noPos (St.uniResize s v n x)
  | .multiWrite v i j l x => noPos (St.multiWrite s v i j l x)
  | .multiAssign v l d => noPos (St.multiAssign s v l d)
  | .multiFill v x => noPos (St.multiFill s v x)

/-- Run a history: the positions returned by the operations, and the final state. -/
def run {V : Type} (zero : V) (count : Count) : State V → List (Op V) → Except Err (List (Option Nat) × State V)
  | s, [] => .ok ([], s)
  | s, o :: os =>
    match o.run zero count s with
    | .error e => .error e
    | .ok (p, s1) =>
      match run zero count s1 os with
      | .error e => .error e
      | .ok (ps, s2) => .ok (p :: ps, s2)

/-- What identifies a state vector. -/
structure Ident where
  name : String
  domain : Domain
  kind : EntityKind
  type : EntityType
  vectype : VecType
  ty : Nat
deriving DecidableEq

/-- identity of a vector -/
def Vec.ident (v : Vec) : Ident := ⟨v.name, v.domain, v.kind, v.type, v.vectype, v.ty⟩

/-- The identity under which an operation asks to add a vector. -/
def Op.asks {V : Type} : Op V → Option Ident
  | .add r => some ⟨r.name, r.domain, r.kind, r.type, r.vt, r.ty⟩
  | .addCopy v => some v.ident
  | _ => none

/-- A look-up: name, kind (`ANY_KIND` for any), type (`ALL` for any), and optionally the domain, the class and the
element type. -/
structure Query where
  name : String
  kind : EntityKind
  type : EntityType
  domain : Option Domain := none
  vectype : Option VecType := none
  ty : Option Nat := none

/-- does a vector of this identity answer the query? -/
def Query.wants (q : Query) (i : Ident) : Bool :=
  decide (i.name = q.name) && decide (q.kind = .ANY_KIND ∨ i.kind = q.kind) &&
    decide (q.type = .ALL ∨ i.type = q.type) && decide (∀ d ∈ q.domain, i.domain = d) &&
    decide (∀ t ∈ q.vectype, i.vectype = t) && decide (∀ t ∈ q.ty, i.ty = t)

/-- does an operation ask to add a vector that answers the query? -/
def Op.offers {V : Type} (q : Query) (o : Op V) : Bool :=
  match o.asks with
  | some i => q.wants i
  | none => false

/-- The vector returned by the first `add` of the history that offers what the query wants (its position in the list of
state vectors), if any. -/
def firstOffered {V : Type} (q : Query) (ops : List (Op V)) (ps : List (Option Nat)) : Option Nat :=
  match ops.findIdx? (fun o => o.offers q) with
  | some j => (ps[j]?).join
  | none => none

/-- No vector of another mesh is added by copy. -/
def NoForeignCopies {V : Type} (mesh : Nat) (ops : List (Op V)) : Prop :=
  ∀ v, Op.addCopy v ∈ ops → v.domain = .mesh mesh

/-- operations that add a vector through the overloads taking a single value or an existing vector -/
def Op.byValue {V : Type} : Op V → Bool
  | .add r => match r.init with
    | .value _ => true
    | _ => false
  | .addCopy _ => true
  | _ => false

/-- operations that add a vector -/
def Op.isAdd {V : Type} (o : Op V) : Bool := o.asks.isSome

/-- the vector an operation writes through -/
def Op.target {V : Type} : Op V → Option Vec
  | .uniWrite v _ _ => some v
  | .uniResize v _ _ => some v
  | .multiWrite v _ _ _ _ => some v
  | .multiAssign v _ _ => some v
  | .multiFill v _ => some v
  | _ => none

/-- operations that change the materials -/
def Op.onMaterials {V : Type} : Op V → Bool
  | .addMaterial _ _ => true
  | .addCells _ _ => true
  | .remMaterial _ => true
  | .remMaterialByName _ => true
  | _ => false

/-- all the data of a vector -/
def content {V : Type} (s : State V) (v : Vec) : Option (Block V) := s.blocks[v.data]?

end Jali.St
