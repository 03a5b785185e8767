import Verif.Model.MstkSets
import Verif.Spec.MstkExtract
/-
What a user can say about labeled sets. No algorithm of the model is used here, only the answers of the query.
-/
namespace Jali.Mstk

variable {α : Type}

/-- the query for the labeled set `r` of entities of kind `k` answers, and `i` is among the answers -/
def Source.InSet (s : Source α) (sets : List (MstkSet s.j.m)) (r : Rgn) (k : EntityKind) (i : Nat) : Prop :=
  ∃ own gh, s.labeledEntities sets r k = .made (own, gh) ∧ (i ∈ own ∨ i ∈ gh)

/-- a labeled set of entities of kind `k`, in the long spelling of the kind -/
def Rgn.Long (r : Rgn) (k : EntityKind) (label : String) : Prop :=
  (k = .CELL ∧ r.labeled = some ("Entity_kind::CELL", label)) ∨ (k = .FACE ∧ r.labeled = some ("Entity_kind::FACE", label)) ∨
  (k = .NODE ∧ r.labeled = some ("Entity_kind::NODE", label))

/-- the same in the short spelling -/
def Rgn.Short (r : Rgn) (k : EntityKind) (label : String) : Prop :=
  (k = .CELL ∧ r.labeled = some ("CELL", label)) ∨ (k = .FACE ∧ r.labeled = some ("FACE", label)) ∨
  (k = .NODE ∧ r.labeled = some ("NODE", label))

/-- a region that is asked for with its own kind, in one of the spellings -/
def Rgn.Asked (r : Rgn) (k : EntityKind) (label : String) : Prop := r.Long k label ∨ r.Short k label

/-- the entities of the set are of the dimension of the set -/
def MstkSet.Of {m : MMesh} (t : MstkSet m) (d : MType) : Prop := t.dim = d ∧ ∀ e ∈ t.ents, e.dim = d

/-- what MSTK makes of a file: blocks and element sets have cells, side sets have faces, node sets have nodes -/
structure FileSets {m : MMesh} (dim3 : Bool) (sets : List (MstkSet m)) : Prop where
  block : ∀ t ∈ sets, ∀ l, t.name = "matset_" ++ l → t.Of (if dim3 then .region else .face)
  element : ∀ t ∈ sets, ∀ l, t.name = "elemset_" ++ l → t.Of (if dim3 then .region else .face)
  side : ∀ t ∈ sets, ∀ l, t.name = "sideset_" ++ l → t.Of (if dim3 then .face else .edge)
  node : ∀ t ∈ sets, ∀ l, t.name = "nodeset_" ++ l → t.Of .vertex

/-- no set of this name -/
def NoSet {m : MMesh} (sets : List (MstkSet m)) (n : String) : Prop := ∀ t ∈ sets, t.name ≠ n

/-- the lists of ids of the entities of a kind -/
def Source.idsOf (s : Source α) : EntityKind → Option IdLists
  | .CELL => some (if s.dim3 then s.j.m.cellIds3 s.j.bg else s.j.m.cellIds2 s.j.bg)
  | .FACE => some (if s.dim3 then s.j.m.faceIds3 else s.j.m.edgeIds)
  | .NODE => some s.j.m.nodeIds
  | _ => none

/-- the owned entities that the query gives for the region of a name -/
def Source.ownedOf (s : Source α) (sets : List (MstkSet s.j.m)) (gm : List Rgn) (k : EntityKind) (name : String) : List Nat :=
  match findRgn gm name with
  | none => []
  | some r => match s.labeledEntities sets r k with
    | .made p => p.1
    | _ => []

end Jali.Mstk
