import Mathlib.Logic.Relation
import Verif.Model.MstkCollapse
import Verif.Spec.MstkSets
/-
What a user can say about a mesh after edges of length zero have been collapsed. The functions of the model are not used, only the
input and what comes out.
-/
namespace Jali.Mstk

variable {E : Type} [DecidableEq E]

omit [DecidableEq E] in
/-- what MSTK and the file reader give: a merged entity is marked as deleted, it is merged once and with an entity of the same
dimension; a set has entities of its dimension, each once -/
structure Part.Sane (p : Part E) : Prop where
  marked : ∀ q ∈ p.merged, q.1 ∈ p.deleted
  once : (p.merged.map Prod.fst).Nodup
  same : ∀ q ∈ p.merged, p.dim q.1 = p.dim q.2
  sets : ∀ s ∈ p.sets, s.ents.Nodup ∧ ∀ e ∈ s.ents, p.dim e = s.dim

/-- `y` stands for `x` after the collapse: `x` was merged with `y`, perhaps in several steps, and `y` is still there -/
def Part.StandsFor (p : Part E) (x y : E) : Prop := Relation.ReflTransGen (fun a b => (a, b) ∈ p.merged) x y ∧ y ∉ p.deleted

/-- the sets after the collapse are the sets before it: what stands for the entities, each once -/
def SetsKept (p : Part E) (after : List (ESet E)) : Prop :=
  List.Forall₂ (fun s t => t.name = s.name ∧ t.dim = s.dim ∧ (∀ y, y ∈ t.ents ↔ ∃ x ∈ s.ents, p.StandsFor x y) ∧ t.ents.Nodup) p.sets after

/-- the global id of an entity of dimension `t` was taken over by another one on some rank -/
def Merges (ps : List (Part E)) (t : MType) (g h : Int) : Prop :=
  ∃ p ∈ ps, ∃ q ∈ p.merged, p.dim q.1 = t ∧ p.gid q.1 = g ∧ p.gid q.2 = h

/-- no entity of dimension `t` with this global id has been merged away on any rank -/
def Alive (ps : List (Part E)) (t : MType) (g : Int) : Prop := ∀ h, ¬ Merges ps t g h

/-- the ghost `e` of a rank has the global id of the entity that stands for it -/
def GhostKept (ps : List (Part E)) (p : Part E) (gid : E → Int) (e : E) : Prop :=
  Relation.ReflTransGen (Merges ps (p.dim e)) (p.gid e) (gid e) ∧ Alive ps (p.dim e) (gid e)

/-- the sets for which the region asks have entities of the kind of the region -/
def Agrees {m : MMesh} (dim3 : Bool) (sets : List (MstkSet m)) (r : Rgn) : Prop :=
  ∀ k label, r.Asked k label → ∀ t ∈ sets,
    t.name = (match k with | .CELL => "matset_" | .FACE => "sideset_" | _ => "nodeset_") ++ label → kindToMtype dim3 k = some t.dim

end Jali.Mstk
