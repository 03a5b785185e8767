import Verif.Model.SetRegistry
import Verif.Spec.MeshSet
/-! Vocabulary for the mesh set registry and region properties C35, C36, C73, C74. -/
namespace Jali.Reg
open Jali.MSet

/-- Membership of entity `e` in a geometric region, for the kinds and region types where it is defined directly by the
position of the entity: centroid in a box; all corners on a plane or in a polygon; node in a region. -/
def InRegion {P K : Type} [Field K] [LinearOrder K] (g : Geo P K) (w : World) (kind : EntityKind) (r : Region P) (e : Nat) : Prop :=
  e < (w.view kind).nAll ∧
  match kind, r.type with
  | .CELL, .BOX => r.inside (g.cellCentroid e) = true
  | .CELL, .PLANE => g.celldim = 2 ∧ ∀ x ∈ g.cellCoords e, r.inside x = true
  | .FACE, .BOX => r.inside (g.faceCentroid e) = true
  | .FACE, .PLANE => ∀ x ∈ g.faceCoords e, r.inside x = true
  | .FACE, .POLYGON => ∀ x ∈ g.faceCoords e, r.inside x = true
  | .NODE, .BOX => r.inside (g.nodeCoord e) = true
  | .NODE, .PLANE => r.inside (g.nodeCoord e) = true
  | .NODE, .POLYGON => r.inside (g.nodeCoord e) = true
  | _, _ => False

/-- kinds and types covered by `InRegion` -/
def Positional (kind : EntityKind) (t : RegionType) : Bool :=
  match kind, t with
  | .CELL, .BOX | .CELL, .PLANE | .FACE, .BOX | .FACE, .PLANE | .FACE, .POLYGON
  | .NODE, .BOX | .NODE, .PLANE | .NODE, .POLYGON => true
  | _, _ => false

/-- `D n e`: entity `e` belongs to the region named `n`. A *meaning* of a geometric model for one kind of entity
satisfies the defining equation of each region: a logical region is the union, intersection, difference or complement
of its components; any other region is what the mesh finds in it. -/
structure Meaning {P K : Type} [Field K] [LinearOrder K] (g : Geo P K) (gm : List (Region P)) (w : World) (kind : EntityKind)
    (D : String → Nat → Prop) : Prop where
  union : ∀ n r, findRegion gm n = some r → r.type = .LOGICAL → r.op = .UNION →
    ∀ e, D n e ↔ ∃ c ∈ r.comps, D c e
  inter : ∀ n r, findRegion gm n = some r → r.type = .LOGICAL → r.op = .INTERSECT →
    ∀ e, D n e ↔ ∀ c ∈ r.comps, D c e
  diff : ∀ n r c cs, findRegion gm n = some r → r.type = .LOGICAL → r.op = .SUBTRACT → r.comps = c :: cs →
    ∀ e, D n e ↔ D c e ∧ ∀ c' ∈ cs, ¬ D c' e
  compl : ∀ n r, findRegion gm n = some r → r.type = .LOGICAL → r.op = .COMPLEMENT →
    ∀ e, D n e ↔ e < (w.view kind).nAll ∧ ∀ c ∈ r.comps, ¬ D c e
  prim : ∀ n r o h, findRegion gm n = some r → r.type ≠ .LOGICAL → regionLists g w kind r = .ok (some (o, h)) →
    ∀ e, D n e ↔ e ∈ o ∨ e ∈ h

/-- The mesh and the geometric model fit together: entities are numbered owned-first; the cells around a node and
the entities with a label are entities of the mesh, listed once, owned and ghost apart. -/
structure Fits {P K : Type} [Field K] [LinearOrder K] (g : Geo P K) (gm : List (Region P)) (w : World) (kind : EntityKind) : Prop where
  ownedFirst : (∀ e, (w.view kind).typeOf e = .PARALLEL_OWNED ↔ e < (w.view kind).nOwned) ∧
    (∀ e, (w.view kind).typeOf e = .PARALLEL_GHOST ↔ (w.view kind).nOwned ≤ e ∧ e < (w.view kind).nAll)
  nodeCells : kind = .CELL → ∀ n, (g.nodeCells n).Nodup ∧ ∀ c ∈ g.nodeCells n, c < (w.view kind).nAll
  labeled : ∀ r ∈ gm, r.type = .LABELEDSET → regionLists g w kind r = .ok (some r.labeled) → (r.labeled.1 ++ r.labeled.2).Nodup ∧
    (∀ e ∈ r.labeled.1, e < (w.view kind).nOwned) ∧
    ∀ e ∈ r.labeled.2, (w.view kind).nOwned ≤ e ∧ e < (w.view kind).nAll

/-- Logical regions for which the set is the combination of the component sets and the component sets keep their
names: no union of a single component, no difference in which the first component is named again, complement only
without ghosts. -/
structure Sane {P : Type} (gm : List (Region P)) (w : World) (kind : EntityKind) : Prop where
  union : ∀ r ∈ gm, r.type = .LOGICAL → r.op = .UNION → r.comps.length ≠ 1
  diff : ∀ r ∈ gm, ∀ c cs, r.type = .LOGICAL → r.op = .SUBTRACT → r.comps = c :: cs → c ∉ cs
  compl : ∀ r ∈ gm, r.type = .LOGICAL → r.op = .COMPLEMENT → (w.view kind).nGhost = 0

/-- The registry is in order for a kind: registered addresses are in the store, every set of the store is a proper
set of the mesh, and a registered set that carries the name of a region holds exactly that region's
entities. -/
structure InOrder {P : Type} (gm : List (Region P)) (w : World) (kind : EntityKind) (D : String → Nat → Prop) :
    Prop where
  reg : ∀ a ∈ w.reg, a < w.heap.length
  proper : ∀ s ∈ w.heap, s.mesh = 0 ∧ (s.kind = kind → Proper (w.view kind) s)
  holds : ∀ a ∈ w.reg, ∀ s, w.heap[a]? = some s → s.kind = kind → (∃ r, findRegion gm s.name = some r) →
    ∀ e, e ∈ s.all ↔ D s.name e

/-- The set of region `n` can be made: the region exists and can be evaluated for the kind; if it is logical it has
an operation and enough components, and these can be made too, with logical regions nested at most `d` deep. -/
inductive Ready {P K : Type} [Field K] [LinearOrder K] (g : Geo P K) (gm : List (Region P)) (w : World) (kind : EntityKind) : Nat → String → Prop
  | prim (d n r l) : findRegion gm n = some r → r.type ≠ .LOGICAL → regionLists g w kind r = .ok (some l) →
      Ready g gm w kind d n
  | logical (d n r) : findRegion gm n = some r → r.type = .LOGICAL → r.op ≠ .NOBOOLEAN → r.comps ≠ [] →
      (r.op = .SUBTRACT → 2 ≤ r.comps.length) → (∀ c ∈ r.comps, Ready g gm w kind d c) →
      Ready g gm w kind (d + 1) n

/-- the set at address `a` has the name and the kind -/
def Named (w : World) (a : Nat) (n : String) (k : EntityKind) : Prop :=
  ∃ s, w.heap[a]? = some s ∧ s.name = n ∧ s.kind = k

/-- a request to make a set -/
structure Make where
  name : String
  kind : EntityKind
  owned : List Nat
  ghost : List Nat
  reverseMap : Bool

/-- a history of sets made one after the other -/
def runMakes : List Make → World → Except Err World
  | [], w => .ok w
  | m :: ms, w =>
    match makeMeshset w m.name m.kind m.owned m.ghost m.reverseMap with
    | .error e => .error e
    | .ok (_, w') => runMakes ms w'

end Jali.Reg
