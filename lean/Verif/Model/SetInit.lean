import Verif.Model.SetRegistry
/-
Model of the initialisation of mesh sets from the geometric model and of the region queries
(src/mesh/Mesh.cc:2356-2455, 2503-2590).
-/
namespace Jali.Reg
open Jali.MSet

/-- `str_to_kind.at(entity_type.substr(pos))` where `pos` is behind the last "::" (Mesh.cc:2376-2380, 2394-2396):
`none` is the exception of `at`. Simplified: of the strings with a prefix only those with prefix "Entity_kind" are
accepted (any other prefix passes here but is rejected when the set is built). -/
def labelKind (s : String) : Option EntityKind :=
  if s = "CELL" ∨ s = "Entity_kind::CELL" then some .CELL
  else if s = "FACE" ∨ s = "Entity_kind::FACE" then some .FACE
  else if s = "EDGE" ∨ s = "Entity_kind::EDGE" then some .EDGE
  else if s = "NODE" ∨ s = "Entity_kind::NODE" then some .NODE
  else none

/-- default entity kinds of a region (Mesh.cc:2415-2420); `gdim` is the dimension of the geometric model -/
def defaultKinds {P K : Type} [Field K] [LinearOrder K] (g : Geo P K) (gdim : Nat) (r : Region P) : List EntityKind :=
  (if r.dim = gdim then [.CELL] else []) ++
  ((if g.facesRequested && decide (gdim - 1 ≤ r.dim) then [.FACE] else []) ++ [.NODE])

/-- the loop over the components of a logical region (Mesh.cc:2431-2448): the kind of the first component that is a
labeled set, if there is one -/
def labeledKind {P : Type} (gm : List (Region P)) : List String → Except Err (Option EntityKind)
  | [] => .ok none
  | n :: ns =>
    match findRegion gm n with
    | none => .error .assertFailed
    | some r =>
      if r.type = .LABELEDSET then
        match labelKind r.entityStr with
        | none => .error .thrown
        | some k => .ok (some k)
      else labeledKind gm ns

/-- the kinds to build a region for (Mesh.cc:2410-2449); `req` is the map given by the caller -/
def kindsFor {P K : Type} [Field K] [LinearOrder K] (g : Geo P K) (gm : List (Region P)) (gdim : Nat) (req : String → Option (List EntityKind))
    (r : Region P) : Except Err (List EntityKind) :=
  if r.type = .LOGICAL then
    match labeledKind gm r.comps with
    | .error e => .error e
    | .ok (some k) => .ok [k]
    | .ok none => .ok ((req r.name).getD (defaultKinds g gdim r))
  else .ok ((req r.name).getD (defaultKinds g gdim r))

/-- `for (kind : entity_kinds) build_set_from_region(name, kind, false)` (Mesh.cc:2451-2452) -/
def buildKinds {P K : Type} [Field K] [LinearOrder K] (g : Geo P K) (gm : List (Region P)) (depth : Nat) (name : String) :
    List EntityKind → World → Except Err World
  | [], w => .ok w
  | k :: ks, w =>
    match build g gm depth w name k false with
    | .error e => .error e
    | .ok (_, w') => buildKinds g gm depth name ks w'

/-- one region of the loop (Mesh.cc:2385-2453) -/
def initRegion {P K : Type} [Field K] [LinearOrder K] (g : Geo P K) (gm : List (Region P)) (depth gdim : Nat)
    (req : String → Option (List EntityKind)) (r : Region P) (w : World) : Except Err World :=
  if r.type = .LABELEDSET then
    match labelKind r.entityStr with
    | none => .error .thrown
    | some k => if (findMeshset w r.name k).isSome then .ok w else buildKinds g gm depth r.name [k] w
  else
    if (findMeshset w r.name .CELL).isSome then .ok w
    else
      match kindsFor g gm gdim req r with
      | .error e => .error e
      | .ok ks => buildKinds g gm depth r.name ks w

/-- the loop over regions `rs` of the geometric model `gm` -/
def initRegions {P K : Type} [Field K] [LinearOrder K] (g : Geo P K) (gm : List (Region P)) (depth gdim : Nat)
    (req : String → Option (List EntityKind)) : List (Region P) → World → Except Err World
  | [], w => .ok w
  | r :: rs, w =>
    match initRegion g gm depth gdim req r w with
    | .error e => .error e
    | .ok w' => initRegions g gm depth gdim req rs w'

/-- `Mesh::init_sets_from_geometric_model` (Mesh.cc:2370-2454) -/
def initSets {P K : Type} [Field K] [LinearOrder K] (g : Geo P K) (gm : List (Region P)) (depth gdim : Nat)
    (req : String → Option (List EntityKind)) (w : World) : Except Err World :=
  initRegions g gm depth gdim req gm w

/-- `Mesh::valid_region_name` (Mesh.cc:2503-2553); `mdim` is the manifold dimension -/
def validRegionName {P : Type} (mdim : Nat) (name : String) (kind : EntityKind) : List (Region P) → Bool
  | [] => false
  | r :: rs =>
    if r.name = name then
      if r.type = .COLORFUNCTION then true
      else if r.type = .LABELEDSET then
        (kind = .CELL && r.entityStr = "CELL") || (kind = .FACE && r.entityStr = "FACE") ||
        (kind = .EDGE && r.entityStr = "EDGE") || (kind = .NODE && r.entityStr = "NODE")
      else if kind = .CELL ∧ (mdim ≤ r.dim ∨ r.dim = 0) then true
      else if kind = .FACE ∧ mdim - 1 ≤ r.dim then true
      else if kind = .NODE then true
      else validRegionName mdim name kind rs
    else validRegionName mdim name kind rs

/-- `Mesh::find_meshset_from_region(name, kind, create_if_missing)` (Mesh.cc:2558-2575) -/
def findFromRegion {P K : Type} [Field K] [LinearOrder K] (g : Geo P K) (gm : List (Region P)) (depth mdim : Nat) (w : World) (name : String)
    (kind : EntityKind) (create : Bool) : Except Err (Option Nat × World) :=
  if validRegionName mdim name kind gm then
    match findMeshset w name kind with
    | some a => .ok (some a, w)
    | none => if create then build g gm depth w name kind true else .ok (none, w)
  else .ok (none, w)

end Jali.Reg
