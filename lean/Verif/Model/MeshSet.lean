import Verif.Model.MeshDefs
/-
Model of class `MeshSet` (src/mesh/MeshSet.hh, src/mesh/MeshSet.cc).

Entity ids are `Nat` (the code uses `int` ids ≥ 0). Undefined behaviour (writes and reads past a vector, an iterator
of another vector) and failed `assert`s are error outcomes. Memory reservation is dropped. A `shared_ptr<MeshSet>`
is an address together with the object it points to.
-/
namespace Jali.MSet

inductive Err
  | assertFailed
  | undefinedBehaviour
deriving DecidableEq, Repr

/-- What the mesh tells the set (MeshSet.cc:96, 108, 134, 180, 498-501): the type of each entity of the set's kind,
and the number of owned and ghost entities. `num_entities(kind, ALL)` is their sum. -/
structure MeshView where
  typeOf : Nat → EntityType
  nOwned : Nat
  nGhost : Nat

/-- `num_entities(kind, Entity_type::ALL)` -/
def MeshView.nAll (m : MeshView) : Nat := m.nOwned + m.nGhost

/-- Data members (MeshSet.hh:309-318). `mesh` and `kind` identify the parent mesh and the entity kind;
`dummylist_` is always empty and dropped. -/
structure Obj where
  name : String
  mesh : Nat
  kind : EntityKind
  owned : List Nat
  ghost : List Nat
  all : List Nat
  haveMap : Bool
  map : List Int
deriving DecidableEq

/-- `mesh2subset_[e] = i` -/
def writeMap (map : List Int) (e : Nat) (i : Int) : Except Err (List Int) :=
  if e < map.length then .ok (map.set e i) else .error .undefinedBehaviour

/-- `for i in is: mesh2subset_[entityids_all_[i]] = i` (MeshSet.cc:98-99, 214-215, 220-221, 276-277). -/
def indexLoop (all : List Nat) : List Nat → List Int → Except Err (List Int)
  | [], map => .ok map
  | i :: is, map =>
    match all[i]? with
    | none => .error .undefinedBehaviour
    | some e =>
      match writeMap map e i with
      | .error x => .error x
      | .ok map' => indexLoop all is map'

/-- Constructor (MeshSet.cc:77-102). -/
def construct (m : MeshView) (name : String) (mesh : Nat) (kind : EntityKind) (owned ghost : List Nat)
    (buildReverseMap : Bool) : Except Err Obj :=
  let all := owned ++ ghost
  if buildReverseMap then
    match indexLoop all (List.range all.length) (List.replicate m.nAll (-1)) with
    | .error x => .error x
    | .ok map => .ok ⟨name, mesh, kind, owned, ghost, all, true, map⟩
  else .ok ⟨name, mesh, kind, owned, ghost, all, false, []⟩

/-- `entities<type>()` (MeshSet.hh:202-212) -/
def entities (s : Obj) : EntityType → List Nat
  | .PARALLEL_OWNED => s.owned
  | .PARALLEL_GHOST => s.ghost
  | .ALL => s.all
  | _ => []

/-- `num_entities(type)` (MeshSet.hh:170-179) -/
def numEntities (s : Obj) : EntityType → Nat
  | .PARALLEL_OWNED => s.owned.length
  | .PARALLEL_GHOST => s.ghost.length
  | .ALL => s.all.length
  | _ => 0

/-- `index_in_set` (MeshSet.hh:217-219) -/
def indexInSet (s : Obj) (e : Nat) : Except Err Int :=
  if s.map.length ≠ 0 then
    match s.map[e]? with
    | some i => .ok i
    | none => .error .undefinedBehaviour
  else .ok (-1)

/-- `if (have_reverse_map_) mesh2subset_[e] = i` -/
def updMap (s : Obj) (e : Nat) (i : Int) : Except Err Obj :=
  if s.haveMap then
    match writeMap s.map e i with
    | .error x => .error x
    | .ok map => .ok { s with map := map }
  else .ok s

/-- `add_entity` (MeshSet.cc:107-128). `entityids_all_.insert(begin()+nowned_old, …)` needs
`nowned_old ≤ size`. -/
def addEntity (m : MeshView) (s : Obj) (e : Nat) : Except Err Obj :=
  if m.typeOf e = .PARALLEL_OWNED then
    let nownedOld := s.owned.length
    if nownedOld ≤ s.all.length then
      updMap { s with owned := s.owned ++ [e], all := s.all.insertIdx nownedOld e } e nownedOld
    else .error .undefinedBehaviour
  else if m.typeOf e = .PARALLEL_GHOST then
    updMap { s with ghost := s.ghost ++ [e], all := s.all ++ [e] } e ((s.all.length : Int) + 1 - 1)
  else .ok s

/-- "replace mesh_entity with last entry" then `resize(size-1)`, when it is found (MeshSet.cc:137-144,
146-153, 158-164). -/
def swapRemove (l : List Nat) (e : Nat) : List Nat :=
  if e ∈ l then
    match l.getLast? with
    | some z => (l.set (l.idxOf e) z).take (l.length - 1)
    | none => l
  else l

/-- `rem_entity` (MeshSet.cc:133-168) -/
def remEntity (m : MeshView) (s : Obj) (e : Nat) : Except Err Obj :=
  if m.typeOf e = .PARALLEL_OWNED then
    updMap { s with owned := swapRemove s.owned e, all := swapRemove s.all e } e (-1)
  else if m.typeOf e = .PARALLEL_GHOST then
    updMap { s with ghost := swapRemove s.ghost e, all := swapRemove s.all e } e (-1)
  else .ok s

/-- the loop `for (e : in_entities) add_entity(e)` (MeshSet.cc:194-195) -/
def addEach (m : MeshView) : List Nat → Obj → Except Err Obj
  | [], s => .ok s
  | e :: es, s =>
    match addEntity m s e with
    | .error x => .error x
    | .ok s' => addEach m es s'

/-- number of entities of a type in a list, the counting loop (MeshSet.cc:179-185) -/
def countType (m : MeshView) (l : List Nat) (t : EntityType) : Nat := l.countP fun e => m.typeOf e = t

/-- First part of `add_entities` (MeshSet.cc:186-195): the three cases. The all-ghost case inserts into the
owned vector at an iterator of the ghost vector. -/
def addLists (m : MeshView) (s : Obj) (es : List Nat) : Except Err Obj :=
  if es.length = countType m es .PARALLEL_OWNED then .ok { s with owned := s.owned ++ es }
  else if es.length = countType m es .PARALLEL_GHOST then .error .undefinedBehaviour
  else addEach m es s

/-- `add_entities` (MeshSet.cc:173-225) -/
def addEntities (m : MeshView) (s : Obj) (es : List Nat) : Except Err Obj :=
  let nownedOld := s.owned.length
  let nghostOld := s.ghost.length
  let nowned := countType m es .PARALLEL_OWNED
  let nghost := countType m es .PARALLEL_GHOST
  match addLists m s es with
  | .error x => .error x
  | .ok s1 =>
    let s2 := if s1.ghost.length ≠ 0 then { s1 with all := s1.owned ++ s1.ghost }
              else { s1 with all := es ++ s1.all }
    if s2.haveMap then
      match indexLoop s2.all ((List.range nowned).map (nownedOld + ·)) s2.map with
      | .error x => .error x
      | .ok map1 =>
        match indexLoop s2.all ((List.range nghost).map (nownedOld + nowned + nghostOld + ·)) map1 with
        | .error x => .error x
        | .ok map2 => .ok { s2 with map := map2 }
    else .ok s2

/-- One removal in `rem_entities`: the vector keeps its length `size`, `ndel` entries were deleted before
(MeshSet.cc:240-246, 255-260, 268-273). Reading `[size-ndel-1]` with `ndel = size` is out of bounds. -/
def markRemove (l : List Nat) (ndel : Nat) (e : Nat) : Except Err (List Nat × Nat) :=
  if e ∈ l then
    if ndel < l.length then
      match l[l.length - ndel - 1]? with
      | some z => .ok (l.set (l.idxOf e) z, ndel + 1)
      | none => .error .undefinedBehaviour
    else .error .undefinedBehaviour
  else .ok (l, ndel)

/-- the deletion loop over the input, for the entities passing the test `p`, then `resize(size-ndel)` -/
def removeLoop (p : Nat → Bool) : List Nat → List Nat → Nat → Except Err (List Nat)
  | [], l, ndel => .ok (l.take (l.length - ndel))
  | e :: es, l, ndel =>
    if p e then
      match markRemove l ndel e with
      | .error x => .error x
      | .ok (l', ndel') => removeLoop p es l' ndel'
    else removeLoop p es l ndel

/-- `rem_entities` (MeshSet.cc:230-280); only the owned loop tests the type -/
def remEntities (m : MeshView) (s : Obj) (es : List Nat) : Except Err Obj :=
  match removeLoop (fun e => m.typeOf e = .PARALLEL_OWNED) es s.owned 0 with
  | .error x => .error x
  | .ok owned =>
    match removeLoop (fun _ => true) es s.ghost 0 with
    | .error x => .error x
    | .ok ghost =>
      match removeLoop (fun _ => true) es s.all 0 with
      | .error x => .error x
      | .ok all =>
        if s.haveMap then
          match indexLoop all (List.range all.length) s.map with
          | .error x => .error x
          | .ok map => .ok { s with owned := owned, ghost := ghost, all := all, map := map }
        else .ok { s with owned := owned, ghost := ghost, all := all }

/-- `num_entities(kind, type)` (MeshSet.hh:193-198), which a state vector on the set asks for its length; asserts that the kind is the set's -/
def numEntitiesOf (s : Obj) (kind : EntityKind) (t : EntityType) : Except Err Nat :=
  if s.kind = kind then .ok (numEntities s t) else .error .assertFailed

/-- `clear` (MeshSet.hh:245-252); `have_reverse_map_` keeps its value -/
def clear (s : Obj) : Obj :=
  { s with owned := [], ghost := [], all := [], map := [], name := "", kind := .UNKNOWN_KIND }

/-- `shared_ptr<MeshSet>`: address and pointed-to object -/
structure Ptr where
  addr : Nat
  obj : Obj

/-- What a set operation returns: one of its arguments itself, or a new object -/
inductive Out
  | same (p : Ptr)
  | fresh (s : Obj)

/-- the object behind the returned pointer -/
def Out.obj : Out → Obj
  | .same p => p.obj
  | .fresh s => s

/-- `for ent : l: if not found in acc: acc.push_back(ent)` (MeshSet.cc:329-332, 345-348) -/
def pushNew (acc : List Nat) : List Nat → List Nat
  | [] => acc
  | e :: es => pushNew (if e ∈ acc then acc else acc ++ [e]) es

/-- the inputs other than `set0` (`if (set == set0) continue;`) -/
def others (p0 : Ptr) (ps : List Ptr) : List Ptr := ps.filter fun p => p.addr ≠ p0.addr

/-- the `assert`s on mesh and kind (MeshSet.cc:313-317, 380-383, 429-433) -/
def compatible (p0 : Ptr) (ps : List Ptr) : Bool :=
  ps.all fun p => p.obj.mesh = p0.obj.mesh && p.obj.kind = p0.obj.kind

/-- `merge` (MeshSet.cc:305-370). `temporary` only decides whether the new set is registered with the mesh
(see the registry model). -/
def merge (m : MeshView) (ps : List Ptr) : Except Err Out :=
  match ps with
  | [] => .error .assertFailed
  | [p0] => .ok (.same p0)
  | p0 :: rest =>
    let os := others p0 (p0 :: rest)
    if compatible p0 os then
      let owned := os.foldl (fun acc p => pushNew acc p.obj.owned) p0.obj.owned
      let ghost := os.foldl (fun acc p => pushNew acc p.obj.ghost) p0.obj.ghost
      let name := os.foldl (fun acc p => acc ++ "_PLUS_(" ++ p.obj.name ++ ")") ("(" ++ p0.obj.name ++ ")")
      match construct m name p0.obj.mesh p0.obj.kind owned ghost (p0.obj.map.length ≠ 0) with
      | .error x => .error x
      | .ok s => .ok (.fresh s)
    else .error .assertFailed

/-- `subtract` (MeshSet.cc:374-420) -/
def subtract (m : MeshView) (p0 : Ptr) (ps : List Ptr) : Except Err Out :=
  if compatible p0 ps then
    match merge m ps with
    | .error x => .error x
    | .ok u =>
      let owned := p0.obj.owned.filter fun e => e ∉ u.obj.owned
      let ghost := p0.obj.ghost.filter fun e => e ∉ u.obj.ghost
      match construct m ("(" ++ p0.obj.name ++ ")_MINUS_(" ++ u.obj.name ++ ")") p0.obj.mesh p0.obj.kind
          owned ghost (p0.obj.map.length ≠ 0) with
      | .error x => .error x
      | .ok s => .ok (.fresh s)
  else .error .assertFailed

/-- `intersect` (MeshSet.cc:425-490); `inpsets[0]` of an empty vector is undefined -/
def intersect (m : MeshView) (ps : List Ptr) : Except Err Out :=
  match ps with
  | [] => .error .undefinedBehaviour
  | p0 :: rest =>
    let os := others p0 (p0 :: rest)
    if compatible p0 os then
      let owned := p0.obj.owned.filter fun e => os.all fun p => e ∈ p.obj.owned
      let ghost := p0.obj.ghost.filter fun e => os.all fun p => e ∈ p.obj.ghost
      let name := os.foldl (fun acc p => acc ++ "_INTERSECT_(" ++ p.obj.name ++ ")")
        ("(" ++ p0.obj.name ++ ")")
      match construct m name p0.obj.mesh p0.obj.kind owned ghost (p0.obj.map.length ≠ 0) with
      | .error x => .error x
      | .ok s => .ok (.fresh s)
    else .error .assertFailed

/-- `complement` (MeshSet.cc:494-545). The ghost loop runs over `0 .. nent_ghost-1`, as in the code. The
`reserve` of a negative size (a union list longer than the mesh's) throws `std::length_error`; it is not
modelled because it cannot happen for lists without repetition. -/
def complement (m : MeshView) (ps : List Ptr) : Except Err Out :=
  match ps with
  | [] => .error .undefinedBehaviour
  | p0 :: rest =>
    match merge m (p0 :: rest) with
    | .error x => .error x
    | .ok u =>
      let owned := (List.range m.nOwned).filter fun e => e ∉ u.obj.owned
      let ghost := (List.range m.nGhost).filter fun e => e ∉ u.obj.ghost
      match construct m ("NOT_(" ++ u.obj.name ++ ")") p0.obj.mesh p0.obj.kind owned ghost
          (p0.obj.map.length ≠ 0) with
      | .error x => .error x
      | .ok s => .ok (.fresh s)

end Jali.MSet
