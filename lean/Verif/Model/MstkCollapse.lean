import Verif.Model.MstkSets
/-
`collapse_degen_edges` and `init_set_info` (src/mesh/mesh_mstk/Mesh_MSTK.cc:4212-4430, 4111-4208), which are called when a mesh is
read from a file (77, 108) and when it is completed (3382).

`ME_Collapse` belongs to MSTK. It is any function that refuses or gives a new mesh, the entities it has marked as deleted and the
pairs of merged entities. `MEnt_Dim` of an entity marked as deleted is `MDELETED` (the test in 4177 relies on this), here `none`.
`MSet_Replacei` and `MSet_Remi` act on the list of entities and compare nothing. The entities of MSTK are of any type `E`.
The debugging output (4416-4428) is left out.
-/
namespace Jali.Mstk

variable {E M : Type} [DecidableEq E]

/-! ### The loop over the edges -/

/-- what `ME_Collapse` gives if it does not refuse: the new mesh, the deleted entities, the pairs (deleted, kept) -/
structure Collapsed (M E : Type) where
  mesh : M
  deleted : List E
  merged : List (E × E)
deriving DecidableEq

/-- an edge as the loop finds it: its two vertices with their global ids, and `ME_Collapse(edge, vkeep, 0, ...)` for it -/
structure DegenEdge (M E : Type) where
  v0 : E
  v1 : E
  gid0 : Int
  gid1 : Int
  collapse : M → E → Option (Collapsed M E)

/-- the body of the loop for an edge of length zero (Mesh_MSTK.cc:4229-4263) -/
def DegenEdge.body (e : DegenEdge M E) (m : M) : Outcome (Collapsed M E) :=
  let keep := if e.gid0 < e.gid1 then e.v0 else e.v1
  let del := if e.gid0 < e.gid1 then e.v1 else e.v0
  match e.collapse m keep with
  | some c => .made c
  | none => match e.collapse m del with
    | some c => .made c
    | none => .throws

/-- the loop (Mesh_MSTK.cc:4223-4275) with `List_Cat`; the edges of length zero in the order of the visits -/
def collapseLoop : List (DegenEdge M E) → Collapsed M E → Outcome (Collapsed M E)
  | [], c => .made c
  | e :: es, c => match e.body c.mesh with
    | .made d => collapseLoop es ⟨d.mesh, c.deleted ++ d.deleted, c.merged ++ d.merged⟩
    | .throws => .throws
    | .undefined => .undefined

/-! ### The rest of the function -/

/-- an `MSet_ptr` -/
structure ESet (E : Type) where
  name : String
  dim : MType
  ents : List E
deriving DecidableEq

/-- what the rest of the function looks at on one rank: the entities of the mesh after the loop, `MEnt_OrigDim`, the global ids,
the parallel type, the sets and the two lists of the loop -/
structure Part (E : Type) where
  ents : List E
  dim : E → MType
  gid : E → Int
  ghost : E → Bool
  sets : List (ESet E)
  deleted : List E
  merged : List (E × E)

/-- `MEnt_Dim`: `none` is `MDELETED` -/
def Part.dimNow (p : Part E) (e : E) : Option MType := if e ∈ p.deleted then none else some (p.dim e)

/-- `merged_ents_info` (Mesh_MSTK.cc:4278-4285) -/
def Part.info (p : Part E) : List (Option MType × Int × Int) :=
  p.merged.map fun q => (p.dimNow q.2, p.gid q.1, p.gid q.2)

/-- the three loops over ghosts (Mesh_MSTK.cc:4308-4357): no loop for regions; the first entry found is used -/
def newGid (log : List (Option MType × Int × Int)) (t : MType) (g : Int) : Int :=
  if t = .region then g
  else match log.find? fun q => q.1 = some t ∧ q.2.1 = g with
    | some q => q.2.2
    | none => g

/-- the same for an entity -/
def Part.gidAfter (p : Part E) (log : List (Option MType × Int × Int)) (e : E) : Int :=
  if p.ghost e ∧ e ∈ p.ents then newGid log (p.dim e) (p.gid e) else p.gid e

/-- `MSet_Locate` and `MSet_Replacei` (Mesh_MSTK.cc:4376-4378) -/
def replaceFirst (d k : E) : List E → List E
  | [] => []
  | x :: l => if x = d then k :: l else x :: replaceFirst d k l

/-- a pair of the first loop over sets (Mesh_MSTK.cc:4368-4379) -/
def Part.mergeIn (p : Part E) (s : ESet E) (q : E × E) : ESet E :=
  if some s.dim = p.dimNow q.2 then { s with ents := replaceFirst q.1 q.2 s.ents } else s

/-- an entity of the second loop over sets (Mesh_MSTK.cc:4386-4396): `MSet_Locate` and `MSet_Remi` -/
def Part.removeIn (p : Part E) (s : ESet E) (d : E) : ESet E :=
  if s.dim = p.dim d then { s with ents := s.ents.erase d } else s

/-- both loops for one set (Mesh_MSTK.cc:4362-4397) -/
def Part.setAfter (p : Part E) (s : ESet E) : ESet E := p.deleted.foldl p.removeIn (p.merged.foldl p.mergeIn s)

/-- the sets and the global ids at the end -/
structure AfterCollapse (E : Type) where
  sets : List (ESet E)
  gid : E → Int

/-- the function after the loop over edges, on all ranks (Mesh_MSTK.cc:4277-4430). `&(merged_ents_info[0])` is undefined for a rank
that has merged nothing -/
def finishCollapse (ps : List (Part E)) : Outcome (List (AfterCollapse E)) :=
  if ∃ p ∈ ps, p.merged = [] then .undefined
  else .made (ps.map fun p => ⟨p.sets.map p.setAfter, p.gidAfter (ps.flatMap Part.info)⟩)

/-! ### `init_set_info` -/

/-- the error of `init_set_info`: an `Errors::Message`, or a `std::exception` without text -/
inductive SetError | message | bare
deriving DecidableEq, Repr

/-- the internal name (Mesh_MSTK.cc:4137-4142): empty for other spellings of the kind -/
def initName (r : Rgn) (str : String) : String :=
  if str = "Entity_kind::CELL" then internalName r .CELL
  else if str = "Entity_kind::FACE" then internalName r .FACE
  else if str = "Entity_kind::NODE" then internalName r .NODE
  else ""

/-- the test of the kinds (Mesh_MSTK.cc:4153-4171) -/
def kindMismatch (dim3 : Bool) (str : String) (d : MType) : Bool :=
  if dim3 then
    (str = "Entity_kind::CELL" ∧ d ≠ .region) ∨ (str = "Entity_kind::FACE" ∧ d ≠ .face) ∨ (str = "Entity_kind::NODE" ∧ d ≠ .vertex)
  else
    (str = "Entity_kind::CELL" ∧ d ≠ .face) ∨ (str = "Entity_kind::FACE" ∧ d ≠ .edge) ∨ (str = "Entity_kind::NODE" ∧ d ≠ .vertex)

/-- the region loop for one region (Mesh_MSTK.cc:4124-4205): an error or nothing. `manifold_dimension()` is 3 or 2. The removal of
deleted entities (4173-4182, 4194-4203) is left out: see `purge` -/
def checkRegion {m : MMesh} (dim3 : Bool) (sets : List (MstkSet m)) (r : Rgn) : Option SetError :=
  match r.labeled with
  | none => none
  | some (str, _) => match byName sets (initName r str) with
    | none => none
    | some t => if kindMismatch dim3 str t.dim then some (if dim3 then .message else .bare) else none

/-- `init_set_info` (Mesh_MSTK.cc:4111-4208) for the regions of the geometric model; a null model is an error -/
def initSetInfo {m : MMesh} (dim3 : Bool) (sets : List (MstkSet m)) : Option (List Rgn) → Option SetError
  | none => some .message
  | some gm => gm.findSome? (checkRegion dim3 sets)

/-- the removal of entities marked as deleted from a set (Mesh_MSTK.cc:4175-4180): `MSet_Rem` leaves a gap that `MSet_Next_Entry`
skips -/
def purge (p : Part E) (s : ESet E) : ESet E := { s with ents := s.ents.filter fun e => (p.dimNow e).isSome }

end Jali.Mstk
