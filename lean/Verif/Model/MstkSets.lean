import Verif.Model.MstkExtract
/-
Labeled sets of an MSTK mesh: `internal_name_of_set`, `other_internal_name_of_set`, `get_labeled_set_entities`
(src/mesh/mesh_mstk/Mesh_MSTK.cc:2966-3110), the constructor from names of sets (514-640), `inherit_labeled_sets` (5169-5298).

Entities marked as deleted (`collapse_degen_edges`) and the call of `get_set_size` in the constructor, whose result is not used,
are left out. A set of MSTK is a name, a dimension and a list of entities.
-/
namespace Jali.Mstk

variable {α : Type} [Zero α]

/-- what the functions look at in a region: the name, and `entity_str()` and `label()` of a labeled set -/
structure Rgn where
  name : String
  labeled : Option (String × String)
deriving DecidableEq, Repr

/-- an `MEntity_ptr` -/
inductive Ent (m : MMesh) where
  | v (i : Fin m.nv)
  | e (i : Fin m.ne)
  | f (i : Fin m.nf)
  | r (i : Fin m.nr)
deriving DecidableEq

/-- `MEnt_Dim` -/
def Ent.dim {m : MMesh} : Ent m → MType
  | .v _ => .vertex
  | .e _ => .edge
  | .f _ => .face
  | .r _ => .region

/-- `MEnt_PType` -/
def Ent.ptype {m : MMesh} : Ent m → PType
  | .v i => (m.vtx i).ptype
  | .e i => (m.edge i).ptype
  | .f i => (m.face i).ptype
  | .r i => (m.region i).ptype

/-- `MEnt_ID` -/
def Source.entId (s : Source α) : Ent s.j.m → Nat
  | .v i => s.vertexId i
  | .e i => s.edgeId i
  | .f i => s.faceId i
  | .r i => s.regionId i

/-- an `MSet_ptr` -/
structure MstkSet (m : MMesh) where
  name : String
  dim : MType
  ents : List (Ent m)

/-- `MESH_MSetByName` -/
def byName {m : MMesh} (sets : List (MstkSet m)) (n : String) : Option (MstkSet m) := sets.find? fun s => s.name = n

/-- `internal_name_of_set` (Mesh_MSTK.cc:2966-2991) -/
def internalName (r : Rgn) (k : EntityKind) : String :=
  match r.labeled with
  | none => r.name
  | some (_, label) => match k with
    | .CELL => "matset_" ++ label
    | .FACE => "sideset_" ++ label
    | .EDGE => "edgeset_not_supported"
    | .NODE => "nodeset_" ++ label
    | _ => ""

/-- `other_internal_name_of_set` (Mesh_MSTK.cc:2996-3014) -/
def otherInternalName (r : Rgn) (k : EntityKind) : String :=
  match r.labeled with
  | none => internalName r k
  | some (_, label) => if k = .CELL then "elemset_" ++ label else internalName r k

/-- the two lists filled by the loops over a set (Mesh_MSTK.cc:3050-3058, 3061-3069, 3079-3088, 3098-3107): owned, ghost -/
def Source.split (s : Source α) (t : MstkSet s.j.m) : List Nat × List Nat :=
  ((t.ents.filter fun e => e.ptype ≠ .ghost).map fun e => s.entId e - 1,
   (t.ents.filter fun e => e.ptype = .ghost).map fun e => s.entId e - 1)

/-- the loop over a set that may be missing -/
def Source.splitOr (s : Source α) (o : Option (MstkSet s.j.m)) : List Nat × List Nat := (o.map s.split).getD ([], [])

/-- `get_labeled_set_entities` (Mesh_MSTK.cc:3017-3113) -/
def Source.labeledEntities (s : Source α) (sets : List (MstkSet s.j.m)) (r : Rgn) (k : EntityKind) : Outcome (List Nat × List Nat) :=
  match r.labeled with
  | none => .undefined
  | some (str, _) => match k with
    | .CELL =>
      if str ≠ "CELL" ∧ str ≠ "Entity_kind::CELL" then .throws
      else match byName sets (internalName r .CELL), byName sets (otherInternalName r .CELL) with
        | some _, some _ => .throws
        | some t, none => .made (s.split t)
        | none, o => .made (s.splitOr o)
    | .FACE =>
      if str ≠ "FACE" ∧ str ≠ "Entity_kind::FACE" then .throws
      else .made (s.splitOr (byName sets (internalName r .FACE)))
    | .NODE =>
      if str ≠ "NODE" ∧ str ≠ "Entity_kind::NODE" then .throws
      else .made (s.splitOr (byName sets (internalName r .NODE)))
    | _ => .made ([], [])

/-! ### The constructor from names of sets -/

def Ent.face? {m : MMesh} : Ent m → Option (Fin m.nf)
  | .f i => some i
  | _ => none
def Ent.region? {m : MMesh} : Ent m → Option (Fin m.nr)
  | .r i => some i
  | _ => none

/-- `List_ChknAdd` for all entities of a list -/
def chknAdd {m : MMesh} (l : List (Ent m)) (es : List (Ent m)) : List (Ent m) :=
  es.foldl (fun l e => if e ∈ l then l else l ++ [e]) l

/-- `gm->FindRegion(name)` -/
def findRgn (gm : List Rgn) (n : String) : Option Rgn := gm.find? fun r => r.name = n

/-- `src_ents` (Mesh_MSTK.cc:541-566, 604-630); a name that the geometric model does not know is a null pointer -/
def namedEnts (src : Source α) (sets : List (MstkSet src.j.m)) (gm : List Rgn) (k : EntityKind) :
    List String → List (Ent src.j.m) → Option (List (Ent src.j.m))
  | [], l => some l
  | n :: ns, l => (findRgn gm n).bind fun r =>
    namedEnts src sets gm k ns (match byName sets (internalName r k) with
      | some t => chknAdd l (t.ents.filter fun e => e.ptype ≠ .ghost)
      | none => l)

/-- the constructor from names of sets (Mesh_MSTK.cc:514-640) in a serial run; an entity of another dimension in the list is used
as a pointer of the wrong type -/
def extractNamed (src : Source α) (sets : List (MstkSet src.j.m)) (gm : List Rgn) (names : List String) (kind : EntityKind)
    (flatten extrude faces edges : Bool) : Outcome (Extracted src) :=
  match namedEnts src sets gm kind names [] with
  | none => .undefined
  | some ents => match kindToMtype src.dim3 kind with
    | none => .undefined
    | some t =>
      if extrude then .throws
      else if flatten ∧ (t = .region ∨ t = .vertex) then .throws
      else match t with
      | .edge => .throws
      | .vertex => .throws
      | .face => .ofOption ((ents.mapM Ent.face?).bind (extractFaces src flatten faces edges))
      | .region => .ofOption ((ents.mapM Ent.region?).bind (extractRegions src faces edges))

/-! ### Sets of an extracted mesh -/

/-- `MEnt_Get_AttVal(ent, copyatt, ...)`, as an entity of the new mesh -/
def Copy.copyOf {m : MMesh} (s : Copy m α) (b : Built m α) : Ent m → Option (Ent b.mesh)
  | .v i => (s.cv i).bind fun k => (toHandle b.mesh.nv k).map .v
  | .e i => (s.ce i).bind fun k => (toHandle b.mesh.ne k).map .e
  | .f i => (s.cf i).bind fun k => (toHandle b.mesh.nf k).map .f
  | .r i => (s.cr i).bind fun k => (toHandle b.mesh.nr k).map .r

/-- `(MType) (entdim - 1)` -/
def MType.lower : MType → MType
  | .vertex => .vertex
  | .edge => .vertex
  | .face => .edge
  | .region => .face

/-- `MR_Faces`, `MF_Edges`: what is searched for copies if the dimension goes down (Mesh_MSTK.cc:5268-5293) -/
def Ent.boundary {m : MMesh} : Ent m → List (Ent m)
  | .r i => (m.region i).mrFaces.map .f
  | .f i => ((m.face i).mfEdges true).map .e
  | _ => []

/-- the name under which `inherit_labeled_sets` looks for the set of a region (Mesh_MSTK.cc:5199-5211) -/
def inheritName (r : Rgn) : Option String :=
  r.labeled.map fun p =>
    if p.1 = "Entity_kind::CELL" then internalName r .CELL
    else if p.1 = "Entity_kind::FACE" then internalName r .FACE
    else if p.1 = "Entity_kind::NODE" then internalName r .NODE
    else ""

/-- one set (Mesh_MSTK.cc:5213-5294); `diff` if the new mesh has a lower dimension -/
def inheritSet {m : MMesh} (s : Copy m α) (b : Built m α) (diff : Bool) (srcEnts : List (Ent m)) (sets : List (MstkSet m))
    (n : String) : Option (MstkSet b.mesh) :=
  (byName sets n).bind fun t =>
    if diff = true ∧ srcEnts.any (fun e => decide (e ∈ t.ents)) then none
    else
      if t.dim = .vertex ∨ diff = false then some ⟨n, t.dim, t.ents.filterMap (s.copyOf b)⟩
      else some ⟨n, t.dim.lower, chknAdd [] ((t.ents.flatMap Ent.boundary).filterMap (s.copyOf b))⟩

/-- `inherit_labeled_sets` (Mesh_MSTK.cc:5169-5298) -/
def inheritSets {m : MMesh} (s : Copy m α) (b : Built m α) (diff : Bool) (srcEnts : List (Ent m)) (sets : List (MstkSet m))
    (gm : List Rgn) : List (MstkSet b.mesh) :=
  gm.filterMap fun r => (inheritName r).bind (inheritSet s b diff srcEnts sets)

/-- the new mesh object with the sets of its MSTK mesh -/
structure WithSets (src : Source α) where
  x : Extracted src
  sets : List (MstkSet x.built.mesh)

/-- `extract_mstk_mesh` with the sets -/
def extractFacesS (src : Source α) (sets : List (MstkSet src.j.m)) (gm : List Rgn) (flatten faces edges : Bool)
    (l : List (Fin src.j.m.nf)) : Option (WithSets src) :=
  (l.foldl (copyFace2 src.xyz flatten) {}).build.map fun b =>
    ⟨⟨b, false, if flatten then src.spaceDim - 1 else src.spaceDim, faces, edges⟩,
      inheritSets (l.foldl (copyFace2 src.xyz flatten) {}) b src.dim3 (l.map .f) sets gm⟩
def extractRegionsS (src : Source α) (sets : List (MstkSet src.j.m)) (gm : List Rgn) (faces edges : Bool)
    (l : List (Fin src.j.m.nr)) : Option (WithSets src) :=
  (l.foldl (copyRegion src.xyz) {}).build.map fun b => ⟨⟨b, true, src.spaceDim, faces, edges⟩,
    inheritSets (l.foldl (copyRegion src.xyz) {}) b false (l.map .r) sets gm⟩

/-- the constructor from a list of ids (Mesh_MSTK.cc:647-697) with the sets -/
def extractS (src : Source α) (sets : List (MstkSet src.j.m)) (gm : List Rgn) (kind : EntityKind)
    (flatten extrude faces edges : Bool) (ids : List Nat) : Outcome (WithSets src) :=
  match kindToMtype src.dim3 kind with
  | none => .undefined
  | some t =>
    if extrude then .throws
    else if flatten ∧ (t = .region ∨ t = .vertex) then .throws
    else match t with
    | .edge => .throws
    | .vertex => .throws
    | .face => .ofOption ((ids.mapM fun i => fromId src.faceId (i + 1)).bind (extractFacesS src sets gm flatten faces edges))
    | .region => .ofOption ((ids.mapM fun i => fromId src.regionId (i + 1)).bind (extractRegionsS src sets gm faces edges))

/-- the new mesh object, as one from which meshes can be extracted again -/
abbrev Extracted.asSource {src : Source α} (x : Extracted src) : Source α := ⟨x.j, x.dim3, x.spaceDim, x.built.xyz⟩

end Jali.Mstk
