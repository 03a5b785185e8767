import Verif.Model.MstkFields
/-
Extraction of a mesh from entities of another mesh: the constructor of `Mesh_MSTK` from a list of ids and `extract_mstk_mesh`
in a serial run (src/mesh/mesh_mstk/Mesh_MSTK.cc:647-1115), `entity_get_parent` (3284-3322), `entity_kind_to_mtype`
(Mesh_MSTK.hh:728-749).

The entities of the mesh being built are numbered in the order of their creation; `MEnt_Set_AttVal`/`MEnt_Get_AttVal` of the
attribute `copyatt` are functions on the entities of the source mesh. The global entity classification (`GEntDim`, `GEntID`) is
left out, and so are the bounds of the arrays on the stack (`MAXPF3`, `MAXPV2`). MSTK's `MF_Set_Vertices` is modelled after its
documentation: for each pair of consecutive vertices it uses the edge that joins them, and makes one if there is none.
-/
namespace Jali.Mstk

/-- the three coordinates of a vertex -/
structure Xyz (α : Type) where
  x : α
  y : α
  z : α
deriving DecidableEq, Repr

/-- the mesh being built with the attributes `vparentatt`, `eparentatt`, `fparentatt`, `rparentatt` of its entities
(Mesh_MSTK.cc:805-808), and the attribute `copyatt` of the entities of the source (804) -/
structure Copy (m : MMesh) (α : Type) where
  vs : List (Fin m.nv × Xyz α) := []
  es : List ((Nat × Nat) × Option (Fin m.ne)) := []
  fs : List (List (Nat × Bool) × Fin m.nf) := []
  rs : List (List (Nat × Bool) × Fin m.nr) := []
  cv : Fin m.nv → Option Nat := fun _ => none
  ce : Fin m.ne → Option Nat := fun _ => none
  cf : Fin m.nf → Option Nat := fun _ => none
  cr : Fin m.nr → Option Nat := fun _ => none

/-- a loop that updates a state and fills an array -/
def mapS {σ α β : Type} (f : σ → α → σ × β) : σ → List α → σ × List β
  | s, [] => (s, [])
  | s, a :: l => ((mapS f (f s a).1 l).1, (f s a).2 :: (mapS f (f s a).1 l).2)

variable {m : MMesh} {α : Type}

/-- the copy of a vertex, made when it is first met (Mesh_MSTK.cc:836-848, and 895-910 where `flatten` clears the third
coordinate) -/
def copyVertex [Zero α] (xyz : Fin m.nv → Xyz α) (flatten : Bool) (s : Copy m α) (v : Fin m.nv) : Copy m α × Nat :=
  match s.cv v with
  | some k => (s, k)
  | none => ({ s with
      vs := s.vs ++ [(v, if flatten then { xyz v with z := 0 } else xyz v)]
      cv := Function.update s.cv v (some s.vs.length) }, s.vs.length)

/-- one turn of `MF_Set_Vertices` (called in Mesh_MSTK.cc:853): the edge between two vertices with its direction -/
def joinVertices (s : Copy m α) (p : Nat × Nat) : Copy m α × (Nat × Bool) :=
  match s.es.findIdx? fun e => e.1 = (p.1, p.2) ∨ e.1 = (p.2, p.1) with
  | some k => (s, (k, decide ((s.es[k]?.map fun e => e.1.1) = some p.1)))
  | none => ({ s with es := s.es ++ [((p.1, p.2), none)] }, (s.es.length, true))

/-- `(verts[i], verts[(i+1)%n])` -/
def nextPairs (l : List Nat) : List (Nat × Nat) := l.zip (l.tail ++ l.take 1)

/-- a face of a region (Mesh_MSTK.cc:824-861) -/
def copyFace3 [Zero α] (xyz : Fin m.nv → Xyz α) (s : Copy m α) (f : Fin m.nf) : Copy m α × Nat :=
  match s.cf f with
  | some k => (s, k)
  | none =>
    let a := mapS (copyVertex xyz false) s (m.mfVertices (m.face f) true)
    let b := mapS joinVertices a.1 (nextPairs a.2)
    ({ b.1 with
      fs := b.1.fs ++ [(b.2, f)]
      cf := Function.update b.1.cf f (some b.1.fs.length) }, b.1.fs.length)

/-- a region of the list (Mesh_MSTK.cc:815-871) -/
def copyRegion [Zero α] (xyz : Fin m.nv → Xyz α) (s : Copy m α) (r : Fin m.nr) : Copy m α :=
  let a := mapS (fun s (p : Fin m.nf × Bool) => ((copyFace3 xyz s p.1).1, ((copyFace3 xyz s p.1).2, p.2))) s (m.region r).faces
  { a.1 with
    rs := a.1.rs ++ [(a.2, r)]
    cr := Function.update a.1.cr r (some a.1.rs.length) }

/-- an edge of a face (Mesh_MSTK.cc:885-921) -/
def copyEdge [Zero α] (xyz : Fin m.nv → Xyz α) (flatten : Bool) (s : Copy m α) (e : Fin m.ne) : Copy m α × Nat :=
  match s.ce e with
  | some k => (s, k)
  | none =>
    let a := copyVertex xyz flatten s (m.edge e).v0
    let b := copyVertex xyz flatten a.1 (m.edge e).v1
    ({ b.1 with
      es := b.1.es ++ [((a.2, b.2), some e)]
      ce := Function.update b.1.ce e (some b.1.es.length) }, b.1.es.length)

/-- a face of the list (Mesh_MSTK.cc:877-933) -/
def copyFace2 [Zero α] (xyz : Fin m.nv → Xyz α) (flatten : Bool) (s : Copy m α) (f : Fin m.nf) : Copy m α :=
  let a := mapS (fun s (p : Fin m.ne × Bool) => ((copyEdge xyz flatten s p.1).1, ((copyEdge xyz flatten s p.1).2, p.2))) s
    (m.face f).edges
  { a.1 with
    fs := a.1.fs ++ [(a.2, f)]
    cf := Function.update a.1.cf f (some a.1.fs.length) }

/-- a pointer to an entity of the mesh -/
def toHandle (n k : Nat) : Option (Fin n) := if h : k < n then some ⟨k, h⟩ else none

/-- the mesh that was built, with its attributes -/
structure Built (m : MMesh) (α : Type) where
  mesh : MMesh
  xyz : Fin mesh.nv → Xyz α
  vpar : Fin mesh.nv → Option (Fin m.nv)
  epar : Fin mesh.ne → Option (Fin m.ne)
  fpar : Fin mesh.nf → Option (Fin m.nf)
  rpar : Fin mesh.nr → Option (Fin m.nr)

/-- the `Mesh_ptr` behind the pointers; new entities are `PINTERIOR` and have global id 0 -/
def Copy.build (s : Copy m α) : Option (Built m α) :=
  (s.es.mapM fun e => (toHandle s.vs.length e.1.1).bind fun a => (toHandle s.vs.length e.1.2).map fun b =>
    (({ ptype := .interior, gid := 0, v0 := a, v1 := b } : Edge s.vs.length), e.2)).bind fun es =>
  (s.fs.mapM fun (f : List (Nat × Bool) × Fin m.nf) => (f.1.mapM fun p => (toHandle es.length p.1).map fun e => (e, p.2)).map fun l =>
    (({ ptype := .interior, gid := 0, edges := l } : Face es.length), f.2)).bind fun fs =>
  (s.rs.mapM fun (r : List (Nat × Bool) × Fin m.nr) => (r.1.mapM fun p => (toHandle fs.length p.1).map fun f => (f, p.2)).map fun l =>
    (({ ptype := .interior, gid := 0, faces := l } : Region fs.length), r.2)).map fun rs =>
  { mesh :=
      { nv := s.vs.length, ne := es.length, nf := fs.length, nr := rs.length
        vtx := fun _ => ⟨.interior, 0⟩
        edge := fun i => es[i].1
        face := fun i => fs[i].1
        region := fun i => rs[i].1 }
    xyz := fun i => s.vs[i].2
    vpar := fun i => some s.vs[i].1
    epar := fun i => es[i].2
    fpar := fun i => some fs[i].2
    rpar := fun i => some rs[i].2 }

/-! ### The constructor -/

/-- `entity_kind_to_mtype` (Mesh_MSTK.hh:728-749) of a mesh of manifold dimension 2 or 3; other kinds index past the table -/
def kindToMtype (dim3 : Bool) : EntityKind → Option MType
  | .NODE => some .vertex
  | .EDGE => some .edge
  | .FACE => some (if dim3 then .face else .edge)
  | .CELL => some (if dim3 then .region else .face)
  | _ => none

/-- a mesh object with what an extraction needs: the dimensions, the coordinates of the vertices -/
structure Source (α : Type) where
  j : JMesh
  dim3 : Bool
  spaceDim : Nat
  xyz : Fin j.m.nv → Xyz α

/-- `MEnt_ID` of an entity of the source. Edges and faces keep the ids MSTK gave them unless Jali initialised them
(Mesh_MSTK.cc:3377-3380) -/
def Source.edgeId (s : Source α) (e : Fin s.j.m.ne) : Nat :=
  if s.j.edges || (!s.dim3 && s.j.faces) then s.j.m.emap.id e else e + 1
def Source.faceId (s : Source α) (f : Fin s.j.m.nf) : Nat :=
  if s.dim3 then (if s.j.faces then s.j.m.fmap.id f else f + 1) else (s.j.m.cmap s.j.bg).id f
def Source.regionId (s : Source α) (r : Fin s.j.m.nr) : Nat := (s.j.m.rmap s.j.bg).id r
def Source.vertexId (s : Source α) (v : Fin s.j.m.nv) : Nat := s.j.m.vmap.id v

/-- `MESH_FaceFromID(mesh, k)`, `MESH_RegionFromID(mesh, k)`; the result is a null pointer if there is no such id -/
def fromId {n : Nat} (id : Fin n → Nat) (k : Nat) : Option (Fin n) := (List.finRange n).find? fun i => id i = k

/-- the new mesh object: the mesh that was built, the dimensions, the requests -/
structure Extracted (src : Source α) where
  built : Built src.j.m α
  dim3 : Bool
  spaceDim : Nat
  faces : Bool
  edges : Bool

/-- the object around the mesh that was built, after `post_create_steps_` (Mesh_MSTK.cc:3361-3391) in a serial run without
boundary ghosts: no face and no edge is flipped (3942, 4013) -/
abbrev Extracted.j {src : Source α} (x : Extracted src) : JMesh where
  m := x.built.mesh
  faces := x.faces
  edges := x.edges
  bg := false
  serial := true
  faceflip := if x.faces then List.replicate (if x.dim3 then x.built.mesh.nf else x.built.mesh.ne) false else []
  edgeflip := if x.edges then List.replicate x.built.mesh.ne false else []

/-- what a constructor does: it throws, it makes a mesh, or the behaviour is not defined -/
inductive Outcome (β : Type) where
  | undefined
  | throws
  | made (b : β)

def Outcome.ofOption {β : Type} : Option β → Outcome β
  | some b => .made b
  | none => .undefined

/-- `extract_mstk_mesh` from a list of faces (Mesh_MSTK.cc:875-935) -/
def extractFaces [Zero α] (src : Source α) (flatten faces edges : Bool) (l : List (Fin src.j.m.nf)) : Option (Extracted src) :=
  (l.foldl (copyFace2 src.xyz flatten) {}).build.map fun b =>
    ⟨b, false, if flatten then src.spaceDim - 1 else src.spaceDim, faces, edges⟩

/-- `extract_mstk_mesh` from a list of regions (Mesh_MSTK.cc:811-873) -/
def extractRegions [Zero α] (src : Source α) (faces edges : Bool) (l : List (Fin src.j.m.nr)) : Option (Extracted src) :=
  (l.foldl (copyRegion src.xyz) {}).build.map fun b => ⟨b, true, src.spaceDim, faces, edges⟩

/-- the constructor from a list of ids (Mesh_MSTK.cc:647-697) with `extract_mstk_mesh` (703-1234); an id that does not exist puts
a null pointer into the list of sources -/
def extract [Zero α] (src : Source α) (kind : EntityKind) (flatten extrude faces edges : Bool) (ids : List Nat) :
    Outcome (Extracted src) :=
  match kindToMtype src.dim3 kind with
  | none => .undefined
  | some t =>
    if extrude then .throws
    else if flatten ∧ (t = .region ∨ t = .vertex) then .throws
    else match t with
    | .edge => .throws
    | .vertex => .throws
    | .face => .ofOption ((ids.mapM fun i => fromId src.faceId (i + 1)).bind (extractFaces src flatten faces edges))
    | .region => .ofOption ((ids.mapM fun i => fromId src.regionId (i + 1)).bind (extractRegions src faces edges))

/-! ### Parents -/

/-- `MEnt_ID(pval) - 1`, or 0 (Mesh_MSTK.cc:3317-3321) -/
def parentId {n : Nat} (id : Fin n → Nat) : Option (Fin n) → Nat
  | some p => id p - 1
  | none => 0

/-- `entity_get_parent` of an extracted mesh (Mesh_MSTK.cc:3284-3322); the handle is read from the array of Jali, which exists
for faces and edges only if they were requested; for other kinds a variable without a value is read -/
def Extracted.parent {src : Source α} (x : Extracted src) : EntityKind → Nat → Option Nat
  | .CELL, i =>
    if x.dim3 then (((x.j.m.rmap x.j.bg).at i).map fun h => parentId src.regionId (x.built.rpar h))
    else (((x.j.m.cmap x.j.bg).at i).map fun h => parentId src.faceId (x.built.fpar h))
  | .FACE, i =>
    if x.faces then
      if x.dim3 then ((x.j.m.fmap.at i).map fun h => parentId src.faceId (x.built.fpar h))
      else ((x.j.m.emap.at i).map fun h => parentId src.edgeId (x.built.epar h))
    else none
  | .EDGE, i => if x.edges then ((x.j.m.emap.at i).map fun h => parentId src.edgeId (x.built.epar h)) else none
  | .NODE, i => (x.j.m.vmap.at i).map fun h => parentId src.vertexId (x.built.vpar h)
  | _, _ => none

/-- `ncoords->set(spdim, coords)` -/
def Xyz.firstOf (p : Xyz α) (d : Nat) : List α := [p.x, p.y, p.z].take d

/-- `node_get_coordinates` (Mesh_MSTK.cc:2399-2412) of the new mesh and of the source -/
def Extracted.nodeCoords {src : Source α} (x : Extracted src) (n : Nat) : Option (List α) :=
  (x.j.m.vmap.at n).map fun v => (x.built.xyz v).firstOf x.spaceDim
def Source.nodeCoords (s : Source α) (n : Nat) : Option (List α) :=
  (s.j.m.vmap.at n).map fun v => (s.xyz v).firstOf s.spaceDim

/-- `entity_get_parent` of a mesh that was not extracted (Mesh_MSTK.cc:3284-3322): the attributes are null pointers (3403), but the
handle is read before that is checked, except for nodes -/
def JMesh.plainParent (j : JMesh) (dim3 : Bool) : EntityKind → Nat → Option Nat
  | .CELL, i => if dim3 then ((j.m.rmap j.bg).at i).map fun _ => 0 else ((j.m.cmap j.bg).at i).map fun _ => 0
  | .FACE, i => if j.faces then (if dim3 then (j.m.fmap.at i).map fun _ => 0 else (j.m.emap.at i).map fun _ => 0) else none
  | .EDGE, i => if j.edges then (j.m.emap.at i).map fun _ => 0 else none
  | .NODE, _ => some 0
  | _, _ => none

end Jali.Mstk
