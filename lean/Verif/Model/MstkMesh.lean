import Mathlib.Data.List.FinRange
import Mathlib.Data.List.Dedup
import Verif.Model.MeshDefs
/-
`Mesh_MSTK` on one rank: numbering of entities and connectivity queries (src/mesh/mesh_mstk/Mesh_MSTK.cc:1246-2369, 3328-3353,
3409-3773, 3850-3890, 4060-4105, 4478-4575), over a model of the MSTK mesh (external library, full representation F1).

MSTK entities are handles; a handle is a `Fin` of the number of entities of its class, in the order in which
`MESH_Next_Vertex`, `MESH_Next_Edge`, ... visit them, so a handle inside the MSTK mesh is always valid. Entity ids given by the
user may be out of range: that, and a failed `assert`, is the outcome `none`. The lists MSTK returns for upward queries
(`MV_Regions`, `MF_Regions`, ...) are modelled in the order of the mesh; the order MSTK uses is not specified, and nothing is
claimed about it. The directions are returned together with the ids; the code fills two arrays, the second only on request.
-/
namespace Jali.Mstk

/-! ### The MSTK mesh -/

/-- `PType` of MSTK: `PINTERIOR`, `POVERLAP` (owned here, ghost elsewhere), `PGHOST` (owned elsewhere) -/
inductive PType | interior | overlap | ghost
deriving DecidableEq, Repr

/-- an `MVertex_ptr` (coordinates are left out) -/
structure Vtx where
  ptype : PType
  gid : Nat
deriving DecidableEq, Repr

/-- an `MEdge_ptr`: `ME_Vertex(e, 0)`, `ME_Vertex(e, 1)`, `ME_OnParBoundary` -/
structure Edge (nv : Nat) where
  ptype : PType
  gid : Nat
  v0 : Fin nv
  v1 : Fin nv
  parBndry : Bool := false
deriving DecidableEq

/-- an `MFace_ptr`: its edges in order with `MF_EdgeDir_i` (`true` is 1), `MF_OnParBoundary`; `bndryGhost` is the attribute
`bndry_ghost` (Mesh_MSTK.cc:4436) -/
structure Face (ne : Nat) where
  ptype : PType
  gid : Nat
  edges : List (Fin ne × Bool)
  parBndry : Bool := false
  bndryGhost : Bool := false
deriving DecidableEq

/-- an `MRegion_ptr`: its faces with `MR_FaceDir_i` (`true`: the normal of the face points out of the region) -/
structure Region (nf : Nat) where
  ptype : PType
  gid : Nat
  faces : List (Fin nf × Bool)
  bndryGhost : Bool := false
deriving DecidableEq

/-- a `Mesh_ptr` -/
structure MMesh where
  nv : Nat
  ne : Nat
  nf : Nat
  nr : Nat
  vtx : Fin nv → Vtx
  edge : Fin ne → Edge nv
  face : Fin nf → Face ne
  region : Fin nr → Region nf

/-- `MF_Edges(f, dir, 0)`: the edges in the direction of the face or against it -/
def Face.mfEdges {ne : Nat} (f : Face ne) (dir : Bool) : List (Fin ne) :=
  if dir then f.edges.map Prod.fst else (f.edges.map Prod.fst).reverse

/-- `MR_Faces(r)` -/
def Region.mrFaces {nf : Nat} (r : Region nf) : List (Fin nf) := r.faces.map Prod.fst

/-- `MF_Vertices(f, dir, 0)`: `ME_Vertex(e, edir ^ dir)` for each edge, in the direction of the face or against it -/
def MMesh.mfVertices (m : MMesh) (f : Face m.ne) (dir : Bool) : List (Fin m.nv) :=
  (if dir then f.edges else f.edges.reverse).map fun p =>
    if p.2 = dir then (m.edge p.1).v0 else (m.edge p.1).v1

/-- `MR_Edges(r)`: the distinct edges of the faces -/
def MMesh.mrEdges (m : MMesh) (r : Region m.nf) : List (Fin m.ne) :=
  (r.faces.flatMap fun p => (m.face p.1).edges.map Prod.fst).dedup

/-- `MR_Vertices(r)`: the distinct vertices of the faces; the order is not modelled -/
def MMesh.mrVertices (m : MMesh) (r : Region m.nf) : List (Fin m.nv) :=
  (r.faces.flatMap fun p => m.mfVertices (m.face p.1) true).dedup

/-- `MF_Regions(f)` -/
def MMesh.mfRegions (m : MMesh) (f : Fin m.nf) : List (Fin m.nr) :=
  (List.finRange m.nr).filter fun r => f ∈ (m.region r).mrFaces

/-- `MF_Region(f, side)`: side 0 (`false`) is the region out of which the normal of the face points -/
def MMesh.mfRegion (m : MMesh) (f : Fin m.nf) (side : Bool) : Option (Fin m.nr) :=
  (List.finRange m.nr).find? fun r => (f, !side) ∈ (m.region r).faces

/-- `ME_Faces(e)` -/
def MMesh.meFaces (m : MMesh) (e : Fin m.ne) : List (Fin m.nf) :=
  (List.finRange m.nf).filter fun f => e ∈ (m.face f).mfEdges true

/-- `MV_Edges(v)` -/
def MMesh.mvEdges (m : MMesh) (v : Fin m.nv) : List (Fin m.ne) :=
  (List.finRange m.ne).filter fun e => v = (m.edge e).v0 ∨ v = (m.edge e).v1

/-- `MV_Faces(v)` -/
def MMesh.mvFaces (m : MMesh) (v : Fin m.nv) : List (Fin m.nf) :=
  (List.finRange m.nf).filter fun f => v ∈ m.mfVertices (m.face f) true

/-- `MV_Regions(v)` -/
def MMesh.mvRegions (m : MMesh) (v : Fin m.nv) : List (Fin m.nr) :=
  (List.finRange m.nr).filter fun r => v ∈ m.mrVertices (m.region r)

/-! ### Numbering -/

/-- `MEnt_ID` of the entities of a class (starting at 1) and the array `*_id_to_handle` of Jali (starting at 0) -/
structure IdMap (n : Nat) where
  id : Fin n → Nat
  handle : List (Option (Fin n))

/-- one turn of the loops: `MEnt_Set_ID(ent, lid); *_id_to_handle[lid-1] = ent; lid++` (Mesh_MSTK.cc:3615-3618 and the other
loops of 3600-3722) -/
def assignOne {n : Nat} (s : IdMap n × Nat) (v : Fin n) : IdMap n × Nat :=
  (⟨Function.update s.1.id v s.2, s.1.handle.set (s.2 - 1) (some v)⟩, s.2 + 1)

/-- before: ids as MSTK gave them, the array `resize`d (null pointers) -/
def freshIds (n : Nat) : IdMap n := ⟨fun i => i + 1, List.replicate n none⟩

/-- `init_vertex_id2handle_maps`, `init_edge_id2handle_maps`, `init_face_id2handle_maps` (Mesh_MSTK.cc:3600-3692): first the
owned entities, then the others -/
def idMap2 {n : Nat} (owned notOwned : List (Fin n)) : IdMap n :=
  (notOwned.foldl assignOne (owned.foldl assignOne (freshIds n, 1))).1

/-- `init_cell_id2handle_maps` (Mesh_MSTK.cc:3694-3729) -/
def idMap3 {n : Nat} (bg : Bool) (owned ghost bndry : List (Fin n)) : IdMap n :=
  let s := ghost.foldl assignOne (owned.foldl assignOne (freshIds n, 1))
  if bg then (bndry.foldl assignOne s).1 else s.1

/-- `OwnedVerts`, `OwnedEdges`, `OwnedFaces` (`init_pvert_lists`, `init_pedge_lists`, `init_pface_lists`,
Mesh_MSTK.cc:3732-3776, 3853-3889) -/
def ownedList {n : Nat} (pt : Fin n → PType) : List (Fin n) := (List.finRange n).filter fun i => pt i ≠ .ghost

/-- `NotOwnedVerts`, `NotOwnedEdges`, `NotOwnedFaces`, `GhostCells` -/
def ghostList {n : Nat} (pt : Fin n → PType) : List (Fin n) := (List.finRange n).filter fun i => pt i = .ghost

/-- `OwnedCells` (`init_pcell_lists`, Mesh_MSTK.cc:4060-4105); `bg` is `boundary_ghosts_requested_`, `mk` the attribute -/
def ownedCells {n : Nat} (bg : Bool) (pt : Fin n → PType) (mk : Fin n → Bool) : List (Fin n) :=
  (List.finRange n).filter fun i => pt i ≠ .ghost ∧ ¬(bg && mk i)

/-- `BoundaryGhostCells` (Mesh_MSTK.cc:4060-4105) -/
def bndryCells {n : Nat} (bg : Bool) (pt : Fin n → PType) (mk : Fin n → Bool) : List (Fin n) :=
  (List.finRange n).filter fun i => pt i ≠ .ghost ∧ (bg && mk i)

/-- vertices: `init_nodes` (Mesh_MSTK.cc:3409-3420) -/
def MMesh.vmap (m : MMesh) : IdMap m.nv :=
  idMap2 (ownedList fun i => (m.vtx i).ptype) (ghostList fun i => (m.vtx i).ptype)

/-- MSTK edges: `init_edges`, and `init_faces` of a 2D mesh, which assigns the same ids (Mesh_MSTK.cc:3448-3465, 3497-3516) -/
def MMesh.emap (m : MMesh) : IdMap m.ne :=
  idMap2 (ownedList fun i => (m.edge i).ptype) (ghostList fun i => (m.edge i).ptype)

/-- MSTK faces as faces of a 3D mesh: `init_faces` (Mesh_MSTK.cc:3497-3516) -/
def MMesh.fmap (m : MMesh) : IdMap m.nf :=
  idMap2 (ownedList fun i => (m.face i).ptype) (ghostList fun i => (m.face i).ptype)

/-- MSTK regions as cells of a 3D mesh: `init_cells` (Mesh_MSTK.cc:3547-3556) -/
def MMesh.rmap (m : MMesh) (bg : Bool) : IdMap m.nr :=
  idMap3 bg (ownedCells bg (fun i => (m.region i).ptype) fun i => (m.region i).bndryGhost)
    (ghostList fun i => (m.region i).ptype) (bndryCells bg (fun i => (m.region i).ptype) fun i => (m.region i).bndryGhost)

/-- MSTK faces as cells of a 2D mesh: `init_cells` -/
def MMesh.cmap (m : MMesh) (bg : Bool) : IdMap m.nf :=
  idMap3 bg (ownedCells bg (fun i => (m.face i).ptype) fun i => (m.face i).bndryGhost)
    (ghostList fun i => (m.face i).ptype) (bndryCells bg (fun i => (m.face i).ptype) fun i => (m.face i).bndryGhost)

/-- the lists of ids: owned, ghost, boundary ghost, all -/
structure IdLists where
  owned : List Nat
  ghost : List Nat
  bndry : List Nat
  all : List Nat
deriving DecidableEq, Repr

/-- filling of `nodeids_owned_`, `nodeids_ghost_`, `nodeids_all_` and the same for edges and faces
(Mesh_MSTK.cc:3422-3444, 3468-3493, 3519-3543) -/
def idLists2 {n : Nat} (im : IdMap n) (owned ghost : List (Fin n)) : IdLists :=
  ⟨owned.map fun v => im.id v - 1, ghost.map fun v => im.id v - 1, [],
    (owned.map fun v => im.id v - 1) ++ ghost.map fun v => im.id v - 1⟩

/-- filling of `cellids_*` (Mesh_MSTK.cc:3559-3597) -/
def idLists3 {n : Nat} (im : IdMap n) (bg : Bool) (owned ghost bndry : List (Fin n)) : IdLists :=
  ⟨owned.map fun v => im.id v - 1, ghost.map fun v => im.id v - 1,
    if bg then bndry.map fun v => im.id v - 1 else [],
    (owned.map fun v => im.id v - 1) ++ (ghost.map fun v => im.id v - 1) ++
      if bg then bndry.map fun v => im.id v - 1 else []⟩

def MMesh.nodeIds (m : MMesh) : IdLists :=
  idLists2 m.vmap (ownedList fun i => (m.vtx i).ptype) (ghostList fun i => (m.vtx i).ptype)
def MMesh.edgeIds (m : MMesh) : IdLists :=
  idLists2 m.emap (ownedList fun i => (m.edge i).ptype) (ghostList fun i => (m.edge i).ptype)
def MMesh.faceIds3 (m : MMesh) : IdLists :=
  idLists2 m.fmap (ownedList fun i => (m.face i).ptype) (ghostList fun i => (m.face i).ptype)
def MMesh.cellIds3 (m : MMesh) (bg : Bool) : IdLists :=
  idLists3 (m.rmap bg) bg (ownedCells bg (fun i => (m.region i).ptype) fun i => (m.region i).bndryGhost)
    (ghostList fun i => (m.region i).ptype) (bndryCells bg (fun i => (m.region i).ptype) fun i => (m.region i).bndryGhost)
def MMesh.cellIds2 (m : MMesh) (bg : Bool) : IdLists :=
  idLists3 (m.cmap bg) bg (ownedCells bg (fun i => (m.face i).ptype) fun i => (m.face i).bndryGhost)
    (ghostList fun i => (m.face i).ptype) (bndryCells bg (fun i => (m.face i).ptype) fun i => (m.face i).bndryGhost)

/-! ### The mesh object -/

/-- a `Mesh_MSTK` after `post_create_steps_` (Mesh_MSTK.cc:3359-3391): the MSTK mesh, the requests, the flags
`faceflip`, `edgeflip` (indexed by Jali's ids) -/
structure JMesh where
  m : MMesh
  faces : Bool
  edges : Bool
  bg : Bool
  serial : Bool
  faceflip : List Bool
  edgeflip : List Bool

/-- `x_id_to_handle[id]`; reading out of range or a null pointer is undefined -/
def IdMap.at {n : Nat} (im : IdMap n) (i : Nat) : Option (Fin n) := (im.handle[i]?).join

/-- direction flag 0 or 1 to -1 or 1: `2*dir - 1` -/
def dirInt (d : Bool) : Int := if d then 1 else -1

/-- does the entity pass the type filter: `PGHOST` needs `PARALLEL_GHOST` or `ALL`, everything else `PARALLEL_OWNED` or `ALL`
(Mesh_MSTK.cc:1945-1960 and all other queries with a type) -/
def passes (ty : EntityType) (p : PType) : Bool :=
  if p = .ghost then ty = .PARALLEL_GHOST || ty = .ALL else ty = .PARALLEL_OWNED || ty = .ALL

/-- `GID` for nodes (Mesh_MSTK.cc:3328-3353); the other kinds are alike. -1 for an entity without a global id -/
def gidOf (serial : Bool) (gid id : Nat) : Int :=
  if serial then (if gid ≠ 0 then (gid : Int) - 1 else (id : Int) - 1) else (gid : Int) - 1

def JMesh.nodeGid (j : JMesh) (n : Nat) : Option Int :=
  (j.m.vmap.at n).map fun v => gidOf j.serial (j.m.vtx v).gid (j.m.vmap.id v)
def JMesh.cellGid3 (j : JMesh) (c : Nat) : Option Int :=
  ((j.m.rmap j.bg).at c).map fun r => gidOf j.serial (j.m.region r).gid ((j.m.rmap j.bg).id r)
def JMesh.faceGid3 (j : JMesh) (f : Nat) : Option Int :=
  (j.m.fmap.at f).map fun f => gidOf j.serial (j.m.face f).gid (j.m.fmap.id f)
/-- edges, and faces of a 2D mesh -/
def JMesh.edgeGid (j : JMesh) (e : Nat) : Option Int :=
  (j.m.emap.at e).map fun e => gidOf j.serial (j.m.edge e).gid (j.m.emap.id e)
def JMesh.cellGid2 (j : JMesh) (c : Nat) : Option Int :=
  ((j.m.cmap j.bg).at c).map fun f => gidOf j.serial (j.m.face f).gid ((j.m.cmap j.bg).id f)

/-- direction of an entity after the flip: `faceflip[lid] ? -fdir : fdir` (Mesh_MSTK.cc:1465, 1507, 1775) -/
def flipped (flip : List Bool) (lid : Nat) (d : Bool) : Option Int :=
  (flip[lid]?).map fun fl => if fl then - dirInt d else dirInt d

/-! ### Cell types -/

/-- `MFace_Celltype` (Mesh_MSTK.cc:4479-4492) -/
def MMesh.faceCelltype (m : MMesh) (f : Face m.ne) : CellType :=
  if (m.mfVertices f true).length = 3 then .TRI
  else if (m.mfVertices f true).length = 4 then .QUAD
  else .POLYGON

/-- the number of quadrilateral faces: `MF_Num_Vertices(face) == 4` (Mesh_MSTK.cc:4508-4512, 4528-4532) -/
def MMesh.numQuads (m : MMesh) (r : Region m.nf) : Nat :=
  (r.faces.filter fun p => (m.mfVertices (m.face p.1) true).length = 4).length

/-- `MRegion_Celltype` (Mesh_MSTK.cc:4494-4546) -/
def MMesh.regionCelltype (m : MMesh) (r : Region m.nf) : CellType :=
  if r.faces.length = 4 then .TET
  else if r.faces.length = 5 then
    if m.numQuads r = 1 then .PYRAMID else if m.numQuads r = 3 then .PRISM else .POLYHED
  else if r.faces.length = 6 then if m.numQuads r = 6 then .HEX else .POLYHED
  else .POLYHED

/-- `cell_get_type` (Mesh_MSTK.cc:1246-1260), labelled by `label_celltype` (4549-4573) -/
def JMesh.cellType3 (j : JMesh) (c : Nat) : Option CellType :=
  ((j.m.rmap j.bg).at c).map fun r => j.m.regionCelltype (j.m.region r)
def JMesh.cellType2 (j : JMesh) (c : Nat) : Option CellType :=
  ((j.m.cmap j.bg).at c).map fun f => j.m.faceCelltype (j.m.face f)

/-! ### Downward queries -/

/-- `cell_get_faces_and_dirs_unordered`, 3D (Mesh_MSTK.cc:1416-1469; `assert(faces_initialized)` in 1521) -/
def JMesh.cellFaces3 (j : JMesh) (c : Nat) : Option (List (Nat × Int)) :=
  if j.faces then
    ((j.m.rmap j.bg).at c).bind fun r => (j.m.region r).faces.mapM fun p =>
      (flipped j.faceflip (j.m.fmap.id p.1 - 1) p.2).map fun d => (j.m.fmap.id p.1 - 1, d)
  else none

/-- `cell_get_faces_and_dirs_unordered`, 2D (Mesh_MSTK.cc:1471-1512) -/
def JMesh.cellFaces2 (j : JMesh) (c : Nat) : Option (List (Nat × Int)) :=
  if j.faces then
    ((j.m.cmap j.bg).at c).bind fun f => (j.m.face f).edges.mapM fun p =>
      (flipped j.faceflip (j.m.emap.id p.1 - 1) p.2).map fun d => (j.m.emap.id p.1 - 1, d)
  else none

/-- `cell_get_edges_internal`, 3D (Mesh_MSTK.cc:1530-1555) -/
def JMesh.cellEdges3 (j : JMesh) (c : Nat) : Option (List Nat) :=
  if j.edges then
    ((j.m.rmap j.bg).at c).map fun r => (j.m.mrEdges (j.m.region r)).map fun e => j.m.emap.id e - 1
  else none

/-- `cell_get_edges_internal`, 2D (Mesh_MSTK.cc:1569-1586) -/
def JMesh.cellEdges2 (j : JMesh) (c : Nat) : Option (List Nat) :=
  if j.edges then
    ((j.m.cmap j.bg).at c).map fun f => ((j.m.face f).mfEdges true).map fun e => j.m.emap.id e - 1
  else none

/-- `cell_2D_get_edges_and_dirs_internal` (Mesh_MSTK.cc:1606-1648); `edgeflip` is not used -/
def JMesh.cell2DEdges (j : JMesh) (c : Nat) : Option (List (Nat × Int)) :=
  if j.edges then
    ((j.m.cmap j.bg).at c).map fun f => (j.m.face f).edges.map fun p => (j.m.emap.id p.1 - 1, dirInt p.2)
  else none

/-- `cell_get_nodes`, 3D (Mesh_MSTK.cc:1678-1718) -/
def JMesh.cellNodes3 (j : JMesh) (c : Nat) : Option (List Nat) :=
  ((j.m.rmap j.bg).at c).map fun r => (j.m.mrVertices (j.m.region r)).map fun v => j.m.vmap.id v - 1

/-- `cell_get_nodes`, 2D (Mesh_MSTK.cc:1719-1731) -/
def JMesh.cellNodes2 (j : JMesh) (c : Nat) : Option (List Nat) :=
  ((j.m.cmap j.bg).at c).map fun f => (j.m.mfVertices (j.m.face f) true).map fun v => j.m.vmap.id v - 1

/-- `face_get_edges_and_dirs_internal`, 3D (Mesh_MSTK.cc:1737-1792) -/
def JMesh.faceEdges3 (j : JMesh) (f : Nat) : Option (List (Nat × Int)) :=
  if j.faces && j.edges then
    (j.m.fmap.at f).bind fun f => (j.m.face f).edges.mapM fun p =>
      (flipped j.edgeflip (j.m.emap.id p.1 - 1) p.2).map fun d => (j.m.emap.id p.1 - 1, d)
  else none

/-- `face_get_edges_and_dirs_internal`, 2D (Mesh_MSTK.cc:1793-1806) -/
def JMesh.faceEdges2 (j : JMesh) (f : Nat) : Option (List (Nat × Int)) :=
  if j.faces && j.edges then (j.m.emap.at f).map fun e => [(j.m.emap.id e - 1, 1)] else none

/-- `face_get_nodes`, 3D (Mesh_MSTK.cc:1816-1857) -/
def JMesh.faceNodes3 (j : JMesh) (f : Nat) : Option (List Nat) :=
  if j.faces then
    (j.m.fmap.at f).bind fun fh => (j.faceflip[f]?).map fun fl =>
      (j.m.mfVertices (j.m.face fh) (!fl)).map fun v => j.m.vmap.id v - 1
  else none

/-- `face_get_nodes`, 2D (Mesh_MSTK.cc:1858-1868) -/
def JMesh.faceNodes2 (j : JMesh) (f : Nat) : Option (List Nat) :=
  if j.faces then
    (j.m.emap.at f).bind fun e => (j.faceflip[f]?).map fun fl =>
      if fl then [j.m.vmap.id (j.m.edge e).v1 - 1, j.m.vmap.id (j.m.edge e).v0 - 1]
      else [j.m.vmap.id (j.m.edge e).v0 - 1, j.m.vmap.id (j.m.edge e).v1 - 1]
  else none

/-- `edge_get_nodes_internal` (Mesh_MSTK.cc:1873-1887) -/
def JMesh.edgeNodes (j : JMesh) (e : Nat) : Option (Nat × Nat) :=
  if j.edges then
    (j.m.emap.at e).bind fun eh => (j.edgeflip[e]?).map fun fl =>
      if fl then (j.m.vmap.id (j.m.edge eh).v1 - 1, j.m.vmap.id (j.m.edge eh).v0 - 1)
      else (j.m.vmap.id (j.m.edge eh).v0 - 1, j.m.vmap.id (j.m.edge eh).v1 - 1)
  else none

/-! ### Upward queries -/

/-- `node_get_cells`, 3D (Mesh_MSTK.cc:1892-1969) -/
def JMesh.nodeCells3 (j : JMesh) (n : Nat) (ty : EntityType) : Option (List Nat) :=
  (j.m.vmap.at n).map fun v =>
    ((j.m.mvRegions v).filter fun r => passes ty (j.m.region r).ptype).map fun r => (j.m.rmap j.bg).id r - 1

/-- `node_get_cells`, 2D -/
def JMesh.nodeCells2 (j : JMesh) (n : Nat) (ty : EntityType) : Option (List Nat) :=
  (j.m.vmap.at n).map fun v =>
    ((j.m.mvFaces v).filter fun f => passes ty (j.m.face f).ptype).map fun f => (j.m.cmap j.bg).id f - 1

/-- `node_get_faces`, 3D (Mesh_MSTK.cc:1979-2058) -/
def JMesh.nodeFaces3 (j : JMesh) (n : Nat) (ty : EntityType) : Option (List Nat) :=
  if j.faces then
    (j.m.vmap.at n).map fun v =>
      ((j.m.mvFaces v).filter fun f => passes ty (j.m.face f).ptype).map fun f => j.m.fmap.id f - 1
  else none

/-- `node_get_faces`, 2D -/
def JMesh.nodeFaces2 (j : JMesh) (n : Nat) (ty : EntityType) : Option (List Nat) :=
  if j.faces then
    (j.m.vmap.at n).map fun v =>
      ((j.m.mvEdges v).filter fun e => passes ty (j.m.edge e).ptype).map fun e => j.m.emap.id e - 1
  else none

/-- `node_get_cell_faces`, 3D (Mesh_MSTK.cc:2067-2113) -/
def JMesh.nodeCellFaces3 (j : JMesh) (n c : Nat) (ty : EntityType) : Option (List Nat) :=
  if j.faces then
    (j.m.vmap.at n).bind fun v => ((j.m.rmap j.bg).at c).map fun r =>
      (((j.m.region r).mrFaces.filter fun f => v ∈ j.m.mfVertices (j.m.face f) true).filter fun f =>
        passes ty (j.m.face f).ptype).map fun f => j.m.fmap.id f - 1
  else none

/-- `node_get_cell_faces`, 2D (Mesh_MSTK.cc:2114-2146) -/
def JMesh.nodeCellFaces2 (j : JMesh) (n c : Nat) (ty : EntityType) : Option (List Nat) :=
  if j.faces then
    (j.m.vmap.at n).bind fun v => ((j.m.cmap j.bg).at c).map fun f =>
      ((((j.m.face f).mfEdges true).filter fun e => v = (j.m.edge e).v0 ∨ v = (j.m.edge e).v1).filter fun e =>
        passes ty (j.m.edge e).ptype).map fun e => j.m.emap.id e - 1
  else none

/-- `face_get_cells_internal`, 3D (Mesh_MSTK.cc:2153-2184) -/
def JMesh.faceCells3 (j : JMesh) (f : Nat) (ty : EntityType) : Option (List Nat) :=
  if j.faces then
    (j.m.fmap.at f).map fun f =>
      ((j.m.mfRegions f).filter fun r => passes ty (j.m.region r).ptype).map fun r => (j.m.rmap j.bg).id r - 1
  else none

/-- `face_get_cells_internal`, 2D (Mesh_MSTK.cc:2185-2208) -/
def JMesh.faceCells2 (j : JMesh) (f : Nat) (ty : EntityType) : Option (List Nat) :=
  if j.faces then
    (j.m.emap.at f).map fun e =>
      ((j.m.meFaces e).filter fun f => passes ty (j.m.face f).ptype).map fun f => (j.m.cmap j.bg).id f - 1
  else none

/-! ### Neighbours -/

/-- `cell_get_face_adj_cells`, 3D (Mesh_MSTK.cc:2220-2264) -/
def JMesh.faceAdj3 (j : JMesh) (c : Nat) (ty : EntityType) : Option (List Nat) :=
  if j.faces then
    ((j.m.rmap j.bg).at c).map fun r => (j.m.region r).mrFaces.flatMap fun f =>
      ((j.m.mfRegions f).filter fun r2 => r2 ≠ r ∧ passes ty (j.m.region r2).ptype).map fun r2 => (j.m.rmap j.bg).id r2 - 1
  else none

/-- `cell_get_face_adj_cells`, 2D (Mesh_MSTK.cc:2266-2301) -/
def JMesh.faceAdj2 (j : JMesh) (c : Nat) (ty : EntityType) : Option (List Nat) :=
  if j.faces then
    ((j.m.cmap j.bg).at c).map fun f => ((j.m.face f).mfEdges true).flatMap fun e =>
      ((j.m.meFaces e).filter fun f2 => f2 ≠ f ∧ passes ty (j.m.face f2).ptype).map fun f2 => (j.m.cmap j.bg).id f2 - 1
  else none

/-- one turn of the inner loop of `cell_get_node_adj_cells`: `cell_list` and the result (Mesh_MSTK.cc:2337-2353) -/
def nodeAdjStep {n : Nat} (self : Fin n) (ok : Fin n → Bool) (id : Fin n → Nat) (s : List (Fin n) × List Nat) (x : Fin n) :
    List (Fin n) × List Nat :=
  if x ≠ self ∧ x ∉ s.1 then (s.1 ++ [x], if ok x then s.2 ++ [id x - 1] else s.2) else s

/-- `cell_get_node_adj_cells`, 3D (Mesh_MSTK.cc:2312-2360) -/
def JMesh.nodeAdj3 (j : JMesh) (c : Nat) (ty : EntityType) : Option (List Nat) :=
  ((j.m.rmap j.bg).at c).map fun r =>
    (((j.m.mrVertices (j.m.region r)).flatMap j.m.mvRegions).foldl
      (nodeAdjStep r (fun r2 => passes ty (j.m.region r2).ptype) (j.m.rmap j.bg).id) ([], [])).2

/-- `cell_get_node_adj_cells`, 2D (Mesh_MSTK.cc:2362-2394) -/
def JMesh.nodeAdj2 (j : JMesh) (c : Nat) (ty : EntityType) : Option (List Nat) :=
  ((j.m.cmap j.bg).at c).map fun f =>
    (((j.m.mfVertices (j.m.face f) true).flatMap j.m.mvFaces).foldl
      (nodeAdjStep f (fun f2 => passes ty (j.m.face f2).ptype) (j.m.cmap j.bg).id) ([], [])).2

end Jali.Mstk
