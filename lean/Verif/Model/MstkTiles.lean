import Verif.Model.MstkBase
import Verif.Model.Partition
/-
Tiles of a mesh made by MSTK: `post_create_steps_` calls `build_tiles` after all caches are filled
(src/mesh/mesh_mstk/Mesh_MSTK.cc:3384-3387). `none` is an access out of range.
-/
namespace Jali.Mstk

/-- the answers of the queries the tile code makes (src/mesh/MeshTile.cc:86-310); sides, wedges and corners come from the caches -/
def JMesh.tileTopo3 (j : JMesh) (k : Types.Caches) : Tile.Topo where
  ncells := (j.m.cellIds3 j.bg).all.length
  nnodes := j.m.nodeIds.all.length
  nfaces := j.m.faceIds3.all.length
  nedges := j.m.edgeIds.all.length
  cellAdj c := (j.nodeAdj3 c .ALL).getD []
  cellNodes c := (j.cellNodes3 c).getD []
  cellFaces c := ((j.cellGetFaces3 c).getD []).map Prod.fst
  cellEdges c := (j.cellGetEdges3 c).getD []
  cellSides c := (k.side.bind fun i => i.cellGetSides c).getD []
  cellWedges c := (k.side.bind fun i => i.cellGetWedges c).getD []
  cellCorners c := (k.corner.bind fun i => i.cellCorners[c]?).getD []
def JMesh.tileTopo2 (j : JMesh) (sdim : Nat) (k : Types.Caches) : Tile.Topo where
  ncells := (j.m.cellIds2 j.bg).all.length
  nnodes := j.m.nodeIds.all.length
  nfaces := j.m.edgeIds.all.length
  nedges := j.m.edgeIds.all.length
  cellAdj c := (j.nodeAdj2 c .ALL).getD []
  cellNodes c := (j.cellNodes2 c).getD []
  cellFaces c := ((j.cellGetFaces2 c).getD []).map Prod.fst
  cellEdges c := (j.cellGetEdges2 sdim c).getD []
  cellSides c := (k.side.bind fun i => i.cellGetSides c).getD []
  cellWedges c := (k.side.bind fun i => i.cellGetWedges c).getD []
  cellCorners c := (k.corner.bind fun i => i.cellCorners[c]?).getD []

/-- the flags `*_requested` -/
def tileFlags (r : MeshCache.Request) : Tile.Flags := ⟨r.faces, r.edges, r.sides, r.wedges, r.corners⟩

/-- `build_tiles` (Mesh.cc:598-616) after the partitioner has returned `parts` -/
def JMesh.buildParts3 (j : JMesh) (r : MeshCache.Request) (layers : Nat) (parts : List (List Nat)) : Option (Types.Caches × Tile.Mesh) :=
  (Types.cacheExtra (j.base3 r)).bind fun k => (Tile.buildTiles (j.tileTopo3 k) (tileFlags r) layers parts).map fun M => (k, M)
def JMesh.buildParts2 (j : JMesh) (sdim : Nat) (r : MeshCache.Request) (layers : Nat) (parts : List (List Nat)) :
    Option (Types.Caches × Tile.Mesh) :=
  (Types.cacheExtra (j.base2 r)).bind fun k => (Tile.buildTiles (j.tileTopo2 sdim k) (tileFlags r) layers parts).map fun M => (k, M)

/-- `build_tiles` with the INDEX partitioner (3151-3175), which counts owned cells -/
def JMesh.buildTiles3 (j : JMesh) (r : MeshCache.Request) (layers numTiles : Nat) : Option (Types.Caches × Tile.Mesh) :=
  j.buildParts3 r layers (Partition.byIndexSpace (j.m.cellIds3 j.bg).owned.length numTiles)
def JMesh.buildTiles2 (j : JMesh) (sdim : Nat) (r : MeshCache.Request) (layers numTiles : Nat) :
    Option (Types.Caches × Tile.Mesh) :=
  j.buildParts2 sdim r layers (Partition.byIndexSpace (j.m.cellIds2 j.bg).owned.length numTiles)

/-- `build_tiles` with any partitioner (Mesh.cc:598-616, 3081-3148): `env` is whether METIS was built in, what METIS answers and what
`get_partitioning_by_blocks` leaves -/
def JMesh.buildTilesBy3 (j : JMesh) (r : MeshCache.Request) (layers numTiles : Nat) (p : Partition.Partitioner) (env : Partition.Env) :
    Option (Types.Caches × Tile.Mesh) :=
  (Partition.getPartitioning env 3 p (j.m.cellIds3 j.bg).owned.length numTiles).bind (j.buildParts3 r layers)
def JMesh.buildTilesBy2 (j : JMesh) (sdim : Nat) (r : MeshCache.Request) (layers numTiles : Nat) (p : Partition.Partitioner)
    (env : Partition.Env) : Option (Types.Caches × Tile.Mesh) :=
  (Partition.getPartitioning env sdim p (j.m.cellIds2 j.bg).owned.length numTiles).bind (j.buildParts2 sdim r layers)

end Jali.Mstk
