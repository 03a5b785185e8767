import Verif.Model.MstkTiles
import Verif.Spec.MstkMesh
/-
What a user expects of the tiles of a mesh.
-/
namespace Jali.Mstk

/-- entity `e` is owned by exactly one tile, its master tile -/
def Once (owns : Nat → Nat → Prop) (master : Nat → Option Int) (e : Nat) : Prop :=
  ∃ i : Nat, owns i e ∧ master e = some (i : Int) ∧ ∀ i', owns i' e → i' = i

/-- cell `x` can be reached from `cells` in at most `k` steps from a cell to a cell that shares a node with it -/
def Within (node : Nat → Nat → Prop) (cells : List Nat) : Nat → Nat → Prop
  | 0, x => x ∈ cells
  | k + 1, x => Within node cells k x ∨ ∃ y, Within node cells k y ∧ ∃ n, node y n ∧ node x n

/-- the lists of a tile for one kind of entity: owned ones, then ghosts, without repetition; together the entities of the tile's
cells -/
def ListsOf (l : Tile.Lists) (cells : List Nat) (of : Nat → Nat → Prop) : Prop :=
  l.all = l.owned ++ l.ghost ∧ l.all.Nodup ∧ ∀ e, e ∈ l.all ↔ ∃ c ∈ cells, of c e

/-- `node c n`: `n` is a node of cell `c`, and so on -/
structure TilesOk (M : Tile.Mesh) (r : MeshCache.Request) (numTiles layers : Nat) (L : IdLists)
    (node face edge wedge corner : Nat → Nat → Prop) : Prop where
  count : M.tiles.length = numTiles
  cells : ∀ c ∈ L.owned, Once (fun i e => ∃ t, M.tiles[i]? = some t ∧ e ∈ t.cells.owned) M.masterOfCell c
  others : ∀ c ∈ L.ghost ++ L.bndry, M.masterOfCell c = some (-1) ∧ ∀ t ∈ M.tiles, c ∉ t.cells.owned
  halo : ∀ t ∈ M.tiles, t.cells.all = t.cells.owned ++ t.cells.ghost ∧ t.cells.all.Nodup ∧
    ∀ x, x ∈ t.cells.ghost ↔ Within node t.cells.owned layers x ∧ x ∉ t.cells.owned
  nodes : ∀ c n, c ∈ L.owned → node c n → Once (fun i e => ∃ t, M.tiles[i]? = some t ∧ e ∈ t.nodes.owned) M.masterOfNode n
  faces : r.faces = true → ∀ c f, c ∈ L.owned → face c f →
    Once (fun i e => ∃ t, M.tiles[i]? = some t ∧ e ∈ t.faces.owned) M.masterOfFace f
  edges : r.edges = true → ∀ c e, c ∈ L.owned → edge c e →
    Once (fun i e => ∃ t, M.tiles[i]? = some t ∧ e ∈ t.edges.owned) M.masterOfEdge e
  nodesOf : ∀ t ∈ M.tiles, ListsOf t.nodes t.cells.all node
  facesOf : r.faces = true → ∀ t ∈ M.tiles, ListsOf t.faces t.cells.all face
  edgesOf : r.edges = true → ∀ t ∈ M.tiles, ListsOf t.edges t.cells.all edge
  wedgesOf : r.wedges = true → ∀ t ∈ M.tiles, ListsOf t.wedges t.cells.all wedge
  cornersOf : r.corners = true → ∀ t ∈ M.tiles, ListsOf t.corners t.cells.all corner

end Jali.Mstk
