import Verif.Model.Regions
import Verif.Model.Tile
/-
The computation of examples/ToyNumerics/ToyNumerics.cc on the tiles of a mesh: averages of a density over neighbouring cells and
velocities at nodes. Numbers are real; `none` is NaN (0.0 / 0). The state vectors `rhoMetal`, `rhobar`, `nodevel` are their contents
(state vectors are modelled in Model/State.lean); messages are dropped.
-/
namespace Jali.Toy
open Jali.Geom

/-- what the loops ask the mesh: `cell_get_node_adj_cells(c, ALL)`, `node_get_cells(n, ALL)`, `cell_centroid(c)` -/
structure Asked where
  nbrs : Nat → List Nat
  nodeCells : Nat → List Nat
  centroid : Nat → Point

/-- `initialize_data` (ToyNumerics.cc:286-298): zero, then the sum of the coordinates of the centroid on the owned cells -/
noncomputable def density (a : Asked) (owned : List Nat) : Nat → ℝ :=
  owned.foldl (fun rho c x => if x = c then (a.centroid c).coord 0 + (a.centroid c).coord 1 + (a.centroid c).coord 2 else rho x) fun _ => 0

/-- `x + y` where `x` may be NaN -/
noncomputable def plus (x : Option ℝ) (y : ℝ) : Option ℝ := x.map (· + y)

/-- the body of the loop over the cells of a tile (ToyNumerics.cc:180-182) -/
noncomputable def cellBody (nbrs : List Nat) (rho : Nat → ℝ) (v : Option ℝ) : Option ℝ :=
  let s := nbrs.foldl (fun s n => plus s (rho n)) v
  if nbrs.length = 0 then none else s.map (· / nbrs.length)

/-- one pass of the body for cell `c` -/
noncomputable def visitCell (a : Asked) (rho : Nat → ℝ) (ave : Nat → Option ℝ) (c : Nat) : Nat → Option ℝ :=
  fun x => if x = c then cellBody (a.nbrs c) rho (ave c) else ave x

/-- `ave_density` after the loop over all tiles (ToyNumerics.cc:168-184); `t->cells()` is `t->cells<Entity_type::ALL>()` (MeshTile.hh:286) -/
noncomputable def averages (a : Asked) (tiles : List Tile.Tile) (rho : Nat → ℝ) : Nat → Option ℝ :=
  tiles.foldl (fun ave t => t.cells.all.foldl (visitCell a rho) ave) fun _ => some 0

/-- the body of the loop over the nodes of a tile (ToyNumerics.cc:219-231): one component of `tmpvels` -/
noncomputable def nodeBody (a : Asked) (rhobar : Nat → Option ℝ) (cells : List Nat) (i : Nat) : Option ℝ :=
  cells.foldl (fun s c => s.bind fun s => (rhobar c).map fun r => s + r * (a.centroid c).coord i) (some 0)

/-- one pass of the body for node `n`: `vels[n] = tmpvels` -/
noncomputable def visitNode (a : Asked) (rhobar : Nat → Option ℝ) (vels : Nat → Nat → Option ℝ) (n : Nat) : Nat → Nat → Option ℝ :=
  fun x => if x = n then nodeBody a rhobar (a.nodeCells n) else vels x

/-- `nodevel` after the loop over all tiles (ToyNumerics.cc:211-235), from the values set by `initialize_data` (305-316): zero -/
noncomputable def velocities (a : Asked) (tiles : List Tile.Tile) (rhobar : Nat → Option ℝ) : Nat → Nat → Option ℝ :=
  tiles.foldl (fun v t => t.nodes.all.foldl (visitNode a rhobar) v) fun _ _ => some 0

end Jali.Toy
