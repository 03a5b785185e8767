import Verif.Model.MstkGeometry
import Verif.Model.SideGeometry
import Verif.Model.EntityTypes
/-
The code for the geometry of sides, wedges and corners (`Model/SideGeometry.lean`) on top of an MSTK mesh, with the caches of the base
class (`Model/EntityTypes.lean`). The centroid of an entity that does not exist is the origin here; the theorems are about entities that
exist.
-/
namespace Jali.Mstk
noncomputable section
open Jali.Geom Jali.Geom.Point Jali.SideGeom

/-- what `Mesh` knows of the mesh -/
def Source.base (s : Source ℝ) (r : MeshCache.Request) : Types.Base := if s.dim3 then s.j.base3 r else s.j.base2 r

/-- what `compute_cell_geometric_quantities` stores for a cell (Mesh.cc:1020-1044): zero for boundary ghosts -/
def Source.cellGeo (s : Source ℝ) (t : Types.TypeInfo) (c : Nat) : Option (ℝ × Point) :=
  if t.cell[c]? = some .BOUNDARY_GHOST then some (0, Point.zero s.spaceDim) else MeshGeom.computeCellGeometry s.gmesh c

/-- coordinates and centroids as reported: `node_get_coordinates`, `face_centroid`, `cell_centroid` (Mesh.cc:1661-1693) -/
def Source.coords (s : Source ℝ) (t : Types.TypeInfo) : Coords where
  spaceDim := s.spaceDim
  geomType := .CARTESIAN
  nodeCoord := s.gmesh.nodeCoord
  faceCentroid f := ((s.faceGet f).bind fun _ => (MeshGeom.computeFaceGeometry s.gmesh f).map (·.2.1)).getD (Point.zero s.spaceDim)
  cellCentroid c := ((s.cellGet c).bind fun _ => (s.cellGeo t c).map (·.2)).getD (Point.zero s.spaceDim)

/-- the mesh after `cache_extra_variables` (Mesh.cc:565-594) with caches `c`, of which `i` are those of sides and `k` those of
corners -/
def Source.smesh (s : Source ℝ) (r : MeshCache.Request) (c : Types.Caches) (i : Sides.Info) (k : Sides.CornerInfo) : SMesh :=
  ofCaches (Types.source (s.base r) c.types) i k (s.coords c.types)

/-- what `compute_side_geometric_quantities` stores for a side (Mesh.cc:1117-1132), on its first call: zero for boundary ghosts -/
def Source.sideGeo (s : Source ℝ) (r : MeshCache.Request) (c : Types.Caches) (i : Sides.Info) (k : Sides.CornerInfo) (x : Nat) :
    Option SideGeo :=
  if Types.entityGetType (s.base r) c .SIDE x = some .BOUNDARY_GHOST then some ⟨0, Point.zero s.spaceDim, Point.zero s.spaceDim⟩
  else sideStored (s.smesh r c i k) x

/-- `side_volume(x)` (Mesh.cc:1610-1623) -/
def Source.sideVolume (s : Source ℝ) (r : MeshCache.Request) (c : Types.Caches) (i : Sides.Info) (k : Sides.CornerInfo) (x : Nat) :
    Option ℝ := (s.sideGeo r c i k x).map (·.vol)

/-- `side_facet_normal(x)` (Mesh.cc:1964-1982) -/
def Source.sideNormal (s : Source ℝ) (r : MeshCache.Request) (c : Types.Caches) (i : Sides.Info) (k : Sides.CornerInfo) (x : Nat) :
    Option Point := (s.sideGeo r c i k x).map (·.outward)

/-- `wedge_volume(w)` (Mesh.cc:1627-1642) -/
def Source.wedgeVolume (s : Source ℝ) (r : MeshCache.Request) (c : Types.Caches) (i : Sides.Info) (k : Sides.CornerInfo) (w : Nat) :
    Option ℝ := (s.sideVolume r c i k (w / 2)).map (· / 2)

/-- the loop adding up volumes of wedges in `compute_corner_geometry` (Mesh.cc:1554-1559) -/
def Source.sumWedges (s : Source ℝ) (r : MeshCache.Request) (c : Types.Caches) (i : Sides.Info) (k : Sides.CornerInfo) :
    List Nat → ℝ → Option ℝ
  | [], v => some v
  | w :: ws, v => (s.wedgeVolume r c i k w).bind fun x => s.sumWedges r c i k ws (v + x)

/-- `corner_volume(cn)` (Mesh.cc:1136-1147, 1548-1560, 1646-1658): zero for boundary ghosts -/
def Source.cornerVolume (s : Source ℝ) (r : MeshCache.Request) (c : Types.Caches) (i : Sides.Info) (k : Sides.CornerInfo) (cn : Nat) :
    Option ℝ :=
  if Types.entityGetType (s.base r) c .CORNER cn = some .BOUNDARY_GHOST then some 0
  else (k.cornerWedges[cn]?).bind fun ws => s.sumWedges r c i k ws 0

end
end Jali.Mstk
