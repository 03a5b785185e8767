import Verif.Model.MeshGeometry
import Verif.Model.Regions
/-
What the construction of sets from regions asks of the geometry of a mesh (src/mesh/Mesh.cc:2650-3022): `Geo` filled in for a mesh
whose points are real, and regions as defined by the classes of src/geometry.
-/
namespace Jali.Reg
open Jali.Geom Jali.MeshGeom
noncomputable section

/-- `cell_dimension`, `cell_centroid` and `face_centroid` (Mesh.cc:1661-1693), `node_get_coordinates`, `cell_get_coordinates` and
`face_get_coordinates` of a mesh. Simplified: the centroids are those computed from the coordinates, not a possibly stale copy; a
centroid that cannot be computed (the geometry computation stops the program) is the point without coordinates. The cells around a node,
`point_in_cell` and the distances are parameters: they are used for point regions only. -/
def geoOf {K : Type} (m : GMesh) (faces : Bool) (nodeCells : Nat → List Nat) (pointInCell : Point → Nat → Bool)
    (dist2 : Point → Point → K) : Geo Point K where
  celldim := m.manifoldDim
  facesRequested := faces
  cellCentroid c := ((computeCellGeometry m c).map Prod.snd).getD (Point.zero 0)
  faceCentroid f := ((computeFaceGeometry m f).map fun r => r.2.1).getD (Point.zero 0)
  nodeCoord := m.nodeCoord
  cellCoords := m.cellCoords
  faceCoords := m.faceCoords
  nodeCells := nodeCells
  pointInCell := pointInCell
  dist2 := dist2

/-- a region object as the construction of sets uses it (Region.hh:112-173, `dynamic_cast`s in Mesh.cc:2699, 2776, 2957). Simplified:
an `inside` that throws or is undefined counts as `false`. The entities with a label are a parameter. -/
def regionOf (labeled : List Nat × List Nat) (r : AnyRegion) : Region Point where
  name := r.name
  type := r.type
  dim := r.dimension
  temporary := decide (r.lifecycle = .TEMPORARY)
  inside p := match r.inside p with | .value b => b | _ => false
  point := match r with | .point _ p => some p | _ => none
  op := match r.operation with | .value op => op | _ => .NOBOOLEAN
  comps := r.components
  entityStr := r.labelOf.1
  labeled := labeled

end
end Jali.Reg
