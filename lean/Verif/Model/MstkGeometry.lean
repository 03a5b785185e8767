import Verif.Model.MstkCoords
import Verif.Model.MstkBase
import Verif.Model.MeshGeometry
/-
The geometry code of the base class (`Model/MeshGeometry.lean`) on top of an MSTK mesh: what its calls of connectivity and
coordinate queries (src/mesh/Mesh.cc:1147-1425, 1713-1776) return for `Mesh_MSTK`. A query that is not answered is an empty list here;
the theorems are about cells and faces for which all queries are answered.
-/
namespace Jali.Mstk
noncomputable section
open Jali.Geom Jali.Geom.Point

/-- a `Point` with these coordinates (Point.hh:66-88) -/
def asPoint : List ℝ → Point
  | [x] => mk1 x
  | [x, y] => mk2 x y
  | [x, y, z] => mk3 x y z
  | _ => Point.zero 0

/-- what `Mesh.cc` asks a `Mesh_MSTK` for: `cell_get_faces_and_dirs` and `face_get_cells` of the base class (Mesh.cc:672-757),
`face_get_coordinates`, `cell_get_coordinates`, `node_get_coordinates` (Mesh_MSTK.cc:2396-2551), `edge_get_nodes` (Mesh.cc:960-985);
the manifold dimension is that of the cells; the type of geometry is used for 1D meshes only -/
def Source.gmesh (s : Source ℝ) : MeshGeom.GMesh where
  manifoldDim := if s.dim3 then 3 else 2
  spaceDim := s.spaceDim
  geomType := .CARTESIAN
  cellFaces c := ((if s.dim3 then s.j.cellGetFaces3 c else s.j.cellGetFaces2 c)).getD []
  faceCells f := ((if s.dim3 then s.j.faceGetCells3 f .ALL else s.j.faceGetCells2 f .ALL).getD []).map Int.toNat
  faceCoords f := ((s.faceGet f).getD []).map asPoint
  cellCoords c := ((s.cellGet c).getD []).map asPoint
  edgeNodes e := (s.j.edgeGetNodes e).getD (0, 0)
  nodeCoord n := ((s.nodeGet n).map asPoint).getD (Point.zero s.spaceDim)

end
end Jali.Mstk
