import Verif.Model.MeshSimple
import Verif.Model.MeshSimple1D
import Verif.Model.MeshGeometry
/-
The geometry of the 3D structured mesh: the queries of `Mesh_simple` (Mesh_simple.cc:653-756, 845-855) as input of the
geometry computations of the base class. Coordinates are exact.
-/
namespace Jali.SimpleGeom
noncomputable section
open Jali.Geom Jali.MeshGeom Jali.Simple

/-- a stored coordinate triple as a `Point` (`xyz.set(...)`, Mesh_simple.cc:702-721) -/
def toPoint (l : List Rat) : Point := Point.mk3 (l.getD 0 0 : Rat) (l.getD 1 0 : Rat) (l.getD 2 0 : Rat)

/-- `Mesh_simple` in three dimensions (Mesh_simple.cc:56-120), as seen by the geometry computations; edges are not available -/
def simpleMesh (d : Dims) (b : Box) : GMesh where
  manifoldDim := 3
  spaceDim := 3
  geomType := .CARTESIAN
  cellFaces := fun c => (cellGetFaces d c).zip (cellGetFaceDirs d c)
  faceCells := fun f => (faceGetCells d f).map Int.toNat
  faceCoords := fun f => (faceGetCoordinates d (coordinates d b) f).map toPoint
  cellCoords := fun c => (cellGetCoordinates d (coordinates d b) c).map toPoint
  edgeNodes := fun _ => (0, 0)
  nodeCoord := fun n => toPoint (nodeGetCoordinates 3 (coordinates d b) n)

/-- `Mesh_simple` in one dimension (Mesh_simple.cc:126-160, 251-363) with the points `x 0`, ..., `x nx`, as seen by the geometry
computations; edges are not used -/
def lineMesh (nx : Nat) (x : Nat → ℝ) (g : GeomType) : GMesh where
  manifoldDim := 1
  spaceDim := 1
  geomType := g
  cellFaces := fun c => (Simple1D.cellGetFaces nx c).zip (Simple1D.cellGetFaceDirs nx c)
  faceCells := fun f => (Simple1D.faceGetCells nx f).map Int.toNat
  faceCoords := fun f => (Simple1D.faceGetNodes nx f).map fun n => Point.mk1 (x n)
  cellCoords := fun c => (Simple1D.cellGetNodes nx c).map fun n => Point.mk1 (x n)
  edgeNodes := fun _ => (0, 0)
  nodeCoord := fun n => Point.mk1 (x n)

end
end Jali.SimpleGeom
