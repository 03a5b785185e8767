import Verif.Model.MstkMesh
/-
`Mesh_MSTK::create_boundary_ghosts` (src/mesh/mesh_mstk/Mesh_MSTK.cc:4433-4477): a cell with one face is added outside each
boundary face. New entities of MSTK are `PINTERIOR` and have global id 0. A face without regions, for which
`MF_Regions` returns a null pointer, is passed over.
-/
namespace Jali.Mstk

/-- the regions of the mesh and those added so far that have the face (`MF_Regions`) with the direction of the face -/
def MMesh.regionsNow (m : MMesh) (added : List (Region m.nf)) (f : Fin m.nf) : List (Region m.nf) :=
  ((List.finRange m.nr).map m.region ++ added).filter fun r => f ∈ r.mrFaces

/-- `MR_FaceDir(r, f)` -/
def Region.faceDir {nf : Nat} (r : Region nf) (f : Fin nf) : Bool :=
  match r.faces.find? fun p => p.1 = f with
  | some p => p.2
  | none => false

/-- one turn of the loop over the faces, 3D (Mesh_MSTK.cc:4460-4474) -/
def MMesh.bndryStep3 (m : MMesh) (added : List (Region m.nf)) (f : Fin m.nf) : List (Region m.nf) :=
  match m.regionsNow added f with
  | [r] =>
    if (m.face f).ptype ≠ .ghost ∧ (m.face f).parBndry = false then
      added ++ [⟨.interior, 0, [(f, !r.faceDir f)], true⟩]
    else added
  | _ => added

/-- the mesh with the regions added -/
def MMesh.withRegions (m : MMesh) (added : List (Region m.nf)) : MMesh :=
  { nv := m.nv, ne := m.ne, nf := m.nf, nr := m.nr + added.length, vtx := m.vtx, edge := m.edge, face := m.face
    region := Fin.addCases m.region fun i => added[i] }

/-- `create_boundary_ghosts`, 3D (Mesh_MSTK.cc:4454-4475) -/
def MMesh.boundaryGhosts3 (m : MMesh) : MMesh := m.withRegions ((List.finRange m.nf).foldl m.bndryStep3 [])

/-- the faces of the mesh and those added so far that have the edge (`ME_Faces`) -/
def MMesh.facesNow (m : MMesh) (added : List (Face m.ne)) (e : Fin m.ne) : List (Face m.ne) :=
  ((List.finRange m.nf).map m.face ++ added).filter fun f => e ∈ f.mfEdges true

/-- `MF_EdgeDir(f, e)` -/
def Face.edgeDir {ne : Nat} (f : Face ne) (e : Fin ne) : Bool :=
  match f.edges.find? fun p => p.1 = e with
  | some p => p.2
  | none => false

/-- one turn of the loop over the edges, 2D (Mesh_MSTK.cc:4440-4453) -/
def MMesh.bndryStep2 (m : MMesh) (added : List (Face m.ne)) (e : Fin m.ne) : List (Face m.ne) :=
  match m.facesNow added e with
  | [f] =>
    if (m.edge e).ptype ≠ .ghost ∧ (m.edge e).parBndry = false then
      added ++ [⟨.interior, 0, [(e, !f.edgeDir e)], false, true⟩]
    else added
  | _ => added

/-- the 2D mesh with the faces added; it has no regions -/
def MMesh.withFaces (m : MMesh) (added : List (Face m.ne)) : MMesh :=
  { nv := m.nv, ne := m.ne, nf := m.nf + added.length, nr := 0, vtx := m.vtx, edge := m.edge
    face := Fin.addCases m.face fun i => added[i]
    region := fun r => r.elim0 }

/-- `create_boundary_ghosts`, 2D (Mesh_MSTK.cc:4434-4453) -/
def MMesh.boundaryGhosts2 (m : MMesh) : MMesh := m.withFaces ((List.finRange m.ne).foldl m.bndryStep2 [])

end Jali.Mstk
