import Verif.Model.MeshGeometry
/-
When two meshes are the same up to the numbers of their cells and faces, as far as the geometric queries tell.
-/
namespace Jali.MeshGeom.Spec
open Jali.Geom Jali.MeshGeom

/-- a renumbering of `0 .. n-1` -/
structure Renumbers (n : Nat) (f : Nat → Nat) : Prop where
  into : ∀ i < n, f i < n
  inj : ∀ i < n, ∀ j < n, f i = f j → i = j
  onto : ∀ k < n, ∃ i < n, f i = k

/-- Cell `c` of `m` is cell `cell c` of `m'`, face `f` of `m` is face `face f` of `m'`: they consist of the same points and faces,
have the same neighbours, volumes, areas, centroids and outward normals. -/
structure SameMesh (m m' : GMesh) (nc nf : Nat) (cell face : Nat → Nat) : Prop where
  cells : Renumbers nc cell
  faces : Renumbers nf face
  cellFaces : ∀ c < nc, ((m.cellFaces c).map fun q => face q.1).Perm ((m'.cellFaces (cell c)).map Prod.fst)
  faceCells : ∀ f < nf, ((m.faceCells f).map cell).Perm (m'.faceCells (face f))
  listed : ∀ f < nf, ∀ c ∈ m.faceCells f, c < nc
  cellCoords : ∀ c < nc, (m.cellCoords c).Perm (m'.cellCoords (cell c))
  faceCoords : ∀ f < nf, (m.faceCoords f).Perm (m'.faceCoords (face f))
  volume : ∀ c < nc, ∃ vol cen cen', computeCellGeometry m c = some (vol, cen) ∧ computeCellGeometry m' (cell c) = some (vol, cen') ∧
    0 < vol ∧ cen.x = cen'.x ∧ cen.y = cen'.y ∧ cen.z = cen'.z
  area : ∀ f < nf, ∃ area cen ns ns', computeFaceGeometry m f = some (area, cen, ns) ∧
    computeFaceGeometry m' (face f) = some (area, cen, ns') ∧ 0 < area
  normal : ∀ c < nc, ∀ q ∈ m.cellFaces c, q.1 < nf ∧ ∃ n, faceNormal m q.1 (some c) = some n ∧
    faceNormal m' (face q.1) (some (cell c)) = some n

end Jali.MeshGeom.Spec
