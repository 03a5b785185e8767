import Verif.Model.MstkMesh
/-
`Mesh_MSTK::cell_get_faces_and_dirs_ordered` (src/mesh/mesh_mstk/Mesh_MSTK.cc:1279-1411).
-/
namespace Jali.Mstk

/-- the base face with its direction (Mesh_MSTK.cc:1304-1331); `none` if there is no such face: the null pointer is then used -/
def MMesh.baseFace (m : MMesh) (r : Region m.nf) (ct : CellType) : Option (Fin m.nf × Bool) :=
  match ct with
  | .TET | .HEX => r.faces[0]?
  | .PRISM => (r.faces.take 5).find? fun p => (m.face p.1).edges.length = 3
  | .PYRAMID => (r.faces.take 5).find? fun p => (m.face p.1).edges.length = 4
  | _ => none

/-- the inner loop: all faces that have the edge, are not the base face and not yet in `rflist` (Mesh_MSTK.cc:1348-1369);
`s` are the faces found so far, with their directions -/
def MMesh.lateralStep (m : MMesh) (r : Region m.nf) (face0 : Fin m.nf) (s : List (Fin m.nf × Bool)) (fe : Fin m.ne) :
    List (Fin m.nf × Bool) :=
  r.faces.foldl (fun s p =>
    if p.1 ≠ face0 ∧ p.1 ∉ s.map Prod.fst ∧ fe ∈ (m.face p.1).mfEdges true then s ++ [p] else s) s

/-- the loop over the edges of the base face, taken in the direction in which its normal points into the cell
(Mesh_MSTK.cc:1338-1370) -/
def MMesh.lateral (m : MMesh) (r : Region m.nf) (b : Fin m.nf × Bool) : List (Fin m.nf × Bool) :=
  ((m.face b.1).mfEdges (!b.2)).foldl (m.lateralStep r b.1) []

/-- the face that remains (Mesh_MSTK.cc:1386-1403) -/
def MMesh.topFace (m : MMesh) (r : Region m.nf) (b : Fin m.nf × Bool) : Option (Fin m.nf × Bool) :=
  r.faces.find? fun p => p.1 ≠ b.1 ∧ p.1 ∉ (m.lateral r b).map Prod.fst

/-- lateral faces, base, top -/
def MMesh.orderFaces (m : MMesh) (r : Region m.nf) (b : Fin m.nf × Bool) : List (Fin m.nf × Bool) :=
  m.lateral r b ++ [b] ++ (m.topFace r b).toList

/-- is it one of the types for which there is a standard order (Mesh_MSTK.cc:1289-1290) -/
def isStandard (ct : CellType) : Bool := ct = .TET || ct = .HEX || ct = .PYRAMID || ct = .PRISM

/-- `cell_get_faces_and_dirs(cellid, .., .., true)`, 3D. If fewer faces were found than the cell has, the rest of the arrays
keeps what the caller had in them: outcome `none`. -/
def JMesh.cellFacesOrdered3 (j : JMesh) (c : Nat) : Option (List (Nat × Int)) :=
  if j.faces then
    ((j.m.rmap j.bg).at c).bind fun r =>
      if isStandard (j.m.regionCelltype (j.m.region r)) then
        (j.m.baseFace (j.m.region r) (j.m.regionCelltype (j.m.region r))).bind fun b =>
          let l := j.m.orderFaces (j.m.region r) b
          if l.length = (j.m.region r).faces.length then
            l.mapM fun p => (flipped j.faceflip (j.m.fmap.id p.1 - 1) p.2).map fun d => (j.m.fmap.id p.1 - 1, d)
          else none
      else j.cellFaces3 c
  else none

end Jali.Mstk
