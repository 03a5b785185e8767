import Verif.Model.MstkExtract
/-
Coordinates of an MSTK mesh: `node_get_coordinates`, `cell_get_coordinates`, `face_get_coordinates`, `node_set_coordinates`
(src/mesh/mesh_mstk/Mesh_MSTK.cc:2396-2571).

A `Point` is the list of its `d` coordinates; the entries of its array past `d` are never set (Point.hh:66-88). `none` is an id out
of range, a failed `assert`, or a read of memory that is not set or not the caller's.
-/
namespace Jali.Mstk

variable {α : Type}

/-- `MV_Coords(v, coords)`: an array of three numbers -/
def Xyz.toList (p : Xyz α) : List α := [p.x, p.y, p.z]

/-- `MV_Coords` followed by `set(spdim, coords)` (Point.hh:117-121): `spdim` numbers are copied out of an array of three -/
def Source.pointAt (s : Source α) (v : Fin s.j.m.nv) : Option (List α) :=
  if s.spaceDim ≤ 3 then some ((s.xyz v).toList.take s.spaceDim) else none

/-- `node_get_coordinates` into a `Point` (Mesh_MSTK.cc:2398-2410) -/
def Source.nodeGet (s : Source α) (n : Nat) : Option (List α) := (s.j.m.vmap.at n).bind s.pointAt

/-- `node_get_coordinates` into an array of three (Mesh_MSTK.cc:2412-2427) -/
def Source.nodeGet3 (s : Source α) (n : Nat) : Option (α × α × α) :=
  if s.spaceDim = 3 then (s.j.m.vmap.at n).map fun v => ((s.xyz v).x, (s.xyz v).y, (s.xyz v).z) else none

/-- `node_get_coordinates` into an array of two (Mesh_MSTK.cc:2429-2443) -/
def Source.nodeGet2 (s : Source α) (n : Nat) : Option (α × α) :=
  if s.spaceDim = 2 then (s.j.m.vmap.at n).map fun v => ((s.xyz v).x, (s.xyz v).y) else none

/-- `cell_get_coordinates` (Mesh_MSTK.cc:2452-2496) -/
def Source.cellGet (s : Source α) (c : Nat) : Option (List (List α)) :=
  if s.dim3 then ((s.j.m.rmap s.j.bg).at c).bind fun r => (s.j.m.mrVertices (s.j.m.region r)).mapM s.pointAt
  else ((s.j.m.cmap s.j.bg).at c).bind fun f => (s.j.m.mfVertices (s.j.m.face f) true).mapM s.pointAt

/-- `face_get_coordinates` (Mesh_MSTK.cc:2504-2551) -/
def Source.faceGet (s : Source α) (f : Nat) : Option (List (List α)) :=
  if s.j.faces then
    if s.dim3 then
      (s.j.m.fmap.at f).bind fun fh => (s.j.faceflip[f]?).bind fun fl =>
        (s.j.m.mfVertices (s.j.m.face fh) (!fl)).mapM s.pointAt
    else
      (s.j.m.emap.at f).bind fun e => (s.j.faceflip[f]?).bind fun fl =>
        if fl then [(s.j.m.edge e).v1, (s.j.m.edge e).v0].mapM s.pointAt
        else [(s.j.m.edge e).v0, (s.j.m.edge e).v1].mapM s.pointAt
  else none

/-- `MV_Set_Coords(v, coords)` -/
def Source.put (s : Source α) (v : Fin s.j.m.nv) (p : Xyz α) : Source α := { s with xyz := Function.update s.xyz v p }

/-- `node_set_coordinates` from a pointer (Mesh_MSTK.cc:2557-2561): three numbers are read whatever the dimension of space -/
def Source.setArray (s : Source α) (n : Nat) (a : List α) : Option (Source α) :=
  (s.j.m.vmap.at n).bind fun v => match a with
    | x :: y :: z :: _ => some (s.put v ⟨x, y, z⟩)
    | _ => none

/-- the loop `coordarray[i] = coords[i]` over the dimension of space, into an array of three zeros (Mesh_MSTK.cc:2567-2569) -/
def fillArray [Zero α] (sdim : Nat) (p : List α) : Option (Xyz α) :=
  if 3 < sdim ∨ p.length < sdim then none
  else some ⟨(p.take sdim).getD 0 0, (p.take sdim).getD 1 0, (p.take sdim).getD 2 0⟩

/-- `node_set_coordinates` from a `Point` (Mesh_MSTK.cc:2563-2571) -/
def Source.setPoint [Zero α] (s : Source α) (n : Nat) (p : List α) : Option (Source α) :=
  (s.j.m.vmap.at n).bind fun v => (fillArray s.spaceDim p).map (s.put v)

/-- a call of `node_set_coordinates` -/
inductive Move (α : Type) where
  | array (n : Nat) (a : List α)
  | point (n : Nat) (p : List α)

def Move.node : Move α → Nat
  | .array n _ => n
  | .point n _ => n
def Move.coords : Move α → List α
  | .array _ a => a
  | .point _ p => p

/-- one call -/
def Source.move [Zero α] (s : Source α) : Move α → Option (Source α)
  | .array n a => s.setArray n a
  | .point n p => s.setPoint n p

/-- a history of calls -/
def Source.moves [Zero α] : Source α → List (Move α) → Option (Source α)
  | s, [] => some s
  | s, o :: os => (s.move o).bind fun t => t.moves os

end Jali.Mstk
