import Verif.Model.MstkMesh
/-
`Mesh_MSTK`: flags for ghost edges and faces that are directed otherwise than on their owner
(src/mesh/mesh_mstk/Mesh_MSTK.cc:3779-4040).

`MESH_UpdateAttributes` (MSTK, MPI) is modelled by its effect: the value of an attribute on a ghost entity becomes the value on
the `POVERLAP` entity with the same global id on another rank; `w` is the list of the meshes of all ranks. A ghost with no such
entity keeps its value. An attribute that was never set is 0.
-/
namespace Jali.Mstk

/-- the attributes that the ranks send: global id and value of all `POVERLAP` entities -/
def sentEdges (w : List MMesh) (attr : ∀ m : MMesh, Fin m.ne → Nat × Nat) : List (Nat × (Nat × Nat)) :=
  w.flatMap fun m => ((List.finRange m.ne).filter fun e => (m.edge e).ptype = .overlap).map fun e => ((m.edge e).gid, attr m e)

def sentFaces (w : List MMesh) (attr : ∀ m : MMesh, Fin m.nf → Nat × Nat) : List (Nat × (Nat × Nat)) :=
  w.flatMap fun m => ((List.finRange m.nf).filter fun f => (m.face f).ptype = .overlap).map fun f => ((m.face f).gid, attr m f)

/-- the value on a ghost afterwards -/
def received (sent : List (Nat × (Nat × Nat))) (gid : Nat) (own : Nat × Nat) : Nat × Nat :=
  ((sent.find? fun p => p.1 = gid).map Prod.snd).getD own

/-- `TMP_EV0_ATT`, `TMP_EV1_ATT`: global ids of the end points (Mesh_MSTK.cc:3799-3808, 4008-4017) -/
def MMesh.edgeAtt (m : MMesh) (e : Fin m.ne) : Nat × Nat := ((m.vtx (m.edge e).v0).gid, (m.vtx (m.edge e).v1).gid)

/-- `region ? MEnt_GlobalID(region) : 0` (Mesh_MSTK.cc:3958-3961) -/
def MMesh.sideGid (m : MMesh) (f : Fin m.nf) (side : Bool) : Nat :=
  match m.mfRegion f side with
  | some r => (m.region r).gid
  | none => 0

/-- `TMP_FC0_ATT`, `TMP_FC1_ATT`: global ids of the regions on the two sides (Mesh_MSTK.cc:3935-3946) -/
def MMesh.faceAtt (m : MMesh) (f : Fin m.nf) : Nat × Nat := (m.sideGid f false, m.sideGid f true)

/-- the test with sanity check: `none` is the exception (Mesh_MSTK.cc:3828-3844, 3963-3982) -/
def flipTest (remote loc : Nat × Nat) : Option Bool :=
  if remote.2 = loc.1 ∨ remote.1 = loc.2 then some true
  else if remote.2 ≠ loc.2 ∧ remote.1 ≠ loc.1 then none
  else some false

/-- the test without check (Mesh_MSTK.cc:4032-4036) -/
def flipTest2 (remote loc : Nat × Nat) : Option Bool :=
  some (decide (remote.2 = loc.1 ∨ remote.1 = loc.2))

/-- `flip[lid-1] = true` for the ghosts that pass the test, `false` before -/
def setFlips {n : Nat} (ghosts : List (Fin n)) (id : Fin n → Nat) (test : Fin n → Option Bool) : Option (List Bool) :=
  ghosts.foldlM (fun fl g => (test g).map fun b => if b then fl.set (id g - 1) true else fl) (List.replicate n false)

/-- `init_pedge_dirs` (Mesh_MSTK.cc:3779-3848) -/
def initPedgeDirs (serial : Bool) (w : List MMesh) (m : MMesh) : Option (List Bool) :=
  if serial then some (List.replicate m.ne false)
  else setFlips (ghostList fun e => (m.edge e).ptype) m.emap.id fun e =>
    flipTest (received (sentEdges w MMesh.edgeAtt) (m.edge e).gid (m.edgeAtt e)) (m.edgeAtt e)

/-- `init_pface_dirs_3` (Mesh_MSTK.cc:3897-3987) -/
def initPfaceDirs3 (serial : Bool) (w : List MMesh) (m : MMesh) : Option (List Bool) :=
  if serial then some (List.replicate m.nf false)
  else setFlips (ghostList fun f => (m.face f).ptype) m.fmap.id fun f =>
    flipTest (received (sentFaces w MMesh.faceAtt) (m.face f).gid (m.faceAtt f)) (m.faceAtt f)

/-- `init_pface_dirs_2` (Mesh_MSTK.cc:3897-3910, 3992-4040) -/
def initPfaceDirs2 (serial : Bool) (w : List MMesh) (m : MMesh) : Option (List Bool) :=
  if serial then some (List.replicate m.ne false)
  else setFlips (ghostList fun e => (m.edge e).ptype) m.emap.id fun e =>
    flipTest2 (received (sentEdges w MMesh.edgeAtt) (m.edge e).gid (m.edgeAtt e)) (m.edgeAtt e)

end Jali.Mstk
