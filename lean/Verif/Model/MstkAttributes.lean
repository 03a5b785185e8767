import Verif.Model.MstkFields
/-
The attributes (`MAttrib`) the constructors of `Mesh_MSTK` leave on the MSTK mesh (src/mesh/mesh_mstk/Mesh_MSTK.cc). Attributes that
are made and deleted again are left out: `copyatt` (806, 1201), `*_gid` (1010-1013, 1102-1105), `TMP_FC0_ATT`, `TMP_FC1_ATT` (3931-3932,
3984-3985) and the `TMP_EV0_ATT`, `TMP_EV1_ATT` of `init_pface_dirs_2` (4003-4004, 4042-4043).
-/
namespace Jali.Mstk
variable {D : Type}

/-- a new attribute of one component -/
def newAttr (zero : D) (name : String) (type : AttType) (dim : MType) : Attr D := ⟨name, type, dim, 1, fun _ => noVal type zero⟩

/-- the attributes of an extracted mesh (Mesh_MSTK.cc:807-810); their values, pointers to the parents, are left out -/
def parentAtts (zero : D) : List (Attr D) :=
  [newAttr zero "vparentatt" .pointer .vertex, newAttr zero "eparentatt" .pointer .edge, newAttr zero "fparentatt" .pointer .face,
    newAttr zero "rparentatt" .pointer .region]

/-- the dimension of the cells -/
def cellDim (mdim : Nat) : MType := if mdim = 2 then .face else .region

/-- `create_boundary_ghosts` (Mesh_MSTK.cc:4433-4476): the attribute is 1 on boundary ghosts -/
def ghostAtt (fm : FMesh D) : Attr D :=
  ⟨"bndry_ghost", .int, cellDim fm.mdim, 1, fun i =>
    .int (if fm.mdim = 2 then (if h : i < fm.j.m.nf then (if (fm.j.m.face ⟨i, h⟩).bndryGhost then 1 else 0) else 0)
      else if h : i < fm.j.m.nr then (if (fm.j.m.region ⟨i, h⟩).bndryGhost then 1 else 0) else 0)⟩

/-- `label_celltype` (Mesh_MSTK.cc:4551-4576) -/
def typeAtt (fm : FMesh D) : Attr D :=
  ⟨"Cell_type", .int, cellDim fm.mdim, 1, fun i =>
    .int (if fm.mdim = 2 then (if h : i < fm.j.m.nf then (fm.j.m.faceCelltype (fm.j.m.face ⟨i, h⟩)).code else 0)
      else if h : i < fm.j.m.nr then (fm.j.m.regionCelltype (fm.j.m.region ⟨i, h⟩)).code else 0)⟩

/-- `init_pedge_dirs` on several processors (Mesh_MSTK.cc:3789-3846): the two attributes are not deleted; on a boundary between processors
an edge has the global ids of its ends. On a plane mesh whose faces are requested too, `init_pface_dirs_2` makes and deletes attributes of
the same names; what is left then is for MSTK to say, and here nothing is. -/
def edgeAtts (fm : FMesh D) : List (Attr D) :=
  let att (name : String) (v : Edge fm.j.m.nv → Fin fm.j.m.nv) : Attr D :=
    ⟨name, .int, .edge, 1, fun i => .int (if h : i < fm.j.m.ne then
      (if (fm.j.m.edge ⟨i, h⟩).ptype = .interior then 0 else ((fm.j.m.vtx (v (fm.j.m.edge ⟨i, h⟩))).gid : Int)) else 0)⟩
  if fm.j.edges && !fm.j.serial && !(fm.mdim = 2 && fm.j.faces) then [att "TMP_EV0_ATT" (·.v0), att "TMP_EV1_ATT" (·.v1)] else []

/-- the attributes after the constructor: `fm.atts` are those read from the file (or none for a generated mesh), then
`post_create_steps_` (Mesh_MSTK.cc:3361-3388) -/
def FMesh.constructed (zero : D) (fm : FMesh D) (extracted : Bool) : FMesh D :=
  { fm with atts := fm.atts ++ (if extracted then parentAtts zero else []) ++ (if fm.j.bg then [ghostAtt fm] else []) ++ [typeAtt fm] ++
      edgeAtts fm }

end Jali.Mstk
