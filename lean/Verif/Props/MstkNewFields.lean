import Verif.Model.MstkAttributes
import Verif.Props.MstkStateFields
import Verif.Props.MstkExtract3
/-! Property theorems C162: which fields a new mesh has, and what `init_from_mesh` makes of them. -/
namespace Jali.Mstk
open Jali.St
variable {D : Type}

/-- names and types of the fields on entities of one dimension -/
def infoOf (l : List (Attr D)) (t : MType) : List (String × AttType) := (l.filter fun a => t = a.dim).map fun a => (a.name, a.type)

/-- the attributes left by `init_pedge_dirs` -/
def leftOver (fm : FMesh D) : List (String × AttType) :=
  if fm.j.edges && !fm.j.serial && !(fm.mdim = 2 && fm.j.faces) then [("TMP_EV0_ATT", .int), ("TMP_EV1_ATT", .int)] else []

theorem toMtype3 {fm : FMesh D} (h : fm.mdim = 3) : fm.toMtype .NODE = some .vertex ∧ fm.toMtype .EDGE = some .edge ∧
    fm.toMtype .FACE = some .face ∧ fm.toMtype .CELL = some .region := by
  unfold FMesh.toMtype; rw [h]; exact ⟨rfl, rfl, rfl, rfl⟩

theorem toMtype2 {fm : FMesh D} (h : fm.mdim = 2) : fm.toMtype .NODE = some .vertex ∧ fm.toMtype .EDGE = some .edge ∧
    fm.toMtype .FACE = some .edge ∧ fm.toMtype .CELL = some .face := by
  unfold FMesh.toMtype; rw [h]; exact ⟨rfl, rfl, rfl, rfl⟩

theorem constructed_info (zero : D) (fm : FMesh D) (ex : Bool) {k : EntityKind} {t : MType} (ht : fm.toMtype k = some t) :
    (fm.constructed zero ex).fieldInfo k = some (infoOf fm.atts t ++ infoOf (if ex then parentAtts zero else []) t ++
      infoOf (if fm.j.bg then [ghostAtt fm] else []) t ++ infoOf [typeAtt fm] t ++ infoOf (edgeAtts fm) t) := by
  have ht' : (fm.constructed zero ex).toMtype k = some t := ht
  have hne : (fm.constructed zero ex).atts ≠ [] := by simp [FMesh.constructed]
  unfold FMesh.fieldInfo
  rw [if_neg hne, ht']
  show some (((fm.atts ++ _ ++ _ ++ [typeAtt fm] ++ edgeAtts fm).filter _).map _) = _
  simp only [infoOf, List.filter_append, List.map_append]

theorem edge_info (fm : FMesh D) (t : MType) : infoOf (edgeAtts fm) t = if t = .edge then leftOver fm else [] := by
  unfold edgeAtts leftOver infoOf
  split <;> split <;> simp_all

/-- **C162: the fields of a new mesh of polyhedra.** Besides the fields it was read with, `get_field_info` reports the pointers to the parents
on an extracted mesh, on cells `bndry_ghost` (if boundary ghosts were requested) and always `Cell_type`, and on edges the two attributes
that `init_pedge_dirs` does not delete. -/
theorem new_mesh_fields_3d (zero : D) (fm : FMesh D) (h : fm.mdim = 3) (ex : Bool) :
    (fm.constructed zero ex).fieldInfo .NODE = some (infoOf fm.atts .vertex ++ if ex then [("vparentatt", .pointer)] else []) ∧
    (fm.constructed zero ex).fieldInfo .EDGE = some (infoOf fm.atts .edge ++ (if ex then [("eparentatt", .pointer)] else []) ++ leftOver fm) ∧
    (fm.constructed zero ex).fieldInfo .FACE = some (infoOf fm.atts .face ++ if ex then [("fparentatt", .pointer)] else []) ∧
    (fm.constructed zero ex).fieldInfo .CELL = some (infoOf fm.atts .region ++ (if ex then [("rparentatt", .pointer)] else []) ++
      (if fm.j.bg then [("bndry_ghost", .int)] else []) ++ [("Cell_type", .int)]) := by
  obtain ⟨h1, h2, h3, h4⟩ := toMtype3 h
  refine ⟨?_, ?_, ?_, ?_⟩
  · rw [constructed_info zero fm ex h1, edge_info]
    cases ex <;> cases fm.j.bg <;> simp [infoOf, parentAtts, newAttr, ghostAtt, typeAtt, cellDim, h]
  · rw [constructed_info zero fm ex h2, edge_info]
    cases ex <;> cases fm.j.bg <;> simp [infoOf, parentAtts, newAttr, ghostAtt, typeAtt, cellDim, h]
  · rw [constructed_info zero fm ex h3, edge_info]
    cases ex <;> cases fm.j.bg <;> simp [infoOf, parentAtts, newAttr, ghostAtt, typeAtt, cellDim, h]
  · rw [constructed_info zero fm ex h4, edge_info]
    cases ex <;> cases fm.j.bg <;> simp [infoOf, parentAtts, newAttr, ghostAtt, typeAtt, cellDim, h]

/-- **C162: the fields of a new mesh of polygons.** -/
theorem new_mesh_fields_2d (zero : D) (fm : FMesh D) (h : fm.mdim = 2) (ex : Bool) :
    (fm.constructed zero ex).fieldInfo .NODE = some (infoOf fm.atts .vertex ++ if ex then [("vparentatt", .pointer)] else []) ∧
    (fm.constructed zero ex).fieldInfo .FACE = some (infoOf fm.atts .edge ++ (if ex then [("eparentatt", .pointer)] else []) ++ leftOver fm) ∧
    (fm.constructed zero ex).fieldInfo .CELL = some (infoOf fm.atts .face ++ (if ex then [("fparentatt", .pointer)] else []) ++
      (if fm.j.bg then [("bndry_ghost", .int)] else []) ++ [("Cell_type", .int)]) := by
  obtain ⟨h1, h2, h3, h4⟩ := toMtype2 h
  refine ⟨?_, ?_, ?_⟩
  · rw [constructed_info zero fm ex h1, edge_info]
    cases ex <;> cases fm.j.bg <;> simp [infoOf, parentAtts, newAttr, ghostAtt, typeAtt, cellDim, h]
  · rw [constructed_info zero fm ex h3, edge_info]
    cases ex <;> cases fm.j.bg <;> simp [infoOf, parentAtts, newAttr, ghostAtt, typeAtt, cellDim, h]
  · rw [constructed_info zero fm ex h4, edge_info]
    cases ex <;> cases fm.j.bg <;> simp [infoOf, parentAtts, newAttr, ghostAtt, typeAtt, cellDim, h]

/-- the names the library uses for its own attributes -/
def ownNames : List String :=
  ["vparentatt", "eparentatt", "fparentatt", "rparentatt", "bndry_ghost", "Cell_type", "TMP_EV0_ATT", "TMP_EV1_ATT"]

theorem constructed_new (zero : D) (fm : FMesh D) (ex : Bool) : ∃ l, (fm.constructed zero ex).atts = fm.atts ++ l ∧
    (l.map Attr.name).Nodup ∧ (∀ a ∈ l, a.name ∈ ownNames ∧ (a.type = .int ∨ a.type = .pointer)) ∧ typeAtt fm ∈ l := by
  refine ⟨(if ex then parentAtts zero else []) ++ (if fm.j.bg then [ghostAtt fm] else []) ++ [typeAtt fm] ++ edgeAtts fm, ?_, ?_, ?_, ?_⟩
  · simp [FMesh.constructed]
  · unfold edgeAtts
    dsimp only
    generalize (fm.j.edges && !fm.j.serial && !(decide (fm.mdim = 2) && fm.j.faces)) = c
    cases c <;> cases ex <;> cases fm.j.bg <;> simp [parentAtts, newAttr, ghostAtt, typeAtt]
  · unfold edgeAtts
    dsimp only
    generalize (fm.j.edges && !fm.j.serial && !(decide (fm.mdim = 2) && fm.j.faces)) = c
    cases c <;> cases ex <;> cases fm.j.bg <;> simp [parentAtts, newAttr, ghostAtt, typeAtt, ownNames]
  · simp

/-- **C162 is false of the code.** Initialising a state manager from any new mesh on which nothing was ever stored makes a state vector
`Cell_type` of integers on the cells, holding the types of the cells; with boundary ghosts also one named `bndry_ghost`. Besides these it makes
no vectors of its own, only those of the fields the mesh was read with. -/
theorem import_of_new_mesh_partial (count : St.Domain → EntityKind → EntityType → Nat) (zero : Val D) (z : D) (fm : FMesh D) (hd : fm.Dim)
    (hf : fm.j.faces = true) (ex : Bool) (hn : (fm.atts.map Attr.name).Nodup) (hown : ∀ a ∈ fm.atts, a.name ∉ ownNames) (hc : fm.Complete)
    (s : State (Val D)) (cells : List (List Nat)) (hcells : allCells s.w.heap s.mats = .ok cells) (hempty : s.vecs = [])
    (hcount : ∀ k, StateKind k → count (.mesh s.mesh) k .ALL = fm.numAll k) :
    ∃ s', initFromMesh count zero (fm.constructed z ex) s = .ok s' ∧
      (∃ v, St.get s' .UNIVAL 0 "Cell_type" (.mesh s.mesh) .CELL .ALL = some v ∧
        s'.blocks[v.data]? = some (.uni ((List.range (fm.nent (cellDim fm.mdim))).map (typeAtt fm).val))) ∧
      (∀ v ∈ s'.vecs, (∃ a ∈ fm.atts, v.name = a.name) ∨ v.name ∈ ownNames) ∧
      ((s'.vecs.map Vec.name).Nodup) := by
  obtain ⟨l, hl, hnd, hnames, hmem⟩ := constructed_new z fm ex
  have hN : ((fm.constructed z ex).atts.map Attr.name).Nodup := by
    rw [hl, List.map_append, List.nodup_append]
    refine ⟨hn, hnd, ?_⟩
    intro x hx y hy e
    obtain ⟨a, ha, rfl⟩ := List.mem_map.mp hx
    obtain ⟨b, hb, rfl⟩ := List.mem_map.mp hy
    exact hown a ha (e ▸ (hnames b hb).1)
  have hC : (fm.constructed z ex).Complete := by
    intro a ha ht
    rw [hl] at ha
    rcases List.mem_append.mp ha with ha | ha
    · exact hc a ha ht
    · rcases (hnames a ha).2 with e | e <;> rw [e] at ht <;> simp at ht
  obtain ⟨s', new, h1, h2, h3, h4, h5, h6⟩ := init_from_mesh count zero (fm.constructed z ex) hd hf hN hC s cells hcells
    (by rw [hempty]; simp) hcount
  refine ⟨s', h1, ?_, ?_, ?_⟩
  · have hk : (fm.constructed z ex).toMtype .CELL = some (typeAtt fm).dim := by
      rcases hd with h | h
      · show fm.toMtype .CELL = _
        rw [(toMtype2 h).2.2.2]; simp [typeAtt, cellDim, h]
      · show fm.toMtype .CELL = _
        rw [(toMtype3 h).2.2.2]; simp [typeAtt, cellDim, h]
    obtain ⟨v, hv, _, hb⟩ := h6 (typeAtt fm) (by rw [hl]; exact List.mem_append_right _ hmem) .CELL (Or.inr (Or.inr rfl)) hk 0 rfl
    refine ⟨v, hv, ?_⟩
    rw [hb]
    unfold FMesh.imported
    rw [if_pos (show (typeAtt fm).Holds 0 from Or.inl ⟨rfl, rfl⟩)]
    rfl
  · intro v hv
    rw [h2, hempty, List.nil_append] at hv
    obtain ⟨a, ha, e⟩ := h4 v hv
    rw [hl] at ha
    rcases List.mem_append.mp ha with ha | ha
    · exact .inl ⟨a, ha, e⟩
    · exact .inr (e ▸ (hnames a ha).1)
  · rw [h2, hempty, List.nil_append]; exact h5

/-- The vector holds what `cell_get_type` returns: position `h` has the type of the cell `MESH_Region(mesh, h)`. -/
theorem type_vector_3d (fm : FMesh D) (h : fm.mdim = 3) (c : Nat) (r : Fin fm.j.m.nr) (hc : (fm.j.m.rmap fm.j.bg).at c = some r) :
    ((List.range (fm.nent (cellDim fm.mdim))).map (typeAtt fm).val)[r.val]? = (fm.j.cellType3 c).map fun t => Val.int t.code := by
  have e : fm.nent (cellDim fm.mdim) = fm.j.m.nr := by simp [cellDim, h, FMesh.nent]
  rw [e]
  simp [JMesh.cellType3, hc, typeAtt, h]

theorem type_vector_2d (fm : FMesh D) (h : fm.mdim = 2) (c : Nat) (f : Fin fm.j.m.nf) (hc : (fm.j.m.cmap fm.j.bg).at c = some f) :
    ((List.range (fm.nent (cellDim fm.mdim))).map (typeAtt fm).val)[f.val]? = (fm.j.cellType2 c).map fun t => Val.int t.code := by
  have e : fm.nent (cellDim fm.mdim) = fm.j.m.nf := by simp [cellDim, h, FMesh.nent]
  rw [e]
  simp [JMesh.cellType2, hc, typeAtt, h]

/-- The field `bndry_ghost` is 1 on the boundary ghosts and 0 on all other cells; the fields left on the edges hold the global ids of the two
ends of the edges at a boundary between processors. -/
theorem own_field_values (fm : FMesh D) :
    (fm.mdim = 3 → ∀ r : Fin fm.j.m.nr, (ghostAtt fm).val r = .int (if (fm.j.m.region r).bndryGhost then 1 else 0)) ∧
    (fm.mdim = 2 → ∀ f : Fin fm.j.m.nf, (ghostAtt fm).val f = .int (if (fm.j.m.face f).bndryGhost then 1 else 0)) ∧
    (∀ a ∈ edgeAtts fm, ∀ e : Fin fm.j.m.ne, (fm.j.m.edge e).ptype ≠ .interior →
      a.val e = .int (fm.j.m.vtx (if a.name = "TMP_EV0_ATT" then (fm.j.m.edge e).v0 else (fm.j.m.edge e).v1)).gid) := by
  refine ⟨fun h r => ?_, fun h f => ?_, ?_⟩
  · simp [ghostAtt, h]
  · simp [ghostAtt, h]
  · intro a ha e he
    unfold edgeAtts at ha
    split at ha
    · simp only [List.mem_cons, List.not_mem_nil, or_false] at ha
      rcases ha with rfl | rfl <;> simp [he]
    · simp at ha

/-- a new mesh of two tetrahedra that was given no fields -/
example : ∃ fm : FMesh Int, fm.atts = [] ∧ fm.Dim ∧ fm.j.faces = true ∧ fm.j.m.nr = 2 ∧
    (fm.constructed 0 false).fieldInfo .CELL = some [("Cell_type", .int)] := by
  refine ⟨⟨⟨twoTets, true, true, false, true, [], []⟩, 3, 3, []⟩, rfl, .inr rfl, rfl, rfl, ?_⟩
  decide +kernel

/-- its state manager gets the vector `Cell_type` with the code of a tetrahedron for both cells -/
example : (match initFromMesh (fun _ k _ => (⟨⟨twoTets, true, true, false, true, [], []⟩, 3, 3, []⟩ : FMesh Int).numAll k) .null
      (FMesh.constructed 0 ⟨⟨twoTets, true, true, false, true, [], []⟩, 3, 3, []⟩ false) (create 0 exWorld) with
    | .error _ => []
    | .ok s' => s'.vecs.map fun v => (v.name, v.ty, s'.blocks[v.data]?)) =
    [("Cell_type", 0, some (.uni [.int 4, .int 4]))] := by decide +kernel

end Jali.Mstk
