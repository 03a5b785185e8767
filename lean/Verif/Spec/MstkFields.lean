import Verif.Model.MstkFields
/-
Which entity a value of a field belongs to, and which element type a field has.
-/
namespace Jali.Mstk
variable {D : Type}

/-- the number, in the MSTK mesh, of the entity to which Jali gave the id -/
def FMesh.entity (fm : FMesh D) (k : EntityKind) (id : Nat) : Option Nat :=
  match k with
  | .NODE => (fm.j.m.vmap.at id).map Fin.val
  | .EDGE => (fm.j.m.emap.at id).map Fin.val
  | .FACE => if fm.mdim = 3 then (fm.j.m.fmap.at id).map Fin.val else (fm.j.m.emap.at id).map Fin.val
  | .CELL => if fm.mdim = 3 then ((fm.j.m.rmap fm.j.bg).at id).map Fin.val else ((fm.j.m.cmap fm.j.bg).at id).map Fin.val
  | _ => none

/-- the value of the field for the entity with the id -/
def FMesh.valueOf (fm : FMesh D) (name : String) (k : EntityKind) (id : Nat) : Option (Val D) :=
  (fm.byName name).bind fun a => (fm.entity k id).map a.val

/-- a kind of entities on which fields can live -/
def FieldKind (k : EntityKind) : Prop := k = .NODE ∨ k = .EDGE ∨ k = .FACE ∨ k = .CELL

/-- a 2D or 3D mesh -/
def FMesh.Dim (fm : FMesh D) : Prop := fm.mdim = 2 ∨ fm.mdim = 3

/-- the element types that can be stored: `int`, `double`, `std::array<double, N>` with `N = 2, 3, 6` -/
def Storable (ty : Nat) : Prop := ty = 0 ∨ ty = 1 ∨ ty = 2 ∨ ty = 3 ∨ ty = 6

/-- the value is one of the element type -/
def OfType (ty : Nat) : Val D → Prop
  | .int _ => ty = 0
  | .real _ => ty = 1
  | .vec l => ty ≠ 0 ∧ ty ≠ 1 ∧ l.length = ty
  | .null => False
  | .junk => False

/-- the field has values of the element type -/
def Attr.Holds (a : Attr D) (ty : Nat) : Prop :=
  (ty = 0 ∧ a.type = .int) ∨ (ty = 1 ∧ a.type = .double) ∨
  (ty ≠ 0 ∧ ty ≠ 1 ∧ (a.type = .vector ∨ a.type = .tensor) ∧ a.ncomp = ty)

/-- Jali numbers the entities of the kind in the order of the MSTK mesh -/
def FMesh.InOrder (fm : FMesh D) (k : EntityKind) : Prop := ∀ id h, fm.entity k id = some h → h = id

/-- 0 owned, 1 ghost, 2 boundary ghost -/
def group (bg : Bool) (p : PType) (mark : Bool) : Nat := if p = .ghost then 1 else if bg && mark then 2 else 0

end Jali.Mstk

namespace Jali.Mstk
open Jali.St
variable {D : Type}

/-- the kinds of entities `init_from_mesh` and `export_to_mesh` are meant for -/
def StateKind (k : EntityKind) : Prop := k = .NODE ∨ k = .FACE ∨ k = .CELL

/-- `num_entities(kind, ALL)`: faces count only if they were requested -/
def FMesh.numAll (fm : FMesh D) : EntityKind → Nat
  | .NODE => fm.j.m.nodeIds.all.length
  | .FACE => if fm.j.faces then (if fm.mdim = 3 then fm.j.m.faceIds3.all.length else fm.j.m.edgeIds.all.length) else 0
  | .CELL => if fm.mdim = 3 then (fm.j.m.cellIds3 fm.j.bg).all.length else (fm.j.m.cellIds2 fm.j.bg).all.length
  | _ => 0

/-- every entity has a value of every vector or tensor field -/
def FMesh.Complete (fm : FMesh D) : Prop :=
  ∀ a ∈ fm.atts, a.type = .vector ∨ a.type = .tensor → a.ncomp ≠ 0 ∧ a.ncomp ≠ 1 ∧
    ∀ i < fm.nent a.dim, OfType a.ncomp (a.val i)

instance (a : Attr D) (ty : Nat) : Decidable (a.Holds ty) := by unfold Attr.Holds; infer_instance

/-- the values of a field, or elements never written if the field has another type -/
def FMesh.imported (fm : FMesh D) (ty : Nat) (a : Attr D) : List (Val D) :=
  if a.Holds ty then (List.range (fm.nent a.dim)).map a.val else List.replicate (fm.nent a.dim) .junk

/-- element types that survive being stored as a vector or tensor of the space dimension -/
def Suits (sdim ty : Nat) : Prop :=
  ty = 0 ∨ ty = 1 ∨ (sdim = 2 ∧ (ty = 2 ∨ ty = 3)) ∨ (sdim = 3 ∧ (ty = 3 ∨ ty = 6))

/-- the vector can be exported: univalued, on the mesh, one value for each of the entities -/
structure Exportable (fm : FMesh D) (s : State (Val D)) (v : Vec) (l : List (Val D)) : Prop where
  uni : v.vectype = .UNIVAL
  ty : Storable v.ty
  mesh : v.domain = .mesh s.mesh
  kind : StateKind v.kind
  data : s.blocks[v.data]? = some (.uni l)
  size : l.length = fm.numAll v.kind
  typed : ∀ x ∈ l, OfType v.ty x

end Jali.Mstk
