import Verif.Spec.State
import Verif.Spec.MeshSet
/-! Vocabulary for the material properties C41 – C43, C79: the materials a history of calls asks for. -/
namespace Jali.St
open Jali.MSet

/-- A material: its name, its cells in the order they were given, and whether `add_cells_to_material` was called on it
when it already had cells. -/
structure Mat where
  name : String
  cells : List Nat
  late : Bool

/-- The materials, and for each cell the numbers of its materials in the order in which the cell got them. -/
structure Mats where
  mats : List Mat
  cell : Nat → List Nat

/-- What an operation asks for. A material name in use is refused. -/
def Op.onMats {V : Type} (A : Mats) : Op V → Mats
  | .addMaterial n cs =>
    if n ∈ A.mats.map (fun x => x.name) then A
    else ⟨A.mats ++ [⟨n, cs, false⟩], fun c => if c ∈ cs then A.cell c ++ [A.mats.length] else A.cell c⟩
  | .addCells i cs =>
    ⟨A.mats.modify i fun x => ⟨x.name, x.cells ++ cs, x.late || !x.cells.isEmpty⟩,
      fun c => if c ∈ cs then A.cell c ++ [i] else A.cell c⟩
  | _ => A

/-- no materials -/
def Mats.none : Mats := ⟨[], fun _ => []⟩

/-- What a history of operations asks for, from given materials on. -/
def matsFrom {V : Type} (A : Mats) (ops : List (Op V)) : Mats := ops.foldl (fun A o => o.onMats A) A

/-- What a history of operations asks for. -/
def matsAfter {V : Type} (ops : List (Op V)) : Mats := matsFrom Mats.none ops

/-- Cells that may be added to a material with the cells `old`: no repetition, not there yet, cells of the mesh that
are owned or ghost, not only ghosts. -/
structure NewCells (m : MeshView) (old cs : List Nat) : Prop where
  nodup : cs.Nodup
  absent : ∀ c ∈ cs, c ∉ old
  bound : ∀ c ∈ cs, c < m.nAll
  typed : ∀ c ∈ cs, m.typeOf c = .PARALLEL_OWNED ∨ m.typeOf c = .PARALLEL_GHOST
  some_owned : cs ≠ [] → ∃ c ∈ cs, m.typeOf c = .PARALLEL_OWNED

/-- The histories covered by the material theorems. `w` is the mesh with its cell sets when the state manager is
created: a new material must not have the name of one of these sets. No material is removed, multi-material
vectors live on a mesh (not on a tile), and `add` by copy takes a univalued vector (it compiles for no
other). -/
def Op.Allowed {V : Type} (w : Reg.World) (A : Mats) : Op V → Prop
  | .addMaterial n cs => n ∈ A.mats.map (fun x => x.name) ∨
      (Reg.findMeshset w n .CELL = Option.none ∧ NewCells (w.view .CELL) [] cs)
  | .addCells i cs => ∃ x, A.mats[i]? = some x ∧ NewCells (w.view .CELL) x.cells cs
  | .remMaterial _ => False
  | .remMaterialByName _ => False
  | .add r => r.vt = .MULTIVAL → ∃ d, r.domain = .mesh d
  | .addCopy v => v.vectype = .UNIVAL
  | _ => True

/-- every operation of the history is allowed when it is made -/
def AllowedFrom {V : Type} (w : Reg.World) : Mats → List (Op V) → Prop
  | _, [] => True
  | A, o :: os => o.Allowed w A ∧ AllowedFrom w (o.onMats A) os

/-- the mesh's registered sets exist -/
def RegOk (w : Reg.World) : Prop := ∀ a ∈ w.reg, a < w.heap.length

/-- `s` is the state manager after an allowed history of operations on a mesh with the sets `w`; the history asked for
the materials `A`. -/
def Reached {V : Type} (w : Reg.World) (s : State V) (A : Mats) : Prop :=
  RegOk w ∧ ∃ mesh zero count ops ps, AllowedFrom w Mats.none ops ∧
    run zero count (create mesh w) ops = .ok (ps, s) ∧ A = matsAfter ops

/-- The two tables agree: for every cell of the mesh, `cell_materials` lists without repetition exactly the materials
whose `material_cells` contain the cell. -/
def Inverse {V : Type} (s : State V) : Prop :=
  ∀ c, c < (s.w.view .CELL).nAll → ∃ l, cellMaterials s c = .ok l ∧ l.Nodup ∧ ∀ m, m ∈ l ↔ c ∈ materialCells s m

end Jali.St
