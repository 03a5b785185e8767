import Verif.Model.StateSites
import Verif.Spec.Materials
/-! Vocabulary for the property C152: several state managers on one mesh. -/
namespace Jali.St
open Jali.MSet

/-- the operations of manager `i` in a history -/
def opsOf {V : Type} (i : Nat) (acts : List (Act V)) : List (Op V) :=
  acts.filterMap fun
    | .op j o => if j = i then some o else none
    | _ => none

/-- the names of the materials manager `i` is asked to add -/
def materialNames {V : Type} (i : Nat) (acts : List (Act V)) : List String :=
  (opsOf i acts).filterMap fun
    | .addMaterial n _ => some n
    | _ => none

/-- Two managers give the same answer to every question: about materials, about vectors, and about values. -/
structure SameAnswers {V : Type} (zero : V) (s s' : State V) : Prop where
  num_materials : numMaterials s = numMaterials s'
  material_name : ∀ m, materialName s m = materialName s' m
  material_index : ∀ n, materialIndexByName s n = materialIndexByName s' n
  material_cells : ∀ m, materialCells s m = materialCells s' m
  num_material_cells : ∀ m, numMaterialCells s m = numMaterialCells s' m
  cell_materials : ∀ c, cellMaterials s c = cellMaterials s' c
  cell_index : ∀ c m, cellIndexInMaterial s c m = cellIndexInMaterial s' c m
  vectors : s.vecs = s'.vecs
  names : s.names = s'.names
  of_kind : ∀ k, vecsOfKind s k = vecsOfKind s' k
  uni : ∀ v i, uniRead s v i = uniRead s' v i
  multi : ∀ v i j l, multiRead zero s v i j l = multiRead zero s' v i j l

end Jali.St
