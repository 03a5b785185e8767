import Verif.Model.FaceCells
import Verif.Props.MeshSimple
/-! Property theorems C61 (type argument of the upward queries) and C64 (cache transparency). -/
namespace Jali.FaceCells

/-- The cells of a list having the requested type: all of them for `ALL`, none for a type that no cell list is
kept for. -/
def ofType (ty : Nat → EntityType) (t : EntityType) (l : List Int) : List Int :=
  l.filter fun c => t = .ALL ∨ ((t = .PARALLEL_OWNED ∨ t = .PARALLEL_GHOST) ∧ ty c.toNat = t)

/-- C64: for every mesh whose faces have at most two cells, the cached query returns, for every type, exactly the
cells the mesh reports for the face restricted to that type, in the same order; it equals the uncached
query. -/
theorem face_get_cells_by_type (m : Src) (f : Nat) (t : EntityType) (hf : f < m.nfaces)
    (h2 : (m.faceCellsInternal f).length ≤ 2) (hpos : ∀ c ∈ m.faceCellsInternal f, 0 ≤ c) :
    faceGetCells m f t = some (ofType m.cellType t (m.faceCellsInternal f)) ∧
    faceGetCells m f t = some (faceGetCellsUncached m f t) := by
  unfold faceGetCells faceGetCellsUncached ofType
  rw [if_pos hf]
  match hl : m.faceCellsInternal f, h2 with
  | [], _ => cases t <;> simp [cacheRow]
  | [a], _ =>
    have ha : a ≠ -1 := by have := hpos a (by simp [hl]); omega
    cases t <;> simp [cacheRow, ha, List.filter_cons]
  | [a, b], _ =>
    have ha : a ≠ -1 := by have := hpos a (by simp [hl]); omega
    have hb : b ≠ -1 := by have := hpos b (by simp [hl]); omega
    cases t <;> simp [cacheRow, ha, hb, List.filter_cons]

/-- A mesh of two cells, the second a ghost, sharing face 1. -/
def two : Src where
  nfaces := 3
  faceCellsInternal f := if f = 0 then [0] else if f = 1 then [0, 1] else [1]
  cellType c := if c = 0 then .PARALLEL_OWNED else .PARALLEL_GHOST

example : faceGetCells two 1 .PARALLEL_GHOST = some [1] := by decide

/-- A face with three cells overruns the row of two: undefined behaviour while the cache is built. -/
theorem face_with_three_cells_overruns (m : Src) (f : Nat) (t : EntityType)
    (h : 2 < (m.faceCellsInternal f).length) : faceGetCells m f t = none := by
  unfold faceGetCells
  match hl : m.faceCellsInternal f, h with
  | a :: b :: c :: r, _ => simp [cacheRow]

example : faceGetCells { two with faceCellsInternal := fun _ => [0, 1, 0] } 1 .ALL = none := by decide

/-- C61, the part that holds: on a serial structured mesh (all cells owned) the face→cell query respects the
type argument: OWNED and ALL give all cells of the face, a request for `GHOST` (or any other type) gives the
empty list. Missing: the node queries and the adjacency queries, refuted below. -/
theorem structured_face_get_cells_type_partial (d : Simple.Dims) (f : Nat) (t : EntityType)
    (hf : f ∈ Simple.faceIds d) :
    faceGetCells (structured d) f t =
      some (if t = .PARALLEL_OWNED ∨ t = .ALL then Simple.faceGetCells d f else []) := by
  have h2 : (Simple.faceGetCells d f).length ≤ 2 := by
    unfold Simple.faceGetCells; split <;> split <;> simp
  have hpos : ∀ c ∈ Simple.faceGetCells d f, 0 ≤ c := by
    intro c hc
    obtain ⟨g, hg, rfl⟩ := Simple.faceIdx_surj d (List.mem_range.1 hf)
    rw [Simple.faceGetCells_eq d hg] at hc
    obtain ⟨q, -, rfl⟩ := List.mem_map.1 hc
    omega
  rw [(face_get_cells_by_type (structured d) f t (List.mem_range.mp hf) h2 hpos).2]
  cases t <;> simp [faceGetCellsUncached, structured]

example : faceGetCells (structured Simple.ex) 30 .PARALLEL_GHOST = some [] := by
  rw [structured_face_get_cells_type_partial _ _ _ (by decide)]; simp

/-- C61 is false of the code: on every structured mesh, whose cells are all owned, `node_get_cells(n, GHOST)` lists
every cell that has the node. -/
theorem structured_node_get_cells_ignores_type (d : Simple.Dims) (n c : Nat) (hn : n ∈ Simple.nodeIds d)
    (hc : c ∈ Simple.cellIds d) (hnc : n ∈ Simple.cellGetNodes d c) :
    c ∈ nodeGetCellsT d n .PARALLEL_GHOST ∧ (structured d).cellType c = .PARALLEL_OWNED :=
  ⟨(Simple.node_get_cells_inverse d n c hn hc).1.2 hnc, rfl⟩

example : (5 : Nat) ∈ Simple.nodeIds Simple.ex ∧ 1 ∈ Simple.cellIds Simple.ex ∧
    5 ∈ Simple.cellGetNodes Simple.ex 1 := ⟨by decide, by decide, by decide +kernel⟩

/-- … and likewise for the node-adjacent cells. -/
theorem structured_node_adj_ignores_type (d : Simple.Dims) (c c' n : Nat) (hc : c ∈ Simple.cellIds d)
    (hc' : c' ∈ Simple.cellIds d) (hne : c' ≠ c) (h : n ∈ Simple.cellGetNodes d c)
    (h' : n ∈ Simple.cellGetNodes d c') :
    c' ∈ cellGetNodeAdjCellsT d c .PARALLEL_GHOST ∧ (structured d).cellType c' = .PARALLEL_OWNED :=
  ⟨((Simple.node_adj_cells_exact d c hc).2 c').2 ⟨hc', hne, n, h, h'⟩, rfl⟩

example : 17 ∈ Simple.cellGetNodes Simple.ex 1 ∧ 17 ∈ Simple.cellGetNodes Simple.ex 9 :=
  ⟨by decide +kernel, by decide +kernel⟩

end Jali.FaceCells
