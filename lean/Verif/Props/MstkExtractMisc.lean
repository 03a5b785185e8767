import Verif.Props.MstkExtract2
/-
C124: what cannot be extracted. C125: parents and their absence. Examples for C122 and C123.
-/
namespace Jali.Mstk

variable {α : Type} [Zero α]

/-- **C124** for nodes, edges, faces and cells: exactly these requests are refused with an exception, whatever the list -/
theorem extraction_refused_iff (src : Source α) (kind : EntityKind) (hk : kind ∈ [EntityKind.NODE, .EDGE, .FACE, .CELL])
    (flatten extrude faces edges : Bool) (ids : List Nat) :
    extract src kind flatten extrude faces edges ids = .throws ↔
      extrude = true ∨ kind = .NODE ∨ kind = .EDGE ∨ (kind = .FACE ∧ src.dim3 = false) ∨
      (kind = .CELL ∧ src.dim3 = true ∧ flatten = true) := by
  have hof : ∀ {β : Type} (o : Option β), Outcome.ofOption o ≠ .throws := by
    intro β o; cases o <;> simp [Outcome.ofOption]
  have hk' : kind = .NODE ∨ kind = .EDGE ∨ kind = .FACE ∨ kind = .CELL := by simpa using hk
  rcases hk' with rfl | rfl | rfl | rfl <;> cases hd : src.dim3 <;> cases extrude <;> cases flatten <;>
    simp [extract, kindToMtype, hd, hof]

/-- **C124** flattening a mesh in the plane is not refused; its nodes have one coordinate afterwards -/
theorem plane_flattened (src : Source α) (hs : src.dim3 = false) (hd : src.spaceDim = 2) {faces edges : Bool}
    {ids : List Nat} {x : Extracted src} (h : extract src .CELL true false faces edges ids = .made x) (n : Nat) (p : List α)
    (hp : x.nodeCoords n = some p) : x.spaceDim = 1 ∧ p.length = 1 := by
  obtain ⟨_, _, l, hl⟩ := cells2_from hs h
  have h1 : x.spaceDim = 1 := by rw [hl.space, hd]; rfl
  refine ⟨h1, ?_⟩
  unfold Extracted.nodeCoords at hp
  obtain ⟨v, _, rfl⟩ := Option.map_eq_some_iff.mp hp
  rw [h1]; rfl

/-- **C125** a mesh that was not extracted: every entity has the parent 0, which is also the parent of copies of entity 0 -/
theorem no_parent_looks_like_parent_0 (j : JMesh) (dim3 : Bool) (kind : EntityKind) (i p : Nat)
    (h : j.plainParent dim3 kind i = some p) : p = 0 := by
  unfold JMesh.plainParent at h
  cases kind <;> cases dim3 <;> simp at h <;> (try split at h) <;> simp_all

/-! ### Examples -/

theorem twoTets_readyE : twoTetsSrc.ReadyE := ⟨⟨rfl, rfl⟩, by decide⟩

/-- two faces of the second tetrahedron as a surface: cells, faces, nodes, and a node of the flattened surface -/
example : (extract twoTetsSrc .FACE true false true true [4, 5]).get?.map (fun x =>
    ([x.parent .CELL 0, x.parent .CELL 1, x.parent .CELL 2], (List.range 6).map (x.parent .FACE),
      (List.range 5).map (x.parent .NODE), x.nodeCoords 3)) =
    some ([some 4, some 5, none], [some 3, some 7, some 6, some 5, some 8, none], [some 1, some 2, some 4, some 3, none],
      some [0, 0]) := by
  decide +kernel

/-- faces 3 and 4 both use edge 3 forwards: the surface is not oriented alike -/
example : ∃ x, extract twoTetsSrc .FACE false false true true [3, 4] = .made x ∧ ¬ x.j.m.OrientedCells := by
  obtain ⟨x, hx⟩ := (surface_extracted_iff twoTetsSrc twoTets_ready false true true [3, 4]).mpr (by decide)
  refine ⟨x, hx, fun ho => ?_⟩
  have := (surface_oriented_iff twoTetsSrc twoTets_ready twoTets_readyE hx).mp ho 0 1 3 4 3 1 rfl rfl
    ⟨_, rfl, by decide +kernel⟩ ⟨_, rfl, by decide +kernel⟩
  exact absurd this (by decide)

/-- two triangles in the plane -/
abbrev twoTris : Source Int where
  j :=
    { m :=
        { nv := 4, ne := 5, nf := 2, nr := 0
          vtx := fun _ => ⟨.interior, 0⟩
          edge := ![⟨.interior, 0, 0, 1, false⟩, ⟨.interior, 0, 1, 2, false⟩, ⟨.interior, 0, 2, 0, false⟩,
            ⟨.interior, 0, 2, 3, false⟩, ⟨.interior, 0, 3, 0, false⟩]
          face := ![⟨.interior, 0, [(0, true), (1, true), (2, true)], false, false⟩,
            ⟨.interior, 0, [(2, false), (3, true), (4, true)], false, false⟩]
          region := fun i => i.elim0 }
      faces := true, edges := true, bg := false, serial := true
      faceflip := List.replicate 5 false, edgeflip := List.replicate 5 false }
  dim3 := false
  spaceDim := 2
  xyz := ![⟨0, 0, 0⟩, ⟨1, 0, 0⟩, ⟨1, 1, 0⟩, ⟨0, 1, 0⟩]

theorem twoTris_ready : twoTris.Ready2 := ⟨rfl, ⟨rfl, rfl⟩, by decide⟩
theorem twoTris_polygons : twoTris.j.m.Polygons := ⟨by decide +kernel, by decide +kernel, by decide +kernel, by decide +kernel⟩
theorem twoTris_oriented : twoTris.j.m.OrientedCells := by unfold MMesh.OrientedCells; decide +kernel

example : (extract twoTris .CELL false false true true [1]).get?.map (fun x =>
    ([x.parent .CELL 0, x.parent .CELL 1], (List.range 4).map (x.parent .FACE), (List.range 4).map (x.parent .NODE), x.nodeCoords 2)) =
    some ([some 1, none], [some 2, some 3, some 4, none], [some 2, some 0, some 3, none], some [0, 1]) := by
  decide +kernel

example : (extract twoTris .CELL false false true true [1]).get?.map (fun x => x.j.cellFaces2 0) =
    some (some [(0, -1), (1, 1), (2, 1)]) := by
  decide +kernel

example : ∃ x, extract twoTris .CELL true false true true [1, 0] = .made x ∧ x.j.m.Polygons ∧ x.j.m.OrientedCells ∧ x.spaceDim = 1 := by
  obtain ⟨x, hx⟩ := (cells2_extracted_iff twoTris rfl true true true [1, 0]).mpr (by decide)
  obtain ⟨h1, h2, _⟩ := cells2_make_mesh twoTris rfl twoTris_polygons twoTris_oriented
    (r := MeshCache.closure ⟨true, true, true, true, true⟩) ⟨_, rfl⟩ (by decide) hx
  obtain ⟨_, _, l, hl⟩ := cells2_from rfl hx
  exact ⟨x, hx, h1, h2, hl.space⟩

example : twoTetsSrc.j.plainParent true .CELL 1 = some 0 ∧ twoTetsSrc.j.plainParent true .NODE 3 = some 0 := by decide

end Jali.Mstk
