import Verif.Proof.MstkBuild2D2
import Verif.Props.MstkGeometry2
/-
C156: the quadrilateral mesh MSTK holds after `generate_regular_mesh` is the generated mesh, it is a mesh of polygons as assumed by the
properties of queries on MSTK meshes (C103 - C132), and areas, centroids and normals of its cells are those of rectangles. The spec is in
`Spec/MstkBuild2D.lean` (`Holds2`, `OnBoundary2`, `Placed2`) and `Spec/MstkMesh.lean` (`Polygons`, `OrientedCells`).
-/
namespace Jali.MstkGen
open Spec Jali.Mstk

section
variable {K : Type} [Field K] [LinearOrder K] [IsStrictOrderedRing K]

theorem grid_of_build2 {d : Dom2 K} {b : Blk2} (hb : GoodBlk2 d b) {g : RegMesh2 K} (hg : generate2 d b = some g)
    {m : MMesh} (hm : build2 g = some m) : g = genOf2 d b ∧ Nonempty (Grid2 d b m) := by
  rw [generate2_eq d hb.nx hb.ny] at hg
  cases hg
  obtain ⟨m', h1, h2⟩ := build_grid2 d b hb.nx hb.ny
  rw [hm] at h1
  cases h1
  exact ⟨rfl, h2⟩

/-- **C156** MSTK holds the generated mesh -/
theorem generated_mesh2_is_held (d : Dom2 K) (b : Blk2) (hb : GoodBlk2 d b) (g : RegMesh2 K) (hg : generate2 d b = some g) :
    ∃ m, build2 g = some m ∧ Holds2 m g := by
  rw [generate2_eq d hb.nx hb.ny] at hg
  cases hg
  obtain ⟨m, h1, ⟨G⟩⟩ := build_grid2 d b hb.nx hb.ny
  exact ⟨m, h1, G.holds⟩

/-- **C156** it is a mesh of polygons: edges have two ends, the four edges of a cell are a closed walk through four different vertices, two
cells never use an edge in the same direction -/
theorem generated_mesh2_is_polygonal (d : Dom2 K) (b : Blk2) (hb : GoodBlk2 d b) (g : RegMesh2 K)
    (hg : generate2 d b = some g) (m : MMesh) (hm : build2 g = some m) :
    m.Polygons ∧ m.OrientedCells ∧ ∀ f, (m.face f).edges.length = 4 := by
  obtain ⟨_, ⟨G⟩⟩ := grid_of_build2 hb hg hm
  exact ⟨G.polygons hb.nx hb.ny, G.oriented, G.four⟩

/-- **C156** `face_get_cells` of a generated mesh in two dimensions (the faces are the edges) returns the cells that use the edge, each of
them once: one cell for an edge on the boundary of the block and two cells for any other edge -/
theorem generated_edge_cells (d : Dom2 K) (hd : GoodDom2 d) (b : Blk2) (hb : GoodBlk2 d b) (g : RegMesh2 K) (hg : generate2 d b = some g)
    (j : JMesh) (hm : build2 g = some j.m) (hfaces : j.faces = true) (hbg : j.bg = false) (f : Nat) (e : Edge2 K)
    (hf : g.edges[f]? = some e) :
    ∃ l, j.faceCells2 f .ALL = some l ∧ l.Nodup ∧
      (∀ c, c ∈ l ↔ ∃ cell, g.faces[c]? = some cell ∧ ∃ dir, (e, dir) ∈ cell.es) ∧
      (OnBoundary2 d b e → l.length = 1) ∧ (¬ OnBoundary2 d b e → l.length = 2) := by
  obtain ⟨rfl, ⟨G⟩⟩ := grid_of_build2 hb hg hm
  have hlt : f < j.m.ne := by
    have := (List.getElem?_eq_some_iff.mp hf).1
    rw [← G.elist, List.length_ofFn] at this
    exact this
  let fh : Fin j.m.ne := ⟨f, hlt⟩
  have hface : G.eo fh = e := Option.some.inj ((Grid2.lookup G.elist fh).symm.trans hf)
  have hat : j.m.emap.at f = some fh := emap_plain j.m (fun i => (G.egid i).2) fh
  have hl : j.faceCells2 f .ALL = some ((j.m.meFaces fh).map fun r => r.1) := by
    unfold JMesh.faceCells2
    rw [if_pos hfaces, hat, Option.map_some, hbg]
    congr 1
    rw [List.filter_eq_self.mpr fun r _ => by simp [passes]]
    exact List.map_congr_left fun r _ => (j.m.cnum false).at_iff.mp (cmap_plain j.m (fun i => (G.fgid i).2) r)
  refine ⟨_, hl, ?_, fun c => ?_, ?_⟩
  · exact ((List.nodup_finRange _).filter _).map fun a b h => Fin.ext h
  · rw [List.mem_map]
    constructor
    · rintro ⟨r, hr, rfl⟩
      rw [G.mem_meFaces, hface] at hr
      exact ⟨_, Grid2.lookup G.flist r, hr⟩
    · rintro ⟨cell, hc, hv⟩
      have hc' := (List.getElem?_eq_some_iff.mp hc).1
      rw [← G.flist, List.length_ofFn] at hc'
      refine ⟨⟨c, hc'⟩, ?_, rfl⟩
      have e1 : G.fo ⟨c, hc'⟩ = cell := Option.some.inj ((Grid2.lookup G.flist ⟨c, hc'⟩).symm.trans hc)
      rw [G.mem_meFaces, hface, e1]
      exact hv
  · rw [List.length_map, ← hface]
    exact faces_count2 hd hb G fh

end

/-! ### example: a block of 2 x 2 cells -/

/-- the generated example -/
def exMesh2 : RegMesh2 ℚ := genOf2 exDom2 exBlk2

example : ∃ j : JMesh, build2 exMesh2 = some j.m ∧ j.faces = true ∧ j.bg = false ∧ j.m.nv = 9 ∧ j.m.ne = 12 ∧ j.m.nf = 4 ∧
    j.faceCells2 1 .ALL = some [0, 2] ∧ j.faceCells2 0 .ALL = some [0] ∧
    (List.finRange j.m.nf).map (fun r => (j.m.face r).edges.map fun q => (q.1.val, q.2)) =
      [[(0, true), (1, true), (2, true), (3, true)], [(2, false), (4, true), (5, true), (6, true)],
       [(7, true), (8, true), (9, true), (1, false)], [(9, false), (10, true), (11, true), (4, false)]] := by
  refine ⟨⟨(build2 exMesh2).get (by decide +kernel), true, true, false, true, [], []⟩, by simp, rfl, rfl, ?_⟩
  decide +kernel

example : generate2 exDom2 exBlk2 = some exMesh2 ∧ GoodDom2 exDom2 ∧ GoodBlk2 exDom2 exBlk2 :=
  ⟨generate2_eq exDom2 (by decide) (by decide), exDom2_good, exBlk2_good⟩

end Jali.MstkGen
