import Verif.Proof.MstkBuild4
/-
C154: the mesh MSTK holds after `generate_regular_mesh` is the generated mesh, and it is a mesh of polyhedra, as assumed by the
properties of queries on MSTK meshes (C103 - C134). The spec is in `Spec/MstkBuild.lean` (`Holds`), `Spec/MstkMesh.lean` (`Polygons`,
`Regions`) and `Spec/MstkGeometry.lean` (`Watertight`).
-/
namespace Jali.MstkGen
open Spec Jali.Mstk

section
variable {K : Type} [Field K] [LinearOrder K] [IsStrictOrderedRing K]

theorem grid_of_build {d : Dom K} (hd : GoodDom d) {b : Blk} (hb : GoodBlk d b) {g : RegMesh K} (hg : generate d b = some g)
    {m : MMesh} (hm : build g = some m) : g = genOf d b ∧ Nonempty (Grid d b m) := by
  rw [generate_eq d hd.nx hd.ny hd.nz hb.nx hb.ny hb.nz] at hg
  cases hg
  obtain ⟨m', h1, h2⟩ := build_grid d hd b hb
  rw [hm] at h1
  cases h1
  exact ⟨rfl, h2⟩

/-- **C154** all edges and faces `MF_Set_Vertices` and `MR_Set_Vertices` look for are there, so that MSTK makes no entities of its own,
and the mesh it holds is the generated mesh -/
theorem generated_mesh_is_held (d : Dom K) (hd : GoodDom d) (b : Blk) (hb : GoodBlk d b) (g : RegMesh K) (hg : generate d b = some g) :
    ∃ m, build g = some m ∧ Holds m g := by
  have hg' := hg
  rw [generate_eq d hd.nx hd.ny hd.nz hb.nx hb.ny hb.nz] at hg
  cases hg
  obtain ⟨m, h1, ⟨G⟩⟩ := build_grid d hd b hb
  exact ⟨m, h1, G.holds⟩

/-- **C154** it is a mesh of polyhedra: edges have two ends, the edges of a face are a closed walk through four different vertices,
a cell has six different faces with a closed surface, a face has at most one cell on each side -/
theorem generated_mesh_is_polyhedral (d : Dom K) (hd : GoodDom d) (b : Blk) (hb : GoodBlk d b) (g : RegMesh K)
    (hg : generate d b = some g) (m : MMesh) (hm : build g = some m) :
    m.Polygons ∧ m.Regions ∧ (∀ f, (m.face f).edges.length = 4) ∧ (∀ r, (m.region r).faces.length = 6) ∧
    ∀ r, m.Watertight (m.region r) := by
  obtain ⟨_, ⟨G⟩⟩ := grid_of_build hd hb hg hm
  exact ⟨G.polygons hd hb, G.regions hd hb, G.four, G.six, fun r => G.watertight hd hb r⟩

end

/-! ### example: a block of 1 x 2 x 2 cells -/

/-- the generated example -/
def exMesh : RegMesh ℚ := genOf exDom exBlk

example : ∃ m, build exMesh = some m ∧ m.nv = 18 ∧ m.ne = 33 ∧ m.nf = 20 ∧ m.nr = 4 ∧
    (List.finRange m.nr).map (fun r => (m.region r).faces.map fun q => (q.1.val, q.2)) =
      [[(8 + 6, false), (8 + 7, true), (8, true), (4, true), (8 + 2, false), (0, false)],
       [(8 + 7, false), (8 + 8, true), (8 + 1, true), (5, true), (8 + 3, false), (1, false)],
       [(8 + 9, false), (8 + 10, true), (8 + 2, true), (6, true), (8 + 4, false), (2, false)],
       [(8 + 10, false), (8 + 11, true), (8 + 3, true), (7, true), (8 + 5, false), (3, false)]] := by
  refine ⟨(build exMesh).get (by decide +kernel), by simp, ?_⟩
  decide +kernel

example : ∃ g m, generate exDom exBlk = some g ∧ build g = some m ∧ m.nr = 4 ∧ m.Polygons ∧ m.Regions := by
  obtain ⟨m, h1, ⟨G⟩⟩ := build_grid exDom exDom_good exBlk exBlk_good
  refine ⟨_, m, generate_eq exDom (by decide) (by decide) (by decide) (by decide) (by decide) (by decide), h1, ?_,
    G.polygons exDom_good exBlk_good, G.regions exDom_good exBlk_good⟩
  rw [G.holds.counts.2.2.2]; decide +kernel

end Jali.MstkGen
