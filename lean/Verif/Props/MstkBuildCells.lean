import Verif.Proof.MstkBuild7
/-
C154, queries: the cells on the two sides of a face of a generated mesh.
-/
namespace Jali.MstkGen
open Spec Jali.Mstk

section
variable {K : Type} [Field K] [LinearOrder K] [IsStrictOrderedRing K]

theorem rmap_plain_id (m : MMesh) (h : ∀ i, (m.region i).ptype = .interior) (i : Fin m.nr) : (m.rmap false).id i - 1 = i.1 :=
  (m.rnum false).at_iff.mp (rmap_plain m h i)

/-- **C154** `face_get_cells` of a generated mesh returns the cells that have all corners of the face among their corners, each of them
once: one cell for a face on the boundary of the block and two cells for any other face -/
theorem generated_face_cells (d : Dom K) (hd : GoodDom d) (b : Blk) (hb : GoodBlk d b) (g : RegMesh K) (hg : generate d b = some g)
    (j : JMesh) (hm : build g = some j.m) (hfaces : j.faces = true) (hbg : j.bg = false) (f : Nat) (face : Face K)
    (hf : g.faces[f]? = some face) :
    ∃ l, j.faceCells3 f .ALL = some l ∧ l.Nodup ∧
      (∀ c, c ∈ l ↔ ∃ cell, g.regions[c]? = some cell ∧ ∀ v ∈ face.vs, v ∈ cell.vs) ∧
      (OnBoundary d b face → l.length = 1) ∧ (¬ OnBoundary d b face → l.length = 2) := by
  obtain ⟨rfl, ⟨G⟩⟩ := grid_of_build hd hb hg hm
  have hlt : f < j.m.nf := by
    have := (List.getElem?_eq_some_iff.mp hf).1
    rw [← G.flist, List.length_ofFn] at this
    exact this
  let fh : Fin j.m.nf := ⟨f, hlt⟩
  have hface : G.fo fh = face := by
    have := Grid.lookup G.flist fh
    exact Option.some.inj (this.symm.trans hf)
  have hri : ∀ i, (j.m.region i).ptype = .interior := fun i => (G.rgid i).2
  have hat : j.m.fmap.at f = some fh := fmap_plain j.m (fun i => (G.fgid i).2) fh
  have hl : j.faceCells3 f .ALL = some ((j.m.mfRegions fh).map fun r => r.1) := by
    unfold JMesh.faceCells3
    rw [if_pos hfaces, hat, Option.map_some, hbg]
    congr 1
    rw [List.filter_eq_self.mpr fun r _ => by simp [passes]]
    exact List.map_congr_left fun r _ => rmap_plain_id j.m hri r
  refine ⟨_, hl, ?_, fun c => ?_, ?_⟩
  · exact (Grid.mfRegions_nodup fh).map fun a b h => Fin.ext h
  · rw [List.mem_map]
    constructor
    · rintro ⟨r, hr, rfl⟩
      rw [G.mem_mfRegions hd hb, hface] at hr
      exact ⟨_, Grid.lookup G.rlist r, hr⟩
    · rintro ⟨cell, hc, hv⟩
      have hc' := (List.getElem?_eq_some_iff.mp hc).1
      rw [← G.rlist, List.length_ofFn] at hc'
      refine ⟨⟨c, hc'⟩, ?_, rfl⟩
      have := Grid.lookup G.rlist ⟨c, hc'⟩
      have e : G.ro ⟨c, hc'⟩ = cell := Option.some.inj (this.symm.trans hc)
      rw [G.mem_mfRegions hd hb, hface, e]
      exact hv
  · rw [List.length_map, ← hface]
    exact regions_count hd hb G fh

end

/-! ### example: in the block of 1 x 2 x 2 cells, face 10 is between the cells 0 and 2, face 0 is on the boundary -/
example : ∃ j : JMesh, build exMesh = some j.m ∧ j.faces = true ∧ j.bg = false ∧ j.faceCells3 10 .ALL = some [0, 2] ∧
    j.faceCells3 0 .ALL = some [0] := by
  refine ⟨⟨(build exMesh).get (by decide +kernel), true, true, false, true, [], []⟩, by simp, rfl, rfl, ?_, ?_⟩ <;>
    decide +kernel

end Jali.MstkGen
