import Verif.Proof.MetisGraph
import Verif.Props.MstkFaceCells
import Verif.Props.MstkTiles
import Verif.Props.MstkNeighbours
import Verif.Props.MstkExtractMisc
import Verif.Props.MstkSets
/-
C149: the graph handed to METIS.
-/
namespace Jali.Mstk
open Jali.Metis

/-- the faces of a cell -/
def JMesh.facesOf3 (j : JMesh) (c : Nat) : List Nat := ((j.cellFaces3 c).getD []).map Prod.fst
def JMesh.facesOf2 (j : JMesh) (c : Nat) : List Nat := ((j.cellFaces2 c).getD []).map Prod.fst

theorem mem_facesOf3 (j : JMesh) (c f : Nat) : f ∈ j.facesOf3 c ↔ HasFst (j.cellFaces3 c) f := by
  unfold JMesh.facesOf3 HasFst
  cases j.cellFaces3 c with
  | none => simp
  | some l => simp

theorem mem_facesOf2 (j : JMesh) (c f : Nat) : f ∈ j.facesOf2 c ↔ HasFst (j.cellFaces2 c) f := by
  unfold JMesh.facesOf2 HasFst
  cases j.cellFaces2 c with
  | none => simp
  | some l => simp

theorem mem_owned_iff {L : IdLists} {n : Nat} (h : Consecutive L n) (x : Nat) : x ∈ L.owned ↔ x < L.owned.length := by
  obtain ⟨e, _⟩ := owned_range h
  constructor
  · intro hx; rw [e] at hx; simpa using hx
  · intro hx; rw [e]; simpa using hx

theorem incidence3 (j : JMesh) (R : j.Ready3) (hr : j.m.Regions) (hbg : j.bg = false) :
    Incidence (j.m.cellIds3 j.bg).owned.length j.m.nf j.facesOf3 (fun f => (j.faceCells3 f .PARALLEL_OWNED).getD []) := by
  have C := (ids_consecutive j.m j.bg).2.2.2.1
  have some_of : ∀ f, f < j.m.nf → ∃ fh l, j.m.fmap.at f = some fh ∧ j.faceCells3 f .PARALLEL_OWNED = some l := by
    intro f hf
    obtain ⟨fh, hfh⟩ := j.m.fnum.at_some hf
    exact ⟨fh, _, hfh, by unfold JMesh.faceCells3; rw [if_pos R.faces, hfh]; rfl⟩
  have lt_nr : ∀ i, i < (j.m.cellIds3 j.bg).owned.length → i < j.m.nr := fun i hi => lt_of_lt_of_le hi (owned_range C).2.1
  refine ⟨?_, ?_, ?_, ?_, ?_⟩
  · intro i hi
    obtain ⟨r, hi'⟩ := (j.m.rnum j.bg).at_some (lt_nr i hi)
    unfold JMesh.facesOf3
    rw [cellFaces3_eq R hi', Option.getD_some, List.map_map]
    have := nodup_map_id j.m.fnum (hr.noface r)
    rw [List.map_map] at this
    exact this
  · intro f hf
    obtain ⟨fh, l, _, hl⟩ := some_of f hf
    simp only [hl, Option.getD_some]
    exact (cells_listed_once j .PARALLEL_OWNED).1 f l hl
  · intro i _ f hf
    rw [mem_facesOf3, hasFst_cellFaces3 R] at hf
    obtain ⟨_, fh, _, hf, _⟩ := hf
    exact j.m.fnum.lt_of_at hf
  · intro f hf i
    obtain ⟨fh, l, _, hl⟩ := some_of f hf
    have e1 : i ∈ (j.faceCells3 f .PARALLEL_OWNED).getD [] ↔ Has (j.faceCells3 f .PARALLEL_OWNED) i := by
      rw [hl]; exact ⟨fun h => ⟨l, rfl, h⟩, fun ⟨l', e, h⟩ => by cases e; exact h⟩
    have N := names_cells3 j.m
    rw [← hbg] at N
    rw [e1, has_faceCells3 R.faces, mem_facesOf3, hasFst_cellFaces3 R, ← mem_owned_iff C]
    constructor
    · rintro ⟨r, fh, a, b, c, p⟩
      refine ⟨(N.owned_iff i r a).mpr ?_, r, fh, a, b, c⟩
      intro hg; rw [hg] at p; simp [passes] at p
    · rintro ⟨ho, r, fh, a, b, c⟩
      refine ⟨r, fh, a, b, c, ?_⟩
      have := (N.owned_iff i r a).mp ho
      simp [passes, this]
  · intro f hf
    obtain ⟨fh, l, hfh, hl⟩ := some_of f hf
    simp only [hl, Option.getD_some]
    refine length_le_two ((cells_listed_once j .PARALLEL_OWNED).1 f l hl) (fun _ _ => ⟨true, trivial⟩)
      (fun c b => ∃ g, (j.m.rmap j.bg).at c = some g ∧ (fh, b) ∈ (j.m.region g).faces) ?_ ?_
    · intro c hc
      obtain ⟨g, fh', hg, hfh', hm, _⟩ := (has_faceCells3 R.faces f c .PARALLEL_OWNED).mp ⟨l, hl, hc⟩
      rw [hfh] at hfh'; cases hfh'
      obtain ⟨p, hp, e⟩ := List.mem_map.mp hm
      exact ⟨p.2, g, hg, by rw [← e]; exact hp⟩
    · rintro c c' b ⟨g, hg, hm⟩ ⟨g', hg', hm'⟩
      have := hr.sides _ _ _ _ hm hm'
      subst this
      rw [← (j.m.rnum j.bg).at_iff.mp hg, ← (j.m.rnum j.bg).at_iff.mp hg']

theorem incidence2 (j : JMesh) (R : j.Ready2) (hp : j.m.Polygons) (hr : j.m.OrientedCells) (hbg : j.bg = false) :
    Incidence (j.m.cellIds2 j.bg).owned.length j.m.ne j.facesOf2 (fun f => (j.faceCells2 f .PARALLEL_OWNED).getD []) := by
  have C := (ids_consecutive j.m j.bg).2.2.2.2
  have some_of : ∀ f, f < j.m.ne → ∃ fh l, j.m.emap.at f = some fh ∧ j.faceCells2 f .PARALLEL_OWNED = some l := by
    intro f hf
    obtain ⟨fh, hfh⟩ := j.m.enum.at_some hf
    exact ⟨fh, _, hfh, by unfold JMesh.faceCells2; rw [if_pos R.faces, hfh]; rfl⟩
  have lt_nr : ∀ i, i < (j.m.cellIds2 j.bg).owned.length → i < j.m.nf := fun i hi => lt_of_lt_of_le hi (owned_range C).2.1
  refine ⟨?_, ?_, ?_, ?_, ?_⟩
  · intro i hi
    obtain ⟨r, hi'⟩ := (j.m.cnum j.bg).at_some (lt_nr i hi)
    unfold JMesh.facesOf2
    rw [cellFaces2_eq R hi', Option.getD_some, List.map_map]
    have := nodup_map_id j.m.enum (hp.noedge r)
    rw [List.map_map] at this
    exact this
  · intro f hf
    obtain ⟨fh, l, _, hl⟩ := some_of f hf
    simp only [hl, Option.getD_some]
    exact (cells_listed_once j .PARALLEL_OWNED).2.1 f l hl
  · intro i _ f hf
    rw [mem_facesOf2, hasFst_cellFaces2 R] at hf
    obtain ⟨_, fh, _, hf, _⟩ := hf
    exact j.m.enum.lt_of_at hf
  · intro f hf i
    obtain ⟨fh, l, _, hl⟩ := some_of f hf
    have e1 : i ∈ (j.faceCells2 f .PARALLEL_OWNED).getD [] ↔ Has (j.faceCells2 f .PARALLEL_OWNED) i := by
      rw [hl]; exact ⟨fun h => ⟨l, rfl, h⟩, fun ⟨l', e, h⟩ => by cases e; exact h⟩
    have N := names_cells2 j.m
    rw [← hbg] at N
    rw [e1, has_faceCells2 R.faces, mem_facesOf2, hasFst_cellFaces2 R, ← mem_owned_iff C]
    constructor
    · rintro ⟨r, fh, a, b, c, p⟩
      refine ⟨(N.owned_iff i r a).mpr ?_, r, fh, a, b, c⟩
      intro hg; rw [hg] at p; simp [passes] at p
    · rintro ⟨ho, r, fh, a, b, c⟩
      refine ⟨r, fh, a, b, c, ?_⟩
      have := (N.owned_iff i r a).mp ho
      simp [passes, this]
  · intro f hf
    obtain ⟨fh, l, hfh, hl⟩ := some_of f hf
    simp only [hl, Option.getD_some]
    refine length_le_two ((cells_listed_once j .PARALLEL_OWNED).2.1 f l hl) (fun _ _ => ⟨true, trivial⟩)
      (fun c b => ∃ g, (j.m.cmap j.bg).at c = some g ∧ (fh, b) ∈ (j.m.face g).edges) ?_ ?_
    · intro c hc
      obtain ⟨g, fh', hg, hfh', hm, _⟩ := (has_faceCells2 R.faces f c .PARALLEL_OWNED).mp ⟨l, hl, hc⟩
      rw [hfh] at hfh'; cases hfh'
      unfold Face.mfEdges at hm
      rw [if_pos rfl] at hm
      obtain ⟨p, hp, e⟩ := List.mem_map.mp hm
      exact ⟨p.2, g, hg, by rw [← e]; exact hp⟩
    · rintro c c' b ⟨g, hg, hm⟩ ⟨g', hg', hm'⟩
      have := hr _ _ _ _ hm hm'
      subst this
      rw [← (j.m.cnum j.bg).at_iff.mp hg, ← (j.m.cnum j.bg).at_iff.mp hg']

theorem flatMap_fst {α : Type} (l : List (Nat × α)) (g : Nat → List Nat) :
    (l.flatMap fun p => g p.1) = (l.map Prod.fst).flatMap g := by
  rw [List.flatMap_map]

/-- **C149** (3D, no boundary ghosts) the arrays for METIS are large enough and describe, in the order of the owned cells, a graph
METIS accepts, in which two owned cells are joined once for each face they have in common -/
theorem metis_graph3_partial (j : JMesh) (R : j.Ready3) (hr : j.m.Regions) (hbg : j.bg = false) :
    ∃ xadj adjncy row, j.metisGraph3 = .graph xadj adjncy ∧ Csr (j.m.cellIds3 j.bg).owned.length xadj adjncy row ∧
      Graph (j.m.cellIds3 j.bg).owned.length row ∧
      JoinedByFaces (j.m.cellIds3 j.bg).owned.length row fun c => ((j.cellFaces3 c).getD []).map Prod.fst := by
  have I := incidence3 j R hr hbg
  have C := (ids_consecutive j.m j.bg).2.2.2.1
  obtain ⟨e1, e2, _⟩ := owned_range C
  have hall : (j.m.cellIds3 j.bg).all.length = j.m.nr := by rw [C.2]; simp
  have hf : j.m.faceIds3.all.length = j.m.nf := by rw [(ids_consecutive j.m j.bg).2.2.1.2]; simp
  obtain ⟨x, a, hb, hc⟩ := built_ok I e2 (fun c => j.faceAdj3 c .PARALLEL_OWNED) (by
    intro c hc
    obtain ⟨r, hr'⟩ := (j.m.rnum j.bg).at_some (lt_of_lt_of_le hc e2)
    have E := cellFaces3_eq R hr'
    show j.faceAdj3 c .PARALLEL_OWNED = _
    rw [face_adj3 j R c .PARALLEL_OWNED _ E]
    unfold rowOf JMesh.facesOf3
    rw [E, Option.getD_some]
    exact congrArg some (flatMap_fst _ fun f => ((j.faceCells3 f .PARALLEL_OWNED).getD []).filter fun x => x ≠ c))
  refine ⟨x, a, _, ?_, hc, I.graph, I.joined⟩
  unfold JMesh.metisGraph3
  rw [hall, hf, e1]
  exact hb

/-- **C149** (2D, no boundary ghosts) -/
theorem metis_graph2_partial (j : JMesh) (R : j.Ready2) (hp : j.m.Polygons) (hr : j.m.OrientedCells) (hbg : j.bg = false) :
    ∃ xadj adjncy row, j.metisGraph2 = .graph xadj adjncy ∧ Csr (j.m.cellIds2 j.bg).owned.length xadj adjncy row ∧
      Graph (j.m.cellIds2 j.bg).owned.length row ∧
      JoinedByFaces (j.m.cellIds2 j.bg).owned.length row fun c => ((j.cellFaces2 c).getD []).map Prod.fst := by
  have I := incidence2 j R hp hr hbg
  have C := (ids_consecutive j.m j.bg).2.2.2.2
  obtain ⟨e1, e2, _⟩ := owned_range C
  have hall : (j.m.cellIds2 j.bg).all.length = j.m.nf := by rw [C.2]; simp
  have hf : j.m.edgeIds.all.length = j.m.ne := by rw [(ids_consecutive j.m j.bg).2.1.2]; simp
  obtain ⟨x, a, hb, hc⟩ := built_ok I e2 (fun c => j.faceAdj2 c .PARALLEL_OWNED) (by
    intro c hc
    obtain ⟨r, hr'⟩ := (j.m.cnum j.bg).at_some (lt_of_lt_of_le hc e2)
    have E := cellFaces2_eq R hr'
    show j.faceAdj2 c .PARALLEL_OWNED = _
    rw [face_adj2 j R c .PARALLEL_OWNED _ E]
    unfold rowOf JMesh.facesOf2
    rw [E, Option.getD_some]
    exact congrArg some (flatMap_fst _ fun f => ((j.faceCells2 f .PARALLEL_OWNED).getD []).filter fun x => x ≠ c))
  refine ⟨x, a, _, ?_, hc, I.graph, I.joined⟩
  unfold JMesh.metisGraph2
  rw [hall, hf, e1]
  exact hb

/-- two triangles `(0,1,2)`, `(0,2,3)` owned by this process and a third one, `(0,3,1)`, owned by another -/
abbrev threeTris : JMesh where
  m := { nv := 4, ne := 6, nf := 3, nr := 0,
         vtx := fun i => ⟨.interior, i + 1⟩
         edge := ![⟨.interior, 1, 0, 1, false⟩, ⟨.interior, 2, 1, 2, false⟩, ⟨.interior, 3, 2, 0, false⟩,
           ⟨.interior, 4, 2, 3, false⟩, ⟨.interior, 5, 3, 0, false⟩, ⟨.ghost, 6, 3, 1, false⟩]
         face := ![⟨.ghost, 1, [(4, false), (5, true), (0, false)], false, false⟩,
           ⟨.interior, 2, [(0, true), (1, true), (2, true)], false, false⟩,
           ⟨.interior, 3, [(2, false), (3, true), (4, true)], false, false⟩]
         region := fun i => i.elim0 }
  faces := true
  edges := true
  bg := false
  serial := false
  faceflip := List.replicate 6 false
  edgeflip := List.replicate 6 false

example : threeTris.Ready2 ∧ threeTris.m.OrientedCells ∧ threeTris.bg = false ∧ threeTris.m.Polygons ∧
    (threeTris.m.cellIds2 false).owned = [0, 1] ∧ threeTris.metisGraph2 = .graph [0, 1, 2] [1, 0] ∧
    threeTris.faceAdj2 0 .ALL = some [2, 1] := by
  refine ⟨⟨rfl, rfl⟩, by unfold MMesh.OrientedCells; decide +kernel, rfl, ⟨?_, ?_, ?_, ?_⟩, ?_, ?_, ?_⟩
  · show ∀ e : Fin 6, (threeTris.m.edge e).v0 ≠ (threeTris.m.edge e).v1
    decide +kernel
  · show ∀ f : Fin 3, (threeTris.m.face f).edges.map threeTris.m.finish = ((threeTris.m.face f).edges.map threeTris.m.start).rotate 1
    decide +kernel
  · show ∀ f : Fin 3, ((threeTris.m.face f).edges.map threeTris.m.start).Nodup
    decide +kernel
  · show ∀ f : Fin 3, ((threeTris.m.face f).edges.map Prod.fst).Nodup
    decide +kernel
  all_goals decide +kernel

example : twoTetsSrc.j.Ready3 ∧ twoTets.Regions ∧ twoTetsSrc.j.bg = false ∧ twoTetsSrc.j.metisGraph3 = .graph [0, 1, 2] [1, 0] := by
  refine ⟨⟨rfl, rfl⟩, ⟨?_, ?_⟩, rfl, ?_⟩
  · show ∀ r : Fin 2, ((twoTets.region r).faces.map Prod.fst).Nodup
    decide +kernel
  · show ∀ (f : Fin 7) (d : Bool) (r r' : Fin 2), (f, d) ∈ (twoTets.region r).faces → (f, d) ∈ (twoTets.region r').faces → r = r'
    decide +kernel
  · decide +kernel

/-- **C149** with boundary ghosts the graph is wrong: a boundary ghost behind a face of an owned cell is listed as a neighbour,
although it is not a vertex of the graph (3D) -/
theorem metis_graph_boundary_ghosts_wrong (j : JMesh) (R : j.Ready3) (c b f : Nat) (hc : c ∈ (j.m.cellIds3 j.bg).owned)
    (hb : b ∈ (j.m.cellIds3 j.bg).bndry) (hcf : HasFst (j.cellFaces3 c) f) (hbf : HasFst (j.cellFaces3 b) f)
    (xadj adjncy : List Nat) (h : j.metisGraph3 = .graph xadj adjncy) (row : Nat → List Nat)
    (hrow : Csr (j.m.cellIds3 j.bg).owned.length xadj adjncy row) : ¬ Graph (j.m.cellIds3 j.bg).owned.length row := by
  intro G
  have C := (ids_consecutive j.m j.bg).2.2.2.1
  obtain ⟨l, hl, hm⟩ := (loop_has _ h).2 c hc
  have hbg : (j.m.cellIds3 j.bg).owned.length ≤ b := ((owned_range C).2.2 b).mp (List.mem_append_right _ hb) |>.1
  have hlt : c < (j.m.cellIds3 j.bg).owned.length := (mem_owned_iff C c).mp hc
  have : b ∈ l := by
    obtain ⟨fs, hfs, d, hd⟩ := hcf
    have e := face_adj3 j R c .PARALLEL_OWNED fs hfs
    have hl' : j.faceAdj3 c .PARALLEL_OWNED = some l := hl
    rw [e] at hl'
    rw [← Option.some.inj hl', has_flat]
    exact ⟨by omega, (f, d), hd, ((boundary_ghosts_returned_as_owned j R.faces b f 0 hb).1 ((faces_cells_agree3 j R b f).mp hbf)).1⟩
  obtain ⟨i, hi, hk⟩ := hrow.mem_row (hm b this)
  exact absurd (G.vertices i hi b hk) (by omega)

example : sample3.Ready3 ∧ 0 ∈ (sample3.m.cellIds3 sample3.bg).owned ∧ 1 ∈ (sample3.m.cellIds3 sample3.bg).bndry ∧
    (sample3.m.cellIds3 sample3.bg).owned.length = 1 ∧ sample3.metisGraph3 = .graph [0, 1] [1] := by
  refine ⟨⟨rfl, rfl⟩, ?_, ?_, ?_, ?_⟩ <;> decide +kernel

/-- six pages (triangles) bound along one edge, a surface in space -/
abbrev book : JMesh where
  m := { nv := 8, ne := 13, nf := 6, nr := 0,
         vtx := fun i => ⟨.interior, i + 1⟩
         edge := ![⟨.interior, 1, 0, 1, false⟩,
           ⟨.interior, 2, 1, 2, false⟩, ⟨.interior, 3, 2, 0, false⟩, ⟨.interior, 4, 1, 3, false⟩, ⟨.interior, 5, 3, 0, false⟩,
           ⟨.interior, 6, 1, 4, false⟩, ⟨.interior, 7, 4, 0, false⟩, ⟨.interior, 8, 1, 5, false⟩, ⟨.interior, 9, 5, 0, false⟩,
           ⟨.interior, 10, 1, 6, false⟩, ⟨.interior, 11, 6, 0, false⟩, ⟨.interior, 12, 1, 7, false⟩, ⟨.interior, 13, 7, 0, false⟩]
         face := ![⟨.interior, 1, [(0, true), (1, true), (2, true)], false, false⟩,
           ⟨.interior, 2, [(0, true), (3, true), (4, true)], false, false⟩,
           ⟨.interior, 3, [(0, true), (5, true), (6, true)], false, false⟩,
           ⟨.interior, 4, [(0, true), (7, true), (8, true)], false, false⟩,
           ⟨.interior, 5, [(0, true), (9, true), (10, true)], false, false⟩,
           ⟨.interior, 6, [(0, true), (11, true), (12, true)], false, false⟩]
         region := fun i => i.elim0 }
  faces := true
  edges := true
  bg := false
  serial := true
  faceflip := List.replicate 13 false
  edgeflip := List.replicate 13 false

/-- **C149** on a surface with more than two cells at a face the code writes past the end of `adjncy` -/
theorem metis_graph_overrun : ∃ j : JMesh, j.Ready2 ∧ j.m.Polygons ∧ j.bg = false ∧ j.metisGraph2 = .overrun := by
  refine ⟨book, ⟨rfl, rfl⟩, ⟨?_, ?_, ?_, ?_⟩, rfl, ?_⟩
  · show ∀ e : Fin 13, (book.m.edge e).v0 ≠ (book.m.edge e).v1
    decide +kernel
  · show ∀ f : Fin 6, (book.m.face f).edges.map book.m.finish = ((book.m.face f).edges.map book.m.start).rotate 1
    decide +kernel
  · show ∀ f : Fin 6, ((book.m.face f).edges.map book.m.start).Nodup
    decide +kernel
  · show ∀ f : Fin 6, ((book.m.face f).edges.map Prod.fst).Nodup
    decide +kernel
  · decide +kernel

end Jali.Mstk

namespace Jali.Simple
open Jali.Metis Spec

theorem faceCells_in (d : Dims) {g : FacePos} (hg : FaceIn d g) :
    ∀ q ∈ (faceCellAt d g 0).toList ++ (faceCellAt d g 1).toList, CellIn d q := by
  intro q hq
  simp only [List.mem_append, Option.mem_toList, Option.mem_def] at hq
  rcases hq with h | h <;> exact faceCellAt_in d hg h

theorem faceCells_nat (d : Dims) {g : FacePos} (hg : FaceIn d g) : (faceGetCells d (faceIdx d g)).map Int.toNat =
    ((faceCellAt d g 0).toList ++ (faceCellAt d g 1).toList).map (cellIdx d) := by
  rw [faceGetCells_eq d hg, List.map_map]
  rfl

theorem incidence (d : Dims) : Incidence (numCells d) (numFaces d) (cellGetFaces d) (fun f => (faceGetCells d f).map Int.toNat) := by
  refine ⟨?_, ?_, ?_, ?_, ?_⟩
  · intro i hi
    obtain ⟨p, hp, rfl⟩ := cellIdx_surj d hi
    rw [cellGetFaces_eq d hp]; exact faceIds_nodup d hp
  · intro f hf
    obtain ⟨g, hg, rfl⟩ := faceIdx_surj d hf
    have hin := faceCells_in d hg
    simp only [faceCells_nat d hg]
    refine map_nodup_on ?_ fun a ha b hb h => cellIdx_inj d (hin a ha) (hin b hb) h
    obtain ⟨o, ⟨i, j, k⟩⟩ := g
    cases o <;> simp only [faceCellAt] <;> split <;> split <;> simp <;> omega
  · intro i hi f hf
    obtain ⟨p, hp, rfl⟩ := cellIdx_surj d hi
    rw [cellGetFaces_eq d hp, List.mem_map] at hf
    obtain ⟨g, hg, rfl⟩ := hf
    exact faceIdx_lt d (cellFaces_in d hp hg)
  · intro f hf i
    obtain ⟨g, hg, rfl⟩ := faceIdx_surj d hf
    have hin := faceCells_in d hg
    simp only [faceCells_nat d hg]
    rw [List.mem_map]
    constructor
    · rintro ⟨q, hq, rfl⟩
      exact ⟨cellIdx_lt d (hin q hq), (mem_cellGetFaces d (hin q hq) hg).mpr ((mem_cells_iff d (hin q hq) hg).mp hq)⟩
    · rintro ⟨hi, hm⟩
      obtain ⟨p, hp, rfl⟩ := cellIdx_surj d hi
      exact ⟨p, (mem_cells_iff d hp hg).mpr ((mem_cellGetFaces d hp hg).mp hm), rfl⟩
  · intro f hf
    rw [List.length_map]
    unfold faceGetCells
    split <;> split <;> simp

theorem adj_row (d : Dims) (c : Nat) (hc : c < numCells d) :
    (cellGetFaceAdjCells d c).map Int.toNat = rowOf (cellGetFaces d) (fun f => (faceGetCells d f).map Int.toNat) c := by
  have hmem : ∀ f ∈ cellGetFaces d c, (c : Int) ∈ faceGetCells d f ∧ ∀ x ∈ faceGetCells d f, 0 ≤ x := by
    intro f hf
    have hlt := (incidence d).flt c hc f hf
    obtain ⟨h1, _, h2⟩ := face_get_cells_inverse d f c (List.mem_range.mpr hlt) (List.mem_range.mpr hc)
    refine ⟨h1.mpr hf, fun x hx => ?_⟩
    obtain ⟨y, _, rfl⟩ := h2 x hx
    exact Int.natCast_nonneg y
  unfold rowOf cellGetFaceAdjCells
  have e : cellGetFaces d c = (List.range 6).map fun i => cellToFace d (6 * c + i) := rfl
  rw [e, List.flatMap_map, List.map_flatMap]
  rw [e] at hmem
  apply List.flatMap_congr
  intro i hi
  obtain ⟨h1, h2⟩ := hmem (cellToFace d (6 * c + i)) (List.mem_map.mpr ⟨i, hi, rfl⟩)
  generalize cellToFace d (6 * c + i) = f at *
  dsimp only
  unfold faceGetCells at h1 h2 ⊢
  generalize faceToCell d (2 * f) = a at *
  generalize faceToCell d (2 * f + 1) = b at *
  have ha : a ≠ -1 → 0 ≤ a := fun h => h2 a (by simp [h])
  have hb : b ≠ -1 → 0 ≤ b := fun h => h2 b (by simp [h])
  have nat : ∀ x : Int, 0 ≤ x → (x.toNat ≠ c ↔ x ≠ (c : Int)) := fun x hx => by omega
  by_cases a1 : a = -1 <;> by_cases b1 : b = -1
  · simp [a1, b1] at h1
  · simp [a1, b1] at h1 ⊢
    subst h1
    simp
  · simp [a1, b1] at h1 ⊢
    subst h1
    simp
  · have pa := ha a1
    have pb := hb b1
    simp only [a1, b1, ne_eq, not_false_eq_true, if_true, true_and, List.map_append, List.map_cons, List.map_nil, List.filter_append,
      List.filter_cons, List.filter_nil, decide_not] at h1 ⊢
    have na := nat a pa
    have nb := nat b pb
    have h1' : (c : Int) = a ∨ (c : Int) = b := by simpa using h1
    clear h1
    by_cases ea : a = (c : Int) <;> by_cases eb : b = (c : Int)
    · simp_all
    · simp_all
    · simp_all
    · exact absurd h1' (by omega)

/-- **C149** the same for `Mesh_simple` -/
theorem metis_graph (d : Dims) :
    ∃ xadj adjncy row, metisGraph d = .graph xadj adjncy ∧ Csr (numCells d) xadj adjncy row ∧ Graph (numCells d) row ∧
      JoinedByFaces (numCells d) row (cellGetFaces d) := by
  obtain ⟨x, a, hb, hc⟩ := built_ok (incidence d) (le_refl (numCells d)) (fun c => some ((cellGetFaceAdjCells d c).map Int.toNat))
    fun c hc => congrArg some (adj_row d c hc)
  refine ⟨x, a, _, ?_, hc, (incidence d).graph, (incidence d).joined⟩
  unfold metisGraph cellIds faceIds
  rw [List.length_range, List.length_range]
  exact hb

example : metisGraph ⟨2, 1, 2⟩ = .graph [0, 2, 4, 6, 8] [1, 2, 0, 3, 3, 0, 2, 1] := by decide +kernel

end Jali.Simple
