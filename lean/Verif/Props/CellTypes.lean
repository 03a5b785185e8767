import Verif.Model.SimpleTypes
import Verif.Props.MeshSimple
import Verif.Props.MeshSimple1D
import Verif.Props.MstkBuildGeom
import Verif.Props.MstkBuild2DGeom
import Verif.Props.RegularRegionSets
import Verif.Proof.MstkBuild2D2
import Verif.Proof.SetRegistry
/-!
C177: types of the cells of generated meshes; labeled sets of structured meshes.
-/
namespace Jali.CellTypes
open Jali.Mstk Jali.MstkGen Jali.MstkGen.Spec

/-- number of nodes of a cell, and of each of its faces, for the types of cells of Exodus II; a polygon and a polyhedron may have any -/
def Shape : CellType → Nat → List Nat → Prop
  | .TRI, n, f => n = 3 ∧ f = [2, 2, 2]
  | .QUAD, n, f => n = 4 ∧ f = [2, 2, 2, 2]
  | .TET, n, f => n = 4 ∧ f.Perm [3, 3, 3, 3]
  | .PYRAMID, n, f => n = 5 ∧ f.Perm [4, 3, 3, 3, 3]
  | .PRISM, n, f => n = 6 ∧ f.Perm [3, 3, 4, 4, 4]
  | .HEX, n, f => n = 8 ∧ f.Perm [4, 4, 4, 4, 4, 4]
  | .POLYGON, _, _ => True
  | .POLYHED, _, _ => True
  | .CELLTYPE_UNKNOWN, _, _ => False

/-- **C177** On a structured mesh in three dimensions the type of every cell is that of its shape. Missing: one dimension, where it is not
(`line_type_false`). -/
theorem structured_type_partial (d : Simple.Dims) {p : Simple.Spec.Pos} (hp : p.In d.nx d.ny d.nz) :
    Shape (Simple.cellGetType (Simple.cellIdx d p)) (Simple.cellGetNodes d (Simple.cellIdx d p)).length
      ((Simple.cellGetFaces d (Simple.cellIdx d p)).map fun f => (Simple.faceGetNodes d f).length) := by
  refine ⟨by rw [(Simple.cell_get_nodes_corners d p hp).1]; rfl, ?_⟩
  rw [Simple.cellGetFaces_eq d hp]
  have h4 : ∀ g ∈ Simple.cellFaces p, (Simple.faceGetNodes d (Simple.faceIdx d g)).length = 4 := fun g hg =>
    (Simple.face_get_nodes_corners d g (Simple.cellFaces_in d hp hg)).1
  have e : ((Simple.cellFaces p).map (Simple.faceIdx d)).map (fun f => (Simple.faceGetNodes d f).length) = (Simple.cellFaces p).map fun _ => 4 := by
    rw [List.map_map]
    exact List.map_congr_left h4
  rw [e]
  exact List.Perm.refl _

/-- **C177** On a one-dimensional structured mesh the type of every cell is wrong: it is called a hexahedron and has two nodes. -/
theorem line_type_false (nx : Nat) {c : Nat} (hc : c < nx) : Simple.cellGetType c = .HEX ∧ (Simple1D.cellGetNodes nx c).length = 2 ∧
    ¬ Shape (Simple.cellGetType c) (Simple1D.cellGetNodes nx c).length
      ((Simple1D.cellGetFaces nx c).map fun f => (Simple1D.faceGetNodes nx f).length) := by
  rw [((Simple1D.downward nx).1 c hc).1]
  exact ⟨rfl, rfl, fun h => absurd h.1 (by simp)⟩

/-- **C177** On a regular mesh of MSTK in three dimensions the type of every cell is hexahedron, and its shape that of one. -/
theorem regular_type {d : Dom ℝ} {b : Blk} {s : Source ℝ} {g : RegMesh ℝ} {r : MeshCache.Request} (hd : GoodDom d) (hb : GoodBlk d b)
    (h : RegularMesh s d b g r) {c : Nat} (hc : c < g.regions.length) :
    s.j.cellType3 c = some .HEX ∧ ∃ ns, s.j.cellNodes3 c = some ns ∧ ∃ fs, s.j.cellFaces3 c = some fs ∧
      Shape .HEX ns.length (fs.map fun f => ((s.j.faceNodes3 f.1).getD []).length) := by
  obtain ⟨rfl, G, rg, I, J, L, rfl, hr, -, hat⟩ := regular_cell hd hb h (List.getElem?_eq_getElem hc)
  have h4 : ∀ f, (s.j.m.mfVertices (s.j.m.face f) true).length = 4 := fun f => by rw [mfVertices_true, List.length_map, G.four]
  have h4' : ∀ f u, (s.j.m.mfVertices (s.j.m.face f) u).length = 4 := by
    rintro f (_ | _)
    · rw [mfVertices_false, List.length_reverse, List.length_map, G.four]
    · exact h4 f
  have R := h.made.ready h.faces
  have hfs : ∃ fs, s.j.cellFaces3 rg.1 = some fs ∧ fs.length = 6 ∧ ∀ f ∈ fs, ((s.j.faceNodes3 f.1).getD []).length = 4 := by
    refine ⟨_, cellFaces3_eq R hat, by rw [List.length_map, G.six], fun f hf => ?_⟩
    obtain ⟨q, -, rfl⟩ := List.mem_map.1 hf
    have hv := s.j.m.fnum.at_id q.1
    have hlt : s.j.m.fmap.id q.1 - 1 < s.j.faceflip.length := by rw [R.flips]; exact s.j.m.fnum.lt_of_at hv
    unfold JMesh.faceNodes3
    rw [if_pos R.faces, hv, Option.bind_some, List.getElem?_eq_getElem hlt]
    simp only [Option.map_some, Option.getD_some, List.length_map]
    exact h4' _ _
  obtain ⟨fs, hfs, h6, hf4⟩ := hfs
  refine ⟨?_, _, by unfold JMesh.cellNodes3; rw [hat]; rfl, fs, hfs, ?_, ?_⟩
  · unfold JMesh.cellType3
    rw [hat]
    have hq : s.j.m.numQuads (s.j.m.region rg) = 6 := by
      unfold MMesh.numQuads
      rw [List.filter_eq_self.2 fun p _ => by simp [h4], G.six]
    simp [MMesh.regionCelltype, G.six, hq]
  · rw [List.length_map]
    have := (verts_perm hd hb G rg).length_eq
    rw [List.length_map, hr] at this
    exact this
  · rw [List.map_congr_left (g := fun _ => 4) fun f hf => hf4 f hf, List.map_const', h6]
    exact List.Perm.refl _

/-- **C177** On a regular mesh of MSTK in the plane the type of every cell is quadrilateral, and its shape that of one. -/
theorem regular_type2 {d : Dom2 ℝ} {b : Blk2} {s : Source ℝ} {g : RegMesh2 ℝ} {r : MeshCache.Request} (hb : GoodBlk2 d b)
    (h : RegularMesh2 s d b g r) {c : Nat} (hc : c < g.faces.length) :
    s.j.cellType2 c = some .QUAD ∧ ∃ ns, s.j.cellNodes2 c = some ns ∧ ∃ fs, s.j.cellFaces2 c = some fs ∧
      Shape .QUAD ns.length (fs.map fun f => ((s.j.faceNodes2 f.1).getD []).length) := by
  obtain ⟨rfl, ⟨G⟩⟩ := grid_of_build2 hb h.generated h.held
  have hlt : c < s.j.m.nf := by rw [← G.flist, List.length_ofFn] at hc; exact hc
  have hat : (s.j.m.cmap s.j.bg).at c = some ⟨c, hlt⟩ := by
    rw [h.plain]; exact cmap_plain s.j.m (fun i => (G.fgid i).2) ⟨c, hlt⟩
  have h4 : ∀ f, (s.j.m.mfVertices (s.j.m.face f) true).length = 4 := fun f => by rw [mfVertices_true, List.length_map, G.four]
  have R := h.made.ready h.faces
  refine ⟨?_, _, by unfold JMesh.cellNodes2; rw [hat]; rfl, _, cellFaces2_eq R hat, ?_, ?_⟩
  · unfold JMesh.cellType2
    rw [hat]
    simp [MMesh.faceCelltype, h4]
  · rw [List.length_map, h4]
  · have e : ∀ f ∈ (s.j.m.face ⟨c, hlt⟩).edges.map (fun p => (s.j.m.emap.id p.1 - 1, flipDir s.j.faceflip (s.j.m.emap.id p.1 - 1) p.2)),
        ((s.j.faceNodes2 f.1).getD []).length = 2 := by
      intro f hf
      obtain ⟨q, -, rfl⟩ := List.mem_map.1 hf
      have hv := s.j.m.enum.at_id q.1
      have hl : s.j.m.emap.id q.1 - 1 < s.j.faceflip.length := by rw [R.flips]; exact s.j.m.enum.lt_of_at hv
      unfold JMesh.faceNodes2
      rw [if_pos R.faces, hv, Option.bind_some, List.getElem?_eq_getElem hl]
      simp only [Option.map_some, Option.getD_some]
      split <;> rfl
    rw [List.map_congr_left (g := fun _ => 2) fun f hf => e f hf, List.map_const', List.length_map, G.four]
    rfl

/-- the two spellings of a kind that the construction of sets accepts for labeled sets -/
def spelt : EntityKind → List String
  | .CELL => ["CELL", "Entity_kind::CELL"]
  | .FACE => ["FACE", "Entity_kind::FACE"]
  | .NODE => ["NODE", "Entity_kind::NODE"]
  | _ => []

/-- **C177** On a structured mesh the set of a labeled set region is made and has no entities, whatever its kind and label and whatever the
geometry of the mesh. -/
theorem structured_labeled_set {P K : Type} [Field K] [LinearOrder K] (geo : Reg.Geo P K) {gm : List (Reg.Region P)} {n : String}
    {r : Reg.Region P} (hr : Reg.findRegion gm n = some r) (ht : r.type = .LABELEDSET) {kind : EntityKind} {label : String}
    (hk : r.entityStr ∈ spelt kind) (hl : r.labeled = Simple.labeledSetEntities kind label) (k : Nat) (w : Reg.World) (rev : Bool) :
    ∃ a w' x, Reg.build geo gm k w n kind rev = .ok (some a, w') ∧ w'.heap[a]? = some x ∧ x.name = n ∧ x.kind = kind ∧ a ∈ w'.reg ∧
      ∀ t, MSet.entities x t = [] := by
  have hlists : Reg.regionLists geo w kind r = .ok (some ([], [])) := by
    cases kind <;> simp only [spelt, List.mem_cons, List.not_mem_nil, or_false] at hk <;>
      simp only [Reg.regionLists, Reg.cellLists, Reg.faceLists, Reg.nodeLists, ht, hl, Simple.labeledSetEntities] <;>
      rcases hk with h | h <;> simp [h]
  obtain ⟨x, hmk, h1, h2, -, h3, h4, h5, -⟩ := Reg.makeMeshset_ok (w := w) (n := n) (k := kind) (o := []) (g := []) (b := rev)
    List.nodup_nil List.nodup_nil (by simp) (by simp)
  refine ⟨w.heap.length, Reg.withSet w x false, x, ?_, by simp [Reg.withSet, Reg.addSet, Reg.alloc], h1, h2, by simp [Reg.withSet, Reg.addSet, Reg.alloc], ?_⟩
  · cases k <;> rw [Reg.build] <;> simp only [hr, hlists, hmk]
  · intro t
    have := h5.all_eq
    rw [h3, h4] at this
    cases t <;> simp [MSet.entities, h3, h4, this]

/-- the hypotheses can be met: a cell of a structured mesh of 2 x 3 x 4 cells -/
example : Shape .HEX (Simple.cellGetNodes ⟨2, 3, 4⟩ (Simple.cellIdx ⟨2, 3, 4⟩ ⟨1, 2, 3⟩)).length
    ((Simple.cellGetFaces ⟨2, 3, 4⟩ (Simple.cellIdx ⟨2, 3, 4⟩ ⟨1, 2, 3⟩)).map fun f => (Simple.faceGetNodes ⟨2, 3, 4⟩ f).length) :=
  structured_type_partial ⟨2, 3, 4⟩ (p := ⟨1, 2, 3⟩) ⟨by decide, by decide, by decide⟩

/-- the six cells of a regular mesh of 1 x 2 x 3 cells -/
example : ∃ (s : Source ℝ), ∀ c < 6, s.j.cellType3 c = some .HEX := by
  have hd : GoodDom (⟨0, 0, 0, 1, 2, 3, 1, 2, 3⟩ : Dom ℝ) := ⟨by norm_num, by norm_num, by norm_num, by norm_num, by norm_num, by norm_num⟩
  have hb : GoodBlk (⟨0, 0, 0, 1, 2, 3, 1, 2, 3⟩ : Dom ℝ) ⟨0, 0, 0, 1, 2, 3⟩ :=
    ⟨by norm_num, by norm_num, by norm_num, by norm_num, by norm_num, by norm_num⟩
  obtain ⟨s, g, r, h, hlen⟩ := regular_exists hd hb
  exact ⟨s, fun c hc => (regular_type hd hb h (by rw [hlen]; exact hc)).1⟩

/-- the six cells of a regular mesh of 3 x 2 cells -/
example : ∃ (s : Source ℝ), ∀ c < 6, s.j.cellType2 c = some .QUAD := by
  have hb : GoodBlk2 (⟨0, 0, 1, 2, 3, 2⟩ : Dom2 ℝ) ⟨0, 0, 3, 2⟩ := ⟨by norm_num, by norm_num, by norm_num, by norm_num⟩
  obtain ⟨s, g, r, h, hlen⟩ := regular2_exists hb
  exact ⟨s, fun c hc => (regular_type2 hb h (by rw [hlen]; exact hc)).1⟩

/-- a labeled set region and a structured mesh -/
example : ∃ a w' x, Reg.build (P := Nat) (K := ℚ) ⟨3, true, id, id, id, fun _ => [], fun _ => [], fun _ => [], fun _ _ => true, fun _ _ => 0⟩
    [⟨"L", .LABELEDSET, 3, false, fun _ => false, none, .NOBOOLEAN, [], "FACE", Simple.labeledSetEntities .FACE "10"⟩] 0
    ⟨fun _ => ⟨fun _ => .PARALLEL_OWNED, 7, 0⟩, [], []⟩ "L" .FACE true = .ok (some a, w') ∧ w'.heap[a]? = some x ∧
    MSet.entities x .ALL = [] := by
  obtain ⟨a, w', x, h1, h2, -, -, -, h3⟩ := structured_labeled_set (P := Nat) (K := ℚ)
    ⟨3, true, id, id, id, fun _ => [], fun _ => [], fun _ => [], fun _ _ => true, fun _ _ => 0⟩
    (gm := [⟨"L", .LABELEDSET, 3, false, fun _ => false, none, .NOBOOLEAN, [], "FACE", Simple.labeledSetEntities .FACE "10"⟩]) (n := "L")
    (by simp [Reg.findRegion]; rfl) rfl (kind := .FACE) (label := "10") (by simp [spelt]) rfl 0
    ⟨fun _ => ⟨fun _ => .PARALLEL_OWNED, 7, 0⟩, [], []⟩ true
  exact ⟨a, w', x, h1, h2, h3 _⟩

end Jali.CellTypes
