import Verif.Proof.MstkBase2
import Verif.Spec.MstkBase
import Verif.Props.EntityTypes
import Verif.Props.MstkDirs
import Verif.Props.MstkQueries
/-
C114: the connectivity the base class caches is the connectivity of the framework.
-/
namespace Jali.Mstk
open Jali.Sides Jali.Sides.Spec

theorem JMesh.Made3.ready {j : JMesh} {r : MeshCache.Request} (h : j.Made3 r) (hf : r.faces = true) : j.Ready3 :=
  ⟨by rw [h.faces, hf], h.fflips hf⟩
theorem JMesh.Made3.readyE {j : JMesh} {r : MeshCache.Request} (h : j.Made3 r) (hf : r.edges = true) : j.ReadyE :=
  ⟨by rw [h.edges, hf], h.eflips hf⟩
theorem JMesh.Made2.ready {j : JMesh} {r : MeshCache.Request} (h : j.Made2 r) (hf : r.faces = true) : j.Ready2 :=
  ⟨by rw [h.faces, hf], h.fflips hf⟩
theorem JMesh.Made2.readyE {j : JMesh} {r : MeshCache.Request} (h : j.Made2 r) (hf : r.edges = true) : j.ReadyE :=
  ⟨by rw [h.edges, hf], h.eflips hf⟩

/-- requests for sides bring faces and edges -/
theorem closure_sides {r : MeshCache.Request} (h : ∃ r0, r = MeshCache.closure r0) (hs : r.sides = true) :
    r.faces = true ∧ r.edges = true := by
  obtain ⟨r0, rfl⟩ := h
  obtain ⟨a, b, c, d, e⟩ := r0
  cases a <;> cases b <;> cases c <;> cases d <;> cases e <;> first | exact ⟨rfl, rfl⟩ | cases hs

theorem at_none {n : Nat} {im : IdMap n} {L : List (Fin n)} (h : Numbered im L) {i : Nat} (hi : n ≤ i) : im.at i = none := by
  cases e : im.at i with
  | none => rfl
  | some v => have := h.lt_of_at e; omega

/-- **C114** (3D) whatever the id, a query answered from the caches of the base class returns what the framework returns, with
faces and edges as requested -/
theorem cached_connectivity3 (j : JMesh) (r : MeshCache.Request) (h : j.Made3 r) :
    (r.faces = true → ∀ c, j.cellGetFaces3 c = j.cellFaces3 c) ∧
    (r.faces = true → r.edges = true → ∀ f, j.faceGetEdges3 f = j.faceEdges3 f) ∧
    (r.edges = true → (∀ c, j.cellGetEdges3 c = j.cellEdges3 c) ∧ ∀ e, j.edgeGetNodes e = j.edgeNodes e) := by
  obtain ⟨_, l2, l3, l4, _⟩ := len_ids j.m j.bg
  refine ⟨fun hf c => ?_, fun hf he f => ?_, fun he => ⟨fun c => ?_, fun e => ?_⟩⟩
  · by_cases hc : c < j.m.nr
    · exact (public3 (h.ready hf)).1 c hc
    · unfold JMesh.cellGetFaces3 JMesh.cellFaces3
      rw [h.faces, if_pos hf, if_pos hf, l4, cached_none (by omega), at_none (j.m.rnum j.bg) (by omega)]
      rfl
  · by_cases hc : f < j.m.nf
    · exact ((public3 (h.ready hf)).2 (h.readyE he)).1 f hc
    · unfold JMesh.faceGetEdges3 JMesh.faceEdges3
      rw [h.faces, h.edges, hf, he, l3, cached_none (by omega), at_none j.m.fnum (by omega)]
      rfl
  · by_cases hc : c < j.m.nr
    · unfold JMesh.cellGetEdges3
      rw [if_pos (h.readyE he).edges, l4]
      refine cached_eq (fun i hi => ?_) hc
      obtain ⟨g, hg⟩ := (j.m.rnum j.bg).at_some hi
      refine ⟨((j.m.mrEdges (j.m.region g)).map fun e => j.m.emap.id e - 1), ?_⟩
      unfold JMesh.cellEdges3
      rw [if_pos (h.readyE he).edges, hg]
      rfl
    · unfold JMesh.cellGetEdges3 JMesh.cellEdges3
      rw [h.edges, if_pos he, if_pos he, l4, cached_none (by omega), at_none (j.m.rnum j.bg) (by omega)]
      rfl
  · by_cases hc : e < j.m.ne
    · exact publicE (h.readyE he) e hc
    · unfold JMesh.edgeGetNodes JMesh.edgeNodes
      rw [h.edges, if_pos he, if_pos he, l2, cached_none (by omega), at_none j.m.enum (by omega)]
      rfl

/-- **C114** (2D and surface meshes); `sdim` is the dimension of space, 2 or 3 -/
theorem cached_connectivity2 (j : JMesh) (r : MeshCache.Request) (h : j.Made2 r) (sdim : Nat) :
    (r.faces = true → ∀ c, j.cellGetFaces2 c = j.cellFaces2 c) ∧
    (r.faces = true → r.edges = true → ∀ f, j.faceGetEdges2 f = j.faceEdges2 f) ∧
    (r.edges = true → (∀ c, j.cellGetEdges2 sdim c = j.cellEdges2 c) ∧ (∀ e, j.edgeGetNodes e = j.edgeNodes e) ∧
      (sdim = 2 → ∀ c, j.cell2DGetEdges sdim c = j.cell2DEdges c)) := by
  obtain ⟨_, l2, _, _, l5⟩ := len_ids j.m j.bg
  refine ⟨fun hf c => ?_, fun hf he f => ?_, fun he => ⟨fun c => ?_, fun e => ?_, fun hs c => ?_⟩⟩
  · by_cases hc : c < j.m.nf
    · exact (public2 (h.ready hf)).1 c hc
    · unfold JMesh.cellGetFaces2 JMesh.cellFaces2
      rw [h.faces, if_pos hf, if_pos hf, l5, cached_none (by omega), at_none (j.m.cnum j.bg) (by omega)]
      rfl
  · by_cases hc : f < j.m.ne
    · exact ((public2 (h.ready hf)).2 (h.readyE he)).1 f hc
    · unfold JMesh.faceGetEdges2 JMesh.faceEdges2
      rw [h.faces, h.edges, hf, he, l2, cached_none (by omega), at_none j.m.enum (by omega)]
      rfl
  · by_cases hc : c < j.m.nf
    · exact edges2_cached (h.readyE he) sdim c hc
    · unfold JMesh.cellGetEdges2 JMesh.cellEdges2
      rw [h.edges, if_pos he, if_pos he, l5, cached_none (by omega), cached_none (by omega), at_none (j.m.cnum j.bg) (by omega)]
      simp
  · by_cases hc : e < j.m.ne
    · exact publicE (h.readyE he) e hc
    · unfold JMesh.edgeGetNodes JMesh.edgeNodes
      rw [h.edges, if_pos he, if_pos he, l2, cached_none (by omega), at_none j.m.enum (by omega)]
      rfl
  · subst hs
    unfold JMesh.cell2DGetEdges
    rw [if_pos (h.readyE he).edges, if_pos rfl, l5]
    by_cases hc : c < j.m.nf
    · refine cached_eq (fun i hi => ?_) hc
      obtain ⟨g, hg⟩ := (j.m.cnum j.bg).at_some hi
      refine ⟨(j.m.face g).edges.map fun p => (j.m.emap.id p.1 - 1, dirInt p.2), ?_⟩
      unfold JMesh.cell2DEdges
      rw [if_pos (h.readyE he).edges, hg]
      rfl
    · unfold JMesh.cell2DEdges
      rw [cached_none (by omega), if_pos (h.readyE he).edges, at_none (j.m.cnum j.bg) (by omega)]
      rfl

/-- **C114** is false on surface meshes (2D cells in space): `cell_2D_get_edges_and_dirs` reads beyond the end of a vector for
every cell -/
theorem surface_edge_dirs_out_of_range (j : JMesh) (sdim c : Nat) (hs : sdim ≠ 2) : j.cell2DGetEdges sdim c = none := by
  unfold JMesh.cell2DGetEdges
  rw [if_neg hs]
  split <;> rfl

/-- **C114** the edges of a cell are the edges of its faces, each listed once -/
theorem cell_edges_of_faces3 (j : JMesh) (r : MeshCache.Request) (h : j.Made3 r) (hf : r.faces = true) (he : r.edges = true)
    (c e : Nat) :
    (Has (j.cellGetEdges3 c) e ↔ ∃ f, HasFst (j.cellGetFaces3 c) f ∧ HasFst (j.faceGetEdges3 f) e) ∧
    ((j.cellGetEdges3 c).isSome → NoRepeat (j.cellGetEdges3 c)) := by
  obtain ⟨q1, q2, q3⟩ := cached_connectivity3 j r h
  have R := h.ready hf
  have E := h.readyE he
  rw [(q3 he).1]
  have ce : ∀ g, (j.m.rmap j.bg).at c = some g → j.cellEdges3 c = some ((j.m.mrEdges (j.m.region g)).map fun e => j.m.emap.id e - 1) := by
    intro g hg
    unfold JMesh.cellEdges3
    rw [if_pos E.edges, hg]
    rfl
  have cn : (j.m.rmap j.bg).at c = none → j.cellEdges3 c = none := by
    intro hg
    unfold JMesh.cellEdges3
    rw [if_pos E.edges, hg]
    rfl
  refine ⟨?_, ?_⟩
  · constructor
    · rintro ⟨l, hl, hm⟩
      cases hg : (j.m.rmap j.bg).at c with
      | none => rw [cn hg] at hl; cases hl
      | some g =>
        rw [ce g hg] at hl
        rw [← Option.some.inj hl, mem_map_id j.m.enum] at hm
        obtain ⟨eh, hat, hm⟩ := hm
        unfold MMesh.mrEdges at hm
        rw [List.mem_dedup, List.mem_flatMap] at hm
        obtain ⟨p, hp, hm⟩ := hm
        obtain ⟨q, hq, rfl⟩ := List.mem_map.mp hm
        refine ⟨j.m.fmap.id p.1 - 1, ?_, ?_⟩
        · rw [q1 hf]
          exact ⟨_, cellFaces3_eq R hg, _, List.mem_map.mpr ⟨p, hp, rfl⟩⟩
        · rw [q2 hf he]
          refine ⟨_, faceEdges3_at R E (j.m.fnum.at_id p.1), flipDir j.edgeflip e q.2, List.mem_map.mpr ⟨q, hq, ?_⟩⟩
          rw [j.m.enum.at_iff.mp hat]
    · rintro ⟨f, ⟨l, hl, d, hd⟩, l', hl', d', hd'⟩
      rw [q1 hf] at hl
      rw [q2 hf he] at hl'
      cases hg : (j.m.rmap j.bg).at c with
      | none => simp [JMesh.cellFaces3, hg, R.faces] at hl
      | some g =>
        rw [cellFaces3_eq R hg] at hl
        rw [← Option.some.inj hl] at hd
        obtain ⟨p, hp, e1⟩ := List.mem_map.mp hd
        obtain ⟨rfl, rfl⟩ := Prod.mk.inj e1
        rw [faceEdges3_at R E (j.m.fnum.at_id p.1)] at hl'
        rw [← Option.some.inj hl'] at hd'
        obtain ⟨q, hq, e2⟩ := List.mem_map.mp hd'
        obtain ⟨rfl, rfl⟩ := Prod.mk.inj e2
        refine ⟨_, ce g hg, (mem_map_id j.m.enum _).mpr ⟨q.1, j.m.enum.at_id q.1, ?_⟩⟩
        unfold MMesh.mrEdges
        rw [List.mem_dedup, List.mem_flatMap]
        exact ⟨p, hp, List.mem_map.mpr ⟨q, hq, rfl⟩⟩
  · cases hg : (j.m.rmap j.bg).at c with
    | none => rw [cn hg]; intro h; cases h
    | some g =>
      intro _
      exact ⟨_, ce g hg, nodup_map_id j.m.enum (List.nodup_dedup _)⟩

theorem cell_edges_of_faces2 (j : JMesh) (r : MeshCache.Request) (h : j.Made2 r) (hp : j.m.Polygons) (hf : r.faces = true)
    (he : r.edges = true) (sdim c e : Nat) :
    (Has (j.cellGetEdges2 sdim c) e ↔ ∃ f, HasFst (j.cellGetFaces2 c) f ∧ HasFst (j.faceGetEdges2 f) e) ∧
    ((j.cellGetEdges2 sdim c).isSome → NoRepeat (j.cellGetEdges2 sdim c)) := by
  obtain ⟨q1, q2, q3⟩ := cached_connectivity2 j r h sdim
  have R := h.ready hf
  have E := h.readyE he
  rw [(q3 he).1]
  have ce : ∀ g, (j.m.cmap j.bg).at c = some g → j.cellEdges2 c = some (((j.m.face g).edges.map Prod.fst).map fun e => j.m.emap.id e - 1) := by
    intro g hg
    unfold JMesh.cellEdges2
    rw [if_pos E.edges, hg]
    rfl
  have cn : (j.m.cmap j.bg).at c = none → j.cellEdges2 c = none := by
    intro hg
    unfold JMesh.cellEdges2
    rw [if_pos E.edges, hg]
    rfl
  refine ⟨?_, ?_⟩
  · constructor
    · rintro ⟨l, hl, hm⟩
      cases hg : (j.m.cmap j.bg).at c with
      | none => rw [cn hg] at hl; cases hl
      | some g =>
        rw [ce g hg] at hl
        rw [← Option.some.inj hl, mem_map_id j.m.enum] at hm
        obtain ⟨eh, hat, hm⟩ := hm
        obtain ⟨q, hq, rfl⟩ := List.mem_map.mp hm
        have hid := j.m.enum.at_iff.mp hat
        refine ⟨e, ?_, ?_⟩
        · rw [q1 hf]
          exact ⟨_, cellFaces2_eq R hg, _, List.mem_map.mpr ⟨q, hq, by rw [hid]⟩⟩
        · rw [q2 hf he]
          exact ⟨_, faceEdges2_at R E hat, 1, List.mem_singleton.mpr rfl⟩
    · rintro ⟨f, ⟨l, hl, d, hd⟩, l', hl', d', hd'⟩
      rw [q1 hf] at hl
      rw [q2 hf he] at hl'
      cases hg : (j.m.cmap j.bg).at c with
      | none => simp [JMesh.cellFaces2, hg, R.faces] at hl
      | some g =>
        rw [cellFaces2_eq R hg] at hl
        rw [← Option.some.inj hl] at hd
        obtain ⟨p, hp, e1⟩ := List.mem_map.mp hd
        obtain ⟨rfl, rfl⟩ := Prod.mk.inj e1
        rw [faceEdges2_at R E (j.m.enum.at_id p.1)] at hl'
        rw [← Option.some.inj hl'] at hd'
        obtain ⟨rfl, rfl⟩ := Prod.mk.inj (List.mem_singleton.mp hd')
        refine ⟨_, ce g hg, (mem_map_id j.m.enum _).mpr ⟨p.1, j.m.enum.at_id p.1, ?_⟩⟩
        exact List.mem_map.mpr ⟨p, hp, rfl⟩
  · cases hg : (j.m.cmap j.bg).at c with
    | none => rw [cn hg]; intro h; cases h
    | some g =>
      intro _
      exact ⟨_, ce g hg, nodup_map_id j.m.enum (hp.noedge g)⟩

/-! ### `face_to_cell_edge_map` -/

theorem edgeMap_length (fe ce : List Nat) (old : List Int) : (edgeMap fe ce old).length = fe.length := by
  unfold edgeMap resizeZero
  rw [List.length_zipWith, List.length_append, List.length_take, List.length_replicate]
  omega

theorem edgeMap_get (fe ce : List Nat) (old : List Int) (k e : Nat) (hk : fe[k]? = some e) (hc : e ∈ ce) :
    ∃ i : Nat, (edgeMap fe ce old)[k]? = some (i : Int) ∧ ce[i]? = some e := by
  have hlt : k < fe.length := (List.getElem?_eq_some_iff.mp hk).1
  have hlen : (resizeZero old fe.length).length = fe.length := by
    unfold resizeZero
    rw [List.length_append, List.length_take, List.length_replicate]
    omega
  have ho : (resizeZero old fe.length)[k]? = some (resizeZero old fe.length)[k] := List.getElem?_eq_getElem (by omega)
  cases hi : ce.findIdx? (· == e) with
  | none =>
    rw [List.findIdx?_eq_none_iff] at hi
    have := hi e hc
    simp at this
  | some i =>
    refine ⟨i, ?_, ?_⟩
    · unfold edgeMap
      rw [List.getElem?_zipWith, hk, ho]
      simp [hi]
    · rw [List.findIdx?_eq_some_iff_getElem] at hi
      obtain ⟨h1, h2, _⟩ := hi
      rw [List.getElem?_eq_getElem h1]
      simpa using h2

/-- **C114** for a face of the cell, `face_to_cell_edge_map` gives the place of each edge of the face among the edges of the
cell, whatever the caller's vector contained -/
theorem face_to_cell_edges3 (j : JMesh) (r : MeshCache.Request) (h : j.Made3 r) (hf : r.faces = true) (he : r.edges = true)
    (f c : Nat) (old : List Int) (hfc : HasFst (j.cellGetFaces3 c) f) :
    ∃ (m : List Int) (fe : List (Nat × Int)) (ce : List Nat), j.faceToCellEdgeMap3 f c old = some m ∧ j.faceGetEdges3 f = some fe ∧
      j.cellGetEdges3 c = some ce ∧ m.length = fe.length ∧
      ∀ (k : Nat) e d, fe[k]? = some (e, d) → ∃ i : Nat, m[k]? = some (i : Int) ∧ ce[i]? = some e := by
  obtain ⟨q1, q2, q3⟩ := cached_connectivity3 j r h
  have R := h.ready hf
  have E := h.readyE he
  have hfc' := hfc
  rw [q1 hf, hasFst_cellFaces3 R] at hfc'
  obtain ⟨g, fh, hg, hfh, _⟩ := hfc'
  have h1 := (q2 hf he f).trans (faceEdges3_at R E hfh)
  obtain ⟨fe, hfe⟩ : ∃ fe, j.faceGetEdges3 f = some fe := ⟨_, h1⟩
  obtain ⟨ce, hce⟩ : ∃ ce, j.cellGetEdges3 c = some ce := by
    rw [(q3 he).1]
    unfold JMesh.cellEdges3
    rw [if_pos E.edges, hg]
    exact ⟨_, rfl⟩
  refine ⟨edgeMap (fe.map Prod.fst) ce old, fe, ce, ?_, hfe, hce, ?_, ?_⟩
  · unfold JMesh.faceToCellEdgeMap3
    rw [hfe, hce]
    rfl
  · rw [edgeMap_length, List.length_map]
  · intro k e d hk
    apply edgeMap_get
    · rw [List.getElem?_map, hk]; rfl
    · obtain ⟨l, hl, hm⟩ := ((cell_edges_of_faces3 j r h hf he c e).1).mpr
        ⟨f, hfc, fe, hfe, d, List.mem_of_getElem? hk⟩
      rw [hce] at hl
      cases hl
      exact hm

/-- **C114** in a 2D mesh, where the edge of a face is the face itself -/
theorem face_to_cell_edges2 (j : JMesh) (r : MeshCache.Request) (h : j.Made2 r) (hf : r.faces = true) (he : r.edges = true)
    (sdim f c : Nat) (old : List Int) (hfc : HasFst (j.cellGetFaces2 c) f) :
    ∃ (ce : List Nat) (i : Nat), j.faceGetEdges2 f = some [(f, 1)] ∧ j.cellGetEdges2 sdim c = some ce ∧
      j.faceToCellEdgeMap2 sdim f c old = some [(i : Int)] ∧ ce[i]? = some f := by
  obtain ⟨q1, q2, q3⟩ := cached_connectivity2 j r h sdim
  have R := h.ready hf
  have E := h.readyE he
  have hfc' := hfc
  rw [q1 hf, hasFst_cellFaces2 R] at hfc'
  obtain ⟨g, fh, hg, hfh, hm⟩ := hfc'
  have hid : j.m.emap.id fh - 1 = f := by rw [j.m.enum.id_of_at hfh]; rfl
  have hfe : j.faceGetEdges2 f = some [(f, 1)] := by
    rw [q2 hf he f]
    unfold JMesh.faceEdges2
    rw [E.edges, R.faces, hfh]
    simp [hid]
  obtain ⟨ce, hce, hmem⟩ : ∃ ce, j.cellGetEdges2 sdim c = some ce ∧ f ∈ ce := by
    rw [(q3 he).1]
    unfold JMesh.cellEdges2
    rw [if_pos E.edges, hg]
    refine ⟨_, rfl, ?_⟩
    rw [List.mem_map]
    exact ⟨fh, by simpa [Face.mfEdges] using hm, hid⟩
  obtain ⟨i, hi, hc⟩ := edgeMap_get (fe := [f]) (ce := ce) (old := old) (k := 0) (e := f) rfl hmem
  refine ⟨ce, i, hfe, hce, ?_, hc⟩
  unfold JMesh.faceToCellEdgeMap2
  rw [hfe, hce]
  show some (edgeMap [f] ce old) = _
  have hl : (edgeMap [f] ce old).length = 1 := edgeMap_length ..
  congr 1
  apply List.ext_getElem?
  intro k
  cases k with
  | zero => simpa using hi
  | succ k => rw [List.getElem?_eq_none (by omega)]; simp

/-- for an edge of the face that is not an edge of the cell, the entry is what the caller's vector contained at that place (0 if
it was shorter): it cannot be told from an answer -/
theorem face_to_cell_edges_stale (fe ce : List Nat) (old : List Int) (k e : Nat) (hk : fe[k]? = some e) (hc : e ∉ ce) :
    (edgeMap fe ce old)[k]? = some ((old[k]?).getD 0) := by
  have hlt : k < fe.length := (List.getElem?_eq_some_iff.mp hk).1
  have hi : ce.findIdx? (· == e) = none := by
    rw [List.findIdx?_eq_none_iff]
    intro x hx
    simp only [beq_eq_false_iff_ne]
    rintro rfl
    exact hc hx
  have ho : (resizeZero old fe.length)[k]? = some ((old[k]?).getD 0) := by
    unfold resizeZero
    by_cases h : k < old.length
    · rw [List.getElem?_append_left (by simp; omega), List.getElem?_take_of_lt hlt, List.getElem?_eq_getElem h]
      rfl
    · rw [List.getElem?_append_right (by simp; omega), List.getElem?_replicate, List.getElem?_eq_none (by omega)]
      rw [if_pos (by simp; omega)]
      rfl
  unfold edgeMap
  rw [List.getElem?_zipWith, hk, ho]
  simp [hi]

/-! ### the hypotheses are met -/

/-- everything is requested -/
abbrev reqAll : MeshCache.Request := ⟨true, true, true, true, true⟩

/-- rank 1 of the two tetrahedra of `sampleWorld`: cell 1 is a ghost, the common face (face 3 here) is flipped -/
abbrev rankMesh : JMesh := ⟨rank1, true, true, false, false, [false, false, false, true, false, false, false],
    [false, false, false, true, false, false, false, false, false]⟩

theorem rankMesh_made : rankMesh.Made3 reqAll ∧ sampleWorld[1] = rankMesh := by
  exact ⟨⟨⟨⟨true, true, true, true, true⟩, rfl⟩, rfl, rfl, fun _ => rfl, fun _ => rfl⟩, rfl⟩

/-- a tetrahedron and a boundary ghost -/
theorem sample3_made : sample3.Made3 reqAll := ⟨⟨⟨true, true, true, true, true⟩, rfl⟩, rfl, rfl, fun _ => rfl, fun _ => rfl⟩

/-- two triangles, one a ghost, the flags of one edge set -/
theorem sample2_made : sample2.Made2 reqAll := ⟨⟨⟨true, true, true, true, true⟩, rfl⟩, rfl, rfl, fun _ => rfl, fun _ => rfl⟩

example : rankMesh.cellGetFaces3 1 = some [(3, 1), (4, -1), (5, -1), (6, -1)] ∧ rankMesh.cellGetFaces3 2 = none ∧
    rankMesh.faceGetEdges3 3 = some [(5, -1), (4, -1), (3, -1)] ∧ rankMesh.edgeGetNodes 3 = some (1, 2) ∧
    rankMesh.cellGetEdges3 1 = some [3, 4, 7, 5, 6, 8] := by decide +kernel

example : rankMesh.faceToCellEdgeMap3 4 1 [9, 9, 9, 9] = some [0, 2, 4] ∧ HasFst (rankMesh.cellGetFaces3 1) 4 := by
  exact ⟨by decide +kernel, ⟨[(3, 1), (4, -1), (5, -1), (6, -1)], by decide +kernel, -1, by simp⟩⟩

/-- face 4 of the other cell: only one of its edges is an edge of cell 0, the other entries are left as they were -/
example : rankMesh.faceToCellEdgeMap3 4 0 [7, 7] = some [0, 7, 0] ∧ 7 ∉ [3, 4, 1, 5, 0, 2] := by
  decide +kernel

example : sample2.faceToCellEdgeMap2 2 4 1 [9] = some [2] ∧ HasFst (sample2.cellGetFaces2 1) 4 :=
  ⟨by decide +kernel, ⟨_, rfl, 1, by decide +kernel⟩⟩

example : sample2.cellGetEdges2 2 1 = some [3, 0, 4] ∧ sample2.cellGetEdges2 3 1 = some [3, 0, 4] ∧
    sample2.cell2DGetEdges 2 1 = some [(3, 1), (0, 1), (4, 1)] ∧ sample2.cell2DGetEdges 3 1 = none := by decide +kernel

end Jali.Mstk
