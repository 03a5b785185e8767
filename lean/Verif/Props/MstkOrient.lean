import Verif.Proof.MstkOrient
import Verif.Props.MstkQueries
/-
C107: directions of faces in cells, and of edges in faces and cells, agree with the order of the nodes (mesh of MSTK).
-/
namespace Jali.Mstk

theorem along_face2 (j : JMesh) (h : j.Ready2) (p : Fin j.m.ne × Bool) :
    along (twoNodes (j.faceNodes2 (j.m.emap.id p.1 - 1))) (flipDir j.faceflip (j.m.emap.id p.1 - 1) p.2) =
      some (j.m.vmap.id (j.m.start p) - 1, j.m.vmap.id (j.m.finish p) - 1) := by
  obtain ⟨e, d⟩ := p
  have hlt : j.m.emap.id e - 1 < j.faceflip.length := by rw [h.flips]; exact j.m.enum.id_lt e
  unfold JMesh.faceNodes2
  rw [if_pos h.faces, j.m.enum.at_id e, Option.bind_some]
  dsimp only
  unfold flipDir
  rw [List.getElem?_eq_getElem hlt, Option.getD_some]
  unfold MMesh.start MMesh.finish dirInt
  cases j.faceflip[j.m.emap.id e - 1] <;> cases d <;> simp [along, twoNodes]

/-- **C107** (2D) walking along the faces of a cell, each in the direction returned with it, visits the nodes of the cell in
their order, whichever faces are flipped -/
theorem cell_faces_walk_nodes2 (j : JMesh) (h : j.Ready2) (hp : j.m.Polygons) (c : Nat) (fs : List (Nat × Int)) (ns : List Nat)
    (hf : j.cellFaces2 c = some fs) (hn : j.cellNodes2 c = some ns) :
    (fs.map fun p => along (twoNodes (j.faceNodes2 p.1)) p.2) = (cyclicPairs ns).map some := by
  cases hr : (j.m.cmap j.bg).at c with
  | none => simp [JMesh.cellNodes2, hr] at hn
  | some r =>
    rw [cellFaces2_eq h hr] at hf
    unfold JMesh.cellNodes2 at hn
    rw [hr, Option.map_some] at hn
    rw [← Option.some.inj hf, ← Option.some.inj hn, cyclicPairs_map, walk_eq _ hp, List.map_map, List.map_map, List.map_map]
    apply List.map_congr_left
    intro p _
    exact along_face2 j h p

theorem edgeNodes_eq (j : JMesh) (h : j.ReadyE) (e : Fin j.m.ne) (fl : Bool) (hfl : j.edgeflip[j.m.emap.id e - 1]? = some fl) :
    j.edgeNodes (j.m.emap.id e - 1) = some (j.m.vmap.id (j.m.start (e, !fl)) - 1, j.m.vmap.id (j.m.finish (e, !fl)) - 1) := by
  unfold JMesh.edgeNodes
  rw [if_pos h.edges, j.m.enum.at_id e, Option.bind_some, hfl, Option.map_some]
  unfold MMesh.start MMesh.finish
  cases fl <;> rfl

theorem along_edge (j : JMesh) (h : j.ReadyE) (p : Fin j.m.ne × Bool) :
    along (j.edgeNodes (j.m.emap.id p.1 - 1)) (flipDir j.edgeflip (j.m.emap.id p.1 - 1) p.2) =
      some (j.m.vmap.id (j.m.start p) - 1, j.m.vmap.id (j.m.finish p) - 1) := by
  obtain ⟨e, d⟩ := p
  have hlt : j.m.emap.id e - 1 < j.edgeflip.length := by rw [h.flips]; exact j.m.enum.id_lt e
  rw [edgeNodes_eq j h e _ (List.getElem?_eq_getElem hlt)]
  unfold flipDir
  rw [List.getElem?_eq_getElem hlt, Option.getD_some]
  unfold MMesh.start MMesh.finish dirInt
  cases j.edgeflip[j.m.emap.id e - 1] <;> cases d <;> simp [along]

theorem faceEdges3_eq (j : JMesh) (hf : j.faces = true) (h : j.ReadyE) {f : Nat} {fh : Fin j.m.nf}
    (hr : j.m.fmap.at f = some fh) :
    j.faceEdges3 f = some ((j.m.face fh).edges.map fun p =>
      (j.m.emap.id p.1 - 1, flipDir j.edgeflip (j.m.emap.id p.1 - 1) p.2)) := by
  unfold JMesh.faceEdges3
  rw [if_pos (by rw [hf, h.edges]; rfl), hr]
  show List.mapM _ _ = _
  apply mapM_total
  intro p _
  rw [flipped_total (by rw [h.flips]; exact j.m.enum.id_lt p.1)]
  rfl

/-- **C107** (3D, faces that are not flipped) walking along the edges of a face, each in the direction returned with it, visits
the nodes of the face in their order -/
theorem face_edges_walk_nodes_partial (j : JMesh) (h : j.Ready3) (he : j.ReadyE) (hp : j.m.Polygons) (f : Nat)
    (hfl : j.faceflip[f]? = some false) (es : List (Nat × Int)) (ns : List Nat)
    (hf : j.faceEdges3 f = some es) (hn : j.faceNodes3 f = some ns) :
    (es.map fun p => along (j.edgeNodes p.1) p.2) = (cyclicPairs ns).map some := by
  cases hr : j.m.fmap.at f with
  | none => simp [JMesh.faceNodes3, hr, h.faces] at hn
  | some r =>
    rw [faceEdges3_eq j h.faces he hr] at hf
    unfold JMesh.faceNodes3 at hn
    rw [if_pos h.faces, hr, Option.bind_some, hfl, Option.map_some] at hn
    rw [← Option.some.inj hf, ← Option.some.inj hn, cyclicPairs_map, Bool.not_false, walk_eq _ hp, List.map_map, List.map_map,
      List.map_map]
    apply List.map_congr_left
    intro p _
    exact along_edge j he p

/-- **C107** is false for every flipped face of a 3D mesh: the direction returned with each of its edges is wrong -/
theorem flipped_face_edges_wrong (j : JMesh) (h : j.Ready3) (he : j.ReadyE) (hp : j.m.Polygons) (f : Nat)
    (hfl : j.faceflip[f]? = some true) (es : List (Nat × Int)) (ns : List Nat)
    (hf : j.faceEdges3 f = some es) (hn : j.faceNodes3 f = some ns) (h3 : 3 ≤ es.length) :
    ∀ e d, (e, d) ∈ es → ∃ a b, along (j.edgeNodes e) d = some (a, b) ∧ (b, a) ∈ cyclicPairs ns ∧ (a, b) ∉ cyclicPairs ns := by
  cases hr : j.m.fmap.at f with
  | none => simp [JMesh.faceNodes3, hr, h.faces] at hn
  | some r =>
    rw [faceEdges3_eq j h.faces he hr] at hf
    unfold JMesh.faceNodes3 at hn
    rw [if_pos h.faces, hr, Option.bind_some, hfl, Option.map_some, Bool.not_true, mfVertices_false, hp.closed r] at hn
    have hlen : 3 ≤ (j.m.face r).edges.length := by rw [← Option.some.inj hf] at h3; simpa using h3
    intro e d hd
    rw [← Option.some.inj hf, List.mem_map] at hd
    obtain ⟨p, hpm, hpe⟩ := hd
    simp only [Prod.mk.injEq] at hpe
    have hw : (j.m.start p, j.m.finish p) ∈ cyclicPairs ((j.m.face r).edges.map j.m.start) := by
      rw [← mfVertices_true, walk_eq _ hp]
      exact List.mem_map.mpr ⟨p, hpm, rfl⟩
    have hrev := cyclicPairs_rev _ _ _ hw
    have hb : (j.m.vmap.id (j.m.finish p) - 1, j.m.vmap.id (j.m.start p) - 1) ∈ cyclicPairs ns := by
      rw [← Option.some.inj hn, cyclicPairs_map]
      exact List.mem_map.mpr ⟨_, hrev, rfl⟩
    refine ⟨_, _, ?_, hb, ?_⟩
    · rw [← hpe.1, ← hpe.2]; exact along_edge j he p
    · refine not_both_ways ?_ ?_ hb
      · rw [← Option.some.inj hn]
        refine nodup_map_id j.m.vnum ?_
        rw [List.nodup_reverse, List.nodup_rotate]
        exact hp.simple r
      · rw [← Option.some.inj hn]; simpa using hlen

/-- **C107** (2D) the direction of an edge in a cell agrees with the order of the nodes if the edge is not flipped; it is wrong
if it is flipped -/
theorem cell_edges_2D_partial (j : JMesh) (he : j.ReadyE) (hp : j.m.Polygons) (c : Nat) (es : List (Nat × Int)) (ns : List Nat)
    (hf : j.cell2DEdges c = some es) (hn : j.cellNodes2 c = some ns) (h3 : 3 ≤ es.length) :
    ∀ e d, (e, d) ∈ es → ∃ a b, along (j.edgeNodes e) d = some (a, b) ∧
      (j.edgeflip[e]? = some false → (a, b) ∈ cyclicPairs ns) ∧
      (j.edgeflip[e]? = some true → (b, a) ∈ cyclicPairs ns ∧ (a, b) ∉ cyclicPairs ns) := by
  cases hr : (j.m.cmap j.bg).at c with
  | none => simp [JMesh.cellNodes2, hr] at hn
  | some r =>
    unfold JMesh.cell2DEdges at hf
    rw [if_pos he.edges, hr, Option.map_some] at hf
    unfold JMesh.cellNodes2 at hn
    rw [hr, Option.map_some] at hn
    have hlen : 3 ≤ (j.m.face r).edges.length := by rw [← Option.some.inj hf] at h3; simpa using h3
    intro e d hd
    rw [← Option.some.inj hf, List.mem_map] at hd
    obtain ⟨⟨eh, b⟩, hpm, hpe⟩ := hd
    simp only [Prod.mk.injEq] at hpe
    have hw : (j.m.vmap.id (j.m.start (eh, b)) - 1, j.m.vmap.id (j.m.finish (eh, b)) - 1) ∈ cyclicPairs ns := by
      rw [← Option.some.inj hn, cyclicPairs_map, walk_eq _ hp, List.map_map]
      exact List.mem_map.mpr ⟨(eh, b), hpm, rfl⟩
    have hnd : ns.Nodup := by
      rw [← Option.some.inj hn]
      refine nodup_map_id j.m.vnum ?_
      rw [mfVertices_true]; exact hp.simple r
    have h3' : 3 ≤ ns.length := by
      rw [← Option.some.inj hn, mfVertices_true]; simpa using hlen
    have hlt : j.m.emap.id eh - 1 < j.edgeflip.length := by rw [he.flips]; exact j.m.enum.id_lt eh
    rw [← hpe.1, ← hpe.2]
    have hE := edgeNodes_eq j he eh _ (List.getElem?_eq_getElem hlt)
    rw [hE, List.getElem?_eq_getElem hlt]
    have e1 : j.m.start (eh, !b) = j.m.finish (eh, b) := by unfold MMesh.start MMesh.finish; cases b <;> rfl
    have e2 : j.m.finish (eh, !b) = j.m.start (eh, b) := by unfold MMesh.start MMesh.finish; cases b <;> rfl
    cases hx : j.edgeflip[j.m.emap.id eh - 1] with
    | false =>
      refine ⟨j.m.vmap.id (j.m.start (eh, b)) - 1, j.m.vmap.id (j.m.finish (eh, b)) - 1, ?_, fun _ => hw, fun h => by cases h⟩
      cases b
      · unfold along MMesh.start MMesh.finish dirInt; simp
      · unfold along MMesh.start MMesh.finish dirInt; simp
    | true =>
      refine ⟨j.m.vmap.id (j.m.start (eh, !b)) - 1, j.m.vmap.id (j.m.finish (eh, !b)) - 1, ?_, (fun h => by cases h), fun _ => ?_⟩
      · cases b
        · unfold along MMesh.start MMesh.finish dirInt; simp
        · unfold along MMesh.start MMesh.finish dirInt; simp
      · rw [e1, e2]
        exact ⟨hw, not_both_ways hnd h3' hw⟩

/-- the nodes of the only edge of a face of a 2D mesh are the nodes of the face, if both are flipped alike -/
theorem face_edge_2D (j : JMesh) (h : j.Ready2) (he : j.ReadyE) (hfl : j.faceflip = j.edgeflip) (f : Nat) (hf : f < j.m.ne) :
    ∃ e a b, j.faceEdges2 f = some [(e, 1)] ∧ j.edgeNodes e = some (a, b) ∧ j.faceNodes2 f = some [a, b] := by
  obtain ⟨eh, hat⟩ := j.m.enum.at_some hf
  have hlt : f < j.faceflip.length := by rw [h.flips]; exact hf
  have hid := j.m.enum.at_iff.mp hat
  have hx : j.edgeflip[j.m.emap.id eh - 1]? = some j.faceflip[f] := by
    rw [hid, ← hfl]; exact List.getElem?_eq_getElem hlt
  refine ⟨j.m.emap.id eh - 1, _, _, ?_, edgeNodes_eq j he eh _ hx, ?_⟩
  · unfold JMesh.faceEdges2; rw [if_pos (by rw [h.faces, he.edges]; rfl), hat]; rfl
  · unfold JMesh.faceNodes2
    rw [if_pos h.faces, hat, Option.bind_some, List.getElem?_eq_getElem hlt, Option.map_some]
    unfold MMesh.start MMesh.finish
    cases j.faceflip[f] <;> rfl

/-- the cell of `sampleMesh` with its flipped edge -/
example : sample2.Ready2 ∧ sample2.ReadyE ∧ sample2.faceflip = sample2.edgeflip ∧
    sample2.cell2DEdges 1 = some [(3, 1), (0, 1), (4, 1)] ∧
    sample2.cellNodes2 1 = some [3, 0, 1] ∧ sample2.edgeNodes 3 = some (0, 3) := by
  refine ⟨⟨rfl, rfl⟩, ⟨rfl, rfl⟩, rfl, ?_, ?_, ?_⟩ <;> decide +kernel

example : ∀ f : Fin 2, (sampleMesh.face f).edges.map sampleMesh.finish = ((sampleMesh.face f).edges.map sampleMesh.start).rotate 1 ∧
    ((sampleMesh.face f).edges.map sampleMesh.start).Nodup ∧ ((sampleMesh.face f).edges.map Prod.fst).Nodup := by
  intro f
  match f with
  | 0 => decide +kernel
  | 1 => decide +kernel

/-- a tetrahedron with one flipped face -/
def sample3f : JMesh := { sample3 with faceflip := [true, false, false, false] }

example : sample3f.Ready3 ∧ sample3f.ReadyE ∧ sample3f.faceEdges3 0 = some [(0, 1), (1, 1), (2, 1)] ∧
    sample3f.faceNodes3 0 = some [0, 2, 1] ∧ sample3f.faceNodes3 1 = some [0, 1, 3] := by
  refine ⟨⟨rfl, rfl⟩, ⟨rfl, rfl⟩, ?_, ?_, ?_⟩ <;> decide +kernel

end Jali.Mstk
