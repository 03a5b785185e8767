import Verif.Proof.MstkBuild
import Verif.Spec.MstkMesh
/-! Regions of generated meshes; the whole mesh. -/
namespace Jali.MstkGen
open Spec

/-- start and end of an edge in the direction of use -/
def st {K : Type} (p : Edge K × Bool) : Vert K := if p.2 then p.1.v0 else p.1.v1
def fi {K : Type} (p : Edge K × Bool) : Vert K := if p.2 then p.1.v1 else p.1.v0

section
variable {K : Type} [Field K] [LinearOrder K] [IsStrictOrderedRing K]

theorem sides_walk {d : Dom K} {b : Blk} {f : Face K} {l : List (Edge K × Bool)} (h : Sides d b f l) :
    l.map st = f.vs ∧ l.map fi = f.vs.rotate 1 ∧ f ∈ (genOf d b).faces := by
  rcases h with @⟨I, J, L, h1, h2, h3, h4, h5, h6⟩ | @⟨I, J, L, h1, h2, h3, h4, h5, h6⟩ | @⟨I, J, L, h1, h2, h3, h4, h5, h6⟩
  · exact ⟨by simp [st, FX, EY, EZ], by simp [fi, FX, EY, EZ], (mem_faces d b).2 (.x h1 h2 h3 h4 h5 h6)⟩
  · exact ⟨by simp [st, FY, EX, EZ], by simp [fi, FY, EX, EZ], (mem_faces d b).2 (.y h1 h2 h3 h4 h5 h6)⟩
  · exact ⟨by simp [st, FZ, EY, EX], by simp [fi, FZ, EY, EX], (mem_faces d b).2 (.z h1 h2 h3 h4 h5 h6)⟩

theorem faces_built (d : Dom K) (hd : GoodDom d) (b : Blk) (hb : GoodBlk d b) {es : List (Mstk.Edge (genOf d b).verts.length)}
    {eo : Fin es.length → Edge K} (H : EGood (genOf d b).verts (genOf d b).edges es eo) :
    ∃ fs, (genOf d b).faces.mapM (putFace (genOf d b).verts es) = some fs ∧ ∃ fo : Fin fs.length → Face K,
      List.ofFn fo = (genOf d b).faces ∧ ∀ i, Sides d b (fo i) ((fs.get i).edges.map fun p => (eo p.1, p.2)) ∧
        (fs.get i).gid = (fo i).id ∧ (fs.get i).ptype = .interior :=
  mapM_rel _ fun _ hf => face_put d hd b hb H hf

variable {d : Dom K} {b : Blk} {es : List (Mstk.Edge (genOf d b).verts.length)} {eo : Fin es.length → Edge K}
  {fs : List (Mstk.Face es.length)} {fo : Fin fs.length → Face K}

theorem walk_vs (H : EGood (genOf d b).verts (genOf d b).edges es eo) {f : Face K} {x : Mstk.Face es.length}
    (h : Sides d b f (x.edges.map fun p => (eo p.1, p.2))) : (walk es x).map (genOf d b).verts.get = f.vs := by
  rw [← (sides_walk h).1]
  unfold walk
  rw [List.map_map, List.map_map]
  refine List.map_congr_left fun p _ => ?_
  rcases p with ⟨i, _ | _⟩
  · exact H.v1 i
  · exact H.v0 i

theorem faces_unique (d : Dom K) (hd : GoodDom d) (b : Blk) (hb : GoodBlk d b) {f f' : Face K} (hf : f ∈ (genOf d b).faces)
    (hf' : f' ∈ (genOf d b).faces) (h : f'.vs.Perm f.vs) : f' = f := by
  have hm := generate_eq d hd.nx hd.ny hd.nz hb.nx hb.ny hb.nz
  have := (ids_agree d hd b b hb hb _ _ hm hm).2.2.1 f' hf' f hf
  exact this.2 (this.1.2 fun p => (h.map pos).mem_iff)

theorem faceOn_quad (hd : GoodDom d) (hb : GoodBlk d b) (H : EGood (genOf d b).verts (genOf d b).edges es eo)
    (hfo : List.ofFn fo = (genOf d b).faces) (HF : ∀ i, Sides d b (fo i) ((fs.get i).edges.map fun p => (eo p.1, p.2)))
    {f : Face K} (hf : f ∈ (genOf d b).faces) {q : List (Fin (genOf d b).verts.length)}
    {w0 w1 w2 w3 : Vert K} (hq : q.map (genOf d b).verts.get = [w0, w1, w2, w3]) (hp : f.vs.Perm [w0, w1, w2, w3]) {dir : Bool}
    (hdir : dir = true ↔ (w0, w1) ∈ f.vs.zip (f.vs.rotate 1)) :
    ∃ i, fo i = f ∧ faceOn es fs q = some (i, dir) := by
  have vinj := List.nodup_iff_injective_get.mp (verts_id_nodup d b hb.iy hb.iz).1
  have finj := ofFn_inj hfo (faces_id_nodup d b hb.iy hb.iz).1
  have hi : ∃ i, fo i = f := by rw [← hfo] at hf; exact List.mem_ofFn.mp hf
  obtain ⟨i, rfl⟩ := hi
  match q, hq with
  | [a, c, e, g], hq =>
    have hW := walk_vs H (HF i)
    refine ⟨i, rfl, ?_⟩
    unfold faceOn
    rw [find_unique (i := i)]
    · simp only [Option.map_some, Option.some.injEq, Prod.mk.injEq, true_and]
      rw [Bool.eq_iff_iff, decide_eq_true_eq, hdir]
      rw [← hW, ← List.map_rotate]
      simp only [List.map_cons, List.map_nil, List.cons.injEq, and_true] at hq
      obtain ⟨rfl, rfl, _⟩ := hq
      constructor
      · intro h
        rw [List.zip_map, List.mem_map] 
        exact ⟨_, h, rfl⟩
      · intro h
        rw [List.zip_map, List.mem_map] at h
        obtain ⟨⟨u, v⟩, h1, h2⟩ := h
        simp only [Prod.map_apply, Prod.mk.injEq] at h2
        rw [← vinj h2.1, ← vinj h2.2]; exact h1
    · rw [decide_eq_true_eq]
      rw [← List.map_perm_map_iff vinj, hW, hq]; exact hp
    · intro j hj
      rw [decide_eq_true_eq] at hj
      have := hj.map (genOf d b).verts.get
      rw [walk_vs H (HF j), hq] at this
      refine finj (faces_unique d hd b hb ?_ ?_ (this.trans hp.symm))
      · exact (sides_walk (HF i)).2.2
      · exact (sides_walk (HF j)).2.2

/-- the sides of a generated cell, `true` if the face is seen counterclockwise from outside -/
inductive Cells (d : Dom K) (b : Blk) : Region K → List (Face K × Bool) → Prop
  | mk {I J L : Nat} : b.i0 ≤ I → I < b.i0 + b.nx → b.j0 ≤ J → J < b.j0 + b.ny → b.k0 ≤ L → L < b.k0 + b.nz →
      Cells d b (RG d I J L) [(FZ d I J L, false), (FZ d I J (L + 1), true), (FY d I J L, true), (FX d (I + 1) J L, true),
        (FY d I (J + 1) L, false), (FX d I J L, false)]

theorem region_put (hd : GoodDom d) (hb : GoodBlk d b) (H : EGood (genOf d b).verts (genOf d b).edges es eo)
    (hfo : List.ofFn fo = (genOf d b).faces) (HF : ∀ i, Sides d b (fo i) ((fs.get i).edges.map fun p => (eo p.1, p.2)))
    {r : Region K} (hr : r ∈ (genOf d b).regions) :
    ∃ x, putRegion (genOf d b).verts es fs r = some x ∧ Cells d b r (x.faces.map fun p => (fo p.1, p.2)) ∧ x.gid = r.id ∧
      x.ptype = .interior := by
  have hid := (verts_id_nodup d b hb.iy hb.iz).2
  obtain ⟨I, J, L, h1, h2, h3, h4, h5, h6, rfl⟩ := (mem_regions d b).1 hr
  obtain ⟨i0, g0, q0⟩ := handle_mem hid (v := V d I J L) (vmem d b (by omega) (by omega) (by omega) (by omega) (by omega) (by omega))
  obtain ⟨i1, g1, q1⟩ := handle_mem hid (v := V d (I + 1) J L) (vmem d b (by omega) (by omega) (by omega) (by omega) (by omega) (by omega))
  obtain ⟨i2, g2, q2⟩ := handle_mem hid (v := V d (I + 1) (J + 1) L) (vmem d b (by omega) (by omega) (by omega) (by omega) (by omega) (by omega))
  obtain ⟨i3, g3, q3⟩ := handle_mem hid (v := V d I (J + 1) L) (vmem d b (by omega) (by omega) (by omega) (by omega) (by omega) (by omega))
  obtain ⟨i4, g4, q4⟩ := handle_mem hid (v := V d I J (L + 1)) (vmem d b (by omega) (by omega) (by omega) (by omega) (by omega) (by omega))
  obtain ⟨i5, g5, q5⟩ := handle_mem hid (v := V d (I + 1) J (L + 1)) (vmem d b (by omega) (by omega) (by omega) (by omega) (by omega) (by omega))
  obtain ⟨i6, g6, q6⟩ := handle_mem hid (v := V d (I + 1) (J + 1) (L + 1)) (vmem d b (by omega) (by omega) (by omega) (by omega) (by omega) (by omega))
  obtain ⟨i7, g7, q7⟩ := handle_mem hid (v := V d I (J + 1) (L + 1)) (vmem d b (by omega) (by omega) (by omega) (by omega) (by omega) (by omega))
  have perm1 : ∀ a b c e : Vert K, [a, b, c, e].Perm [a, e, c, b] := fun a b c e =>
    ((List.Perm.swap c b [e]).trans ((List.Perm.swap e b []).cons c) |>.trans (List.Perm.swap e c [b])).cons a
  have perm2 : ∀ a b c e : Vert K, [a, b, c, e].Perm [b, a, e, c] := fun a b c e =>
    (List.Perm.swap _ _ _).trans (((List.Perm.swap _ _ []).cons _).cons _)
  obtain ⟨k0, r0, s0⟩ := faceOn_quad (fs := fs) hd hb H hfo HF (f := FZ d I J L) (q := [i0, i3, i2, i1]) (dir := false)
    ((mem_faces d b).2 (.z (by omega) (by omega) (by omega) (by omega) (by omega) (by omega)))
    (by simp only [List.map_cons, List.map_nil, q0, q1, q2, q3]) (perm1 _ _ _ _)
    (by simp [FZ, V_iff d hd])
  obtain ⟨k1, r1, s1⟩ := faceOn_quad (fs := fs) hd hb H hfo HF (f := FZ d I J (L + 1)) (q := [i4, i5, i6, i7]) (dir := true)
    ((mem_faces d b).2 (.z (by omega) (by omega) (by omega) (by omega) (by omega) (by omega)))
    (by simp only [List.map_cons, List.map_nil, q4, q5, q6, q7]) (.refl _)
    (by simp [FZ, V_iff d hd])
  obtain ⟨k2, r2, s2⟩ := faceOn_quad (fs := fs) hd hb H hfo HF (f := FY d I J L) (q := [i0, i1, i5, i4]) (dir := true)
    ((mem_faces d b).2 (.y (by omega) (by omega) (by omega) (by omega) (by omega) (by omega)))
    (by simp only [List.map_cons, List.map_nil, q0, q1, q5, q4]) (.refl _)
    (by simp [FY, V_iff d hd])
  obtain ⟨k3, r3, s3⟩ := faceOn_quad (fs := fs) hd hb H hfo HF (f := FX d (I + 1) J L) (q := [i1, i2, i6, i5]) (dir := true)
    ((mem_faces d b).2 (.x (by omega) (by omega) (by omega) (by omega) (by omega) (by omega)))
    (by simp only [List.map_cons, List.map_nil, q1, q2, q6, q5]) (.refl _)
    (by simp [FX, V_iff d hd])
  obtain ⟨k4, r4, s4⟩ := faceOn_quad (fs := fs) hd hb H hfo HF (f := FY d I (J + 1) L) (q := [i2, i3, i7, i6]) (dir := false)
    ((mem_faces d b).2 (.y (by omega) (by omega) (by omega) (by omega) (by omega) (by omega)))
    (by simp only [List.map_cons, List.map_nil, q2, q3, q7, q6]) (perm2 _ _ _ _)
    (by simp [FY, V_iff d hd])
  obtain ⟨k5, r5, s5⟩ := faceOn_quad (fs := fs) hd hb H hfo HF (f := FX d I J L) (q := [i3, i0, i4, i7]) (dir := false)
    ((mem_faces d b).2 (.x (by omega) (by omega) (by omega) (by omega) (by omega) (by omega)))
    (by simp only [List.map_cons, List.map_nil, q3, q0, q4, q7]) (perm2 _ _ _ _)
    (by simp [FX, V_iff d hd])
  refine ⟨{ ptype := .interior
            gid := (RG d I J L).id
            faces := [(k0, false), (k1, true), (k2, true), (k3, true), (k4, false), (k5, false)] }, ?_, ?_, rfl, rfl⟩
  · unfold putRegion
    simp [RG, hexSides, List.mapM_cons, g0, g1, g2, g3, g4, g5, g6, g7, s0, s1, s2, s3, s4, s5]
  · simp only [List.map_cons, List.map_nil, r0, r1, r2, r3, r4, r5]
    exact .mk h1 h2 h3 h4 h5 h6

end
end Jali.MstkGen
