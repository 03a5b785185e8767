import Verif.Model.MstkBuild2D
import Verif.Spec.MstkBuild2D
import Verif.Proof.MstkBuild5
import Verif.Props.MstkGenerate2D
/-! From generated quadrilateral meshes to MSTK meshes. -/
namespace Jali.MstkGen
open Spec Jali.Mstk

section
variable {K : Type} [Field K]

theorem hE_ptr (d : Dom2 K) (b : Blk2) (i j : Nat) :
    ((hE d b i j).v0.ptr = (i, j) ∧ (hE d b i j).v1.ptr = (i + 1, j)) ∨ ((hE d b i j).v0.ptr = (i + 1, j) ∧ (hE d b i j).v1.ptr = (i, j)) := by
  match j with
  | 0 => exact .inl ⟨rfl, rfl⟩
  | j + 1 => exact .inr ⟨rfl, rfl⟩

theorem vE_ptr (d : Dom2 K) (b : Blk2) (i j : Nat) :
    ((vE d b i j).v0.ptr = (i, j) ∧ (vE d b i j).v1.ptr = (i, j + 1)) ∨ ((vE d b i j).v0.ptr = (i, j + 1) ∧ (vE d b i j).v1.ptr = (i, j)) := by
  match i with
  | 0 => exact .inr ⟨rfl, rfl⟩
  | i + 1 => exact .inl ⟨rfl, rfl⟩

theorem vert_of_ptr (d : Dom2 K) (b : Blk2) {v : Vert2 K} (hv : v ∈ (genOf2 d b).verts) : v = mkVert2 d b v.ptr.1 v.ptr.2 := by
  obtain ⟨i, j, _, _, rfl⟩ := (mem_mkVerts2 d b).1 hv
  rfl

theorem hE_inj (d : Dom2 K) (b : Blk2) {i j i' j' : Nat} (h : hE d b i j = hE d b i' j') : i = i' ∧ j = j' := by
  have h1 := hE_ptr d b i j
  have h2 := hE_ptr d b i' j'
  rw [h] at h1
  rcases h1 with ⟨a, a'⟩ | ⟨a, a'⟩ <;> rcases h2 with ⟨c, c'⟩ | ⟨c, c'⟩ <;>
  (rw [a] at c; rw [a'] at c'; simp only [Prod.mk.injEq] at c c'; omega)

theorem vE_inj (d : Dom2 K) (b : Blk2) {i j i' j' : Nat} (h : vE d b i j = vE d b i' j') : i = i' ∧ j = j' := by
  have h1 := vE_ptr d b i j
  have h2 := vE_ptr d b i' j'
  rw [h] at h1
  rcases h1 with ⟨a, a'⟩ | ⟨a, a'⟩ <;> rcases h2 with ⟨c, c'⟩ | ⟨c, c'⟩ <;>
  (rw [a] at c; rw [a'] at c'; simp only [Prod.mk.injEq] at c c'; omega)

theorem hE_ne_vE (d : Dom2 K) (b : Blk2) {i j i' j' : Nat} : hE d b i j ≠ vE d b i' j' := by
  intro h
  have h1 := hE_ptr d b i j
  have h2 := vE_ptr d b i' j'
  rw [h] at h1
  rcases h1 with ⟨a, a'⟩ | ⟨a, a'⟩ <;> rcases h2 with ⟨c, c'⟩ | ⟨c, c'⟩ <;>
  (rw [a] at c; rw [a'] at c'; simp only [Prod.mk.injEq] at c c'; omega)

theorem edge_of_ptrs (d : Dom2 K) (b : Blk2) (hx : 0 < b.nx) (hy : 0 < b.ny) {e e' : Edge2 K} (he : e ∈ (genOf2 d b).edges)
    (he' : e' ∈ (genOf2 d b).edges) (h0 : e.v0.ptr = e'.v0.ptr) (h1 : e.v1.ptr = e'.v1.ptr) : e = e' := by
  rcases (mem_edges2 d b hx hy).1 he with ⟨i, j, _, _, rfl⟩ | ⟨i, j, _, _, rfl⟩ <;>
  rcases (mem_edges2 d b hx hy).1 he' with ⟨i', j', _, _, rfl⟩ | ⟨i', j', _, _, rfl⟩
  · have a := hE_ptr d b i j
    have c := hE_ptr d b i' j'
    rw [h0, h1] at a
    have : i = i' ∧ j = j' := by
      rcases a with ⟨a, a'⟩ | ⟨a, a'⟩ <;> rcases c with ⟨c, c'⟩ | ⟨c, c'⟩ <;>
      (rw [a] at c; rw [a'] at c'; simp only [Prod.mk.injEq] at c c'; omega)
    obtain ⟨rfl, rfl⟩ := this
    rfl
  · have a := hE_ptr d b i j
    have c := vE_ptr d b i' j'
    rw [h0, h1] at a
    exfalso
    rcases a with ⟨a, a'⟩ | ⟨a, a'⟩ <;> rcases c with ⟨c, c'⟩ | ⟨c, c'⟩ <;>
      (rw [a] at c; rw [a'] at c'; simp only [Prod.mk.injEq] at c c'; omega)
  · have a := vE_ptr d b i j
    have c := hE_ptr d b i' j'
    rw [h0, h1] at a
    exfalso
    rcases a with ⟨a, a'⟩ | ⟨a, a'⟩ <;> rcases c with ⟨c, c'⟩ | ⟨c, c'⟩ <;>
      (rw [a] at c; rw [a'] at c'; simp only [Prod.mk.injEq] at c c'; omega)
  · have a := vE_ptr d b i j
    have c := vE_ptr d b i' j'
    rw [h0, h1] at a
    have : i = i' ∧ j = j' := by
      rcases a with ⟨a, a'⟩ | ⟨a, a'⟩ <;> rcases c with ⟨c, c'⟩ | ⟨c, c'⟩ <;>
      (rw [a] at c; rw [a'] at c'; simp only [Prod.mk.injEq] at c c'; omega)
    obtain ⟨rfl, rfl⟩ := this
    rfl

theorem edge_ends2 (d : Dom2 K) (b : Blk2) (hx : 0 < b.nx) (hy : 0 < b.ny) {e : Edge2 K} (he : e ∈ (genOf2 d b).edges) :
    e.v0 ∈ (genOf2 d b).verts ∧ e.v1 ∈ (genOf2 d b).verts ∧ e.v0.ptr ≠ e.v1.ptr := by
  have hmk : ∀ i j, i ≤ b.nx → j ≤ b.ny → mkVert2 d b i j ∈ (genOf2 d b).verts :=
    fun i j hi hj => (mem_mkVerts2 d b).2 ⟨i, j, hi, hj, rfl⟩
  rcases (mem_edges2 d b hx hy).1 he with ⟨i, j, hi, hj, rfl⟩ | ⟨i, j, hi, hj, rfl⟩
  · match j with
    | 0 => exact ⟨hmk _ _ (by omega) (by omega), hmk _ _ (by omega) (by omega), by simp [hE, bot, mkVert2]⟩
    | j + 1 => exact ⟨hmk _ _ (by omega) (by omega), hmk _ _ (by omega) (by omega), by simp [hE, top, mkVert2]⟩
  · match i with
    | 0 => exact ⟨hmk _ _ (by omega) (by omega), hmk _ _ (by omega) (by omega), by simp [vE, lft, mkVert2]⟩
    | i + 1 => exact ⟨hmk _ _ (by omega) (by omega), hmk _ _ (by omega) (by omega), by simp [vE, rgt, mkVert2]⟩

theorem handle2_mem (d : Dom2 K) (b : Blk2) {v : Vert2 K} (hv : v ∈ (genOf2 d b).verts) :
    ∃ i, handle2 (genOf2 d b).verts v = some i ∧ (genOf2 d b).verts.get i = v := by
  obtain ⟨i, rfl⟩ := List.mem_iff_get.mp hv
  refine ⟨i, find_unique (by simp) fun j hj => ?_, rfl⟩
  have hj' : ((genOf2 d b).verts.get j).ptr = ((genOf2 d b).verts.get i).ptr := by simpa using hj
  refine List.nodup_iff_injective_get.mp (nodup_mkVerts2 d b) ?_
  have e1 := vert_of_ptr d b (List.get_mem (genOf2 d b).verts j)
  have e2 := vert_of_ptr d b (List.get_mem (genOf2 d b).verts i)
  rw [hj'] at e1
  exact e1.trans e2.symm

/-- the MSTK mesh is the generated mesh: `vo`, `eo`, `fo` are the generated entities by handle -/
structure Grid2 (d : Dom2 K) (b : Blk2) (m : MMesh) where
  vo : Fin m.nv → Vert2 K
  eo : Fin m.ne → Edge2 K
  fo : Fin m.nf → Face2 K
  vlist : List.ofFn vo = (genOf2 d b).verts
  elist : List.ofFn eo = (genOf2 d b).edges
  flist : List.ofFn fo = (genOf2 d b).faces
  nor : m.nr = 0
  v0 : ∀ i, vo (m.edge i).v0 = (eo i).v0
  v1 : ∀ i, vo (m.edge i).v1 = (eo i).v1
  es : ∀ i, ((m.face i).edges.map fun p => (eo p.1, p.2)) = (fo i).es
  vgid : ∀ i, m.vtx i = ⟨.interior, (vo i).id⟩
  egid : ∀ i, (m.edge i).gid = (eo i).id ∧ (m.edge i).ptype = .interior
  fgid : ∀ i, (m.face i).gid = (fo i).id ∧ (m.face i).ptype = .interior

theorem face_edges_mem (d : Dom2 K) (b : Blk2) (hx : 0 < b.nx) (hy : 0 < b.ny) {f : Face2 K} (hf : f ∈ (genOf2 d b).faces) :
    ∀ p ∈ f.es, p.1 ∈ (genOf2 d b).edges := by
  obtain ⟨⟨i, j⟩, hp, rfl⟩ := List.mem_map.mp hf
  rw [mem_loopIdx2] at hp
  dsimp only at hp
  intro q hq
  rw [mem_edges2 d b hx hy]
  simp only [mkFace, List.mem_cons, List.not_mem_nil, or_false] at hq
  rcases hq with rfl | rfl | rfl | rfl
  · exact .inl ⟨i, j, hp.1, by omega, rfl⟩
  · exact .inr ⟨i + 1, j, by omega, hp.2, rfl⟩
  · exact .inl ⟨i, j + 1, hp.1, by omega, rfl⟩
  · exact .inr ⟨i, j, by omega, hp.2, rfl⟩

theorem build_grid2 (d : Dom2 K) (b : Blk2) (hx : 0 < b.nx) (hy : 0 < b.ny) :
    ∃ m, build2 (genOf2 d b) = some m ∧ Nonempty (Grid2 d b m) := by
  obtain ⟨es, hes, eo, heo, HE⟩ := mapM_rel (f := putEdge2 (genOf2 d b).verts)
    (R := fun e x => (genOf2 d b).verts.get x.v0 = e.v0 ∧ (genOf2 d b).verts.get x.v1 = e.v1 ∧ x.gid = e.id ∧ x.ptype = .interior)
    (genOf2 d b).edges (fun e he => by
      obtain ⟨h0, h1, _⟩ := edge_ends2 d b hx hy he
      obtain ⟨i, hi, ei⟩ := handle2_mem d b h0
      obtain ⟨j, hj, ej⟩ := handle2_mem d b h1
      exact ⟨_, by simp [putEdge2, hi, hj]; rfl, ei, ej, rfl, rfl⟩)
  have emem : ∀ i, eo i ∈ (genOf2 d b).edges := fun i => by rw [← heo]; exact List.mem_ofFn.mpr ⟨i, rfl⟩
  have eh : ∀ e ∈ (genOf2 d b).edges, ∃ i, edgeHandle2 es e = some i ∧ eo i = e := by
    intro e he
    rw [← heo] at he
    obtain ⟨i, rfl⟩ := List.mem_ofFn.mp he
    refine ⟨i, find_unique ?_ fun j hj => ?_, rfl⟩
    · rw [decide_eq_true_iff, (HE i).1, (HE i).2.1]; exact ⟨rfl, rfl⟩
    · rw [decide_eq_true_iff, (HE j).1, (HE j).2.1] at hj
      exact ofFn_inj heo (nodup_edges2 d b) (edge_of_ptrs d b hx hy (emem j) (emem i) hj.1 hj.2)
  obtain ⟨fs, hfs, fo, hfo, HF⟩ := mapM_rel (f := putFace2 es)
    (R := fun f x => (x.edges.map fun p => (eo p.1, p.2)) = f.es ∧ x.gid = f.id ∧ x.ptype = .interior)
    (genOf2 d b).faces (fun f hf => by
      have hm := face_edges_mem d b hx hy hf
      have : ∀ l : List (Edge2 K × Bool), (∀ p ∈ l, p.1 ∈ (genOf2 d b).edges) →
          ∃ l', (l.mapM fun p => (edgeHandle2 es p.1).map fun i => (i, p.2)) = some l' ∧ (l'.map fun p => (eo p.1, p.2)) = l := by
        intro l
        induction l with
        | nil => intro _; exact ⟨[], rfl, rfl⟩
        | cons p l ih =>
          intro hl
          obtain ⟨l', h1, h2⟩ := ih fun q hq => hl q (by simp [hq])
          obtain ⟨i, h3, h4⟩ := eh p.1 (hl p (by simp))
          refine ⟨(i, p.2) :: l', ?_, by simp [h2, h4]⟩
          rw [List.mapM_cons, h3, h1]
          rfl
      obtain ⟨l', h1, h2⟩ := this f.es hm
      exact ⟨_, by simp [putFace2, h1]; rfl, h2, rfl, rfl⟩)
  refine ⟨_, by simp [build2, hes, hfs]; rfl, ⟨{
    vo := (genOf2 d b).verts.get, eo := eo, fo := fo
    vlist := List.ofFn_get _, elist := heo, flist := hfo, nor := rfl
    v0 := fun i => (HE i).1, v1 := fun i => (HE i).2.1, es := fun i => (HF i).1
    vgid := fun _ => rfl, egid := fun i => (HE i).2.2, fgid := fun i => (HF i).2 }⟩⟩

namespace Grid2
variable {d : Dom2 K} {b : Blk2} {m : MMesh} (G : Grid2 d b m)

theorem vinj : Function.Injective G.vo := ofFn_inj G.vlist (nodup_mkVerts2 d b)
theorem einj : Function.Injective G.eo := ofFn_inj G.elist (nodup_edges2 d b)
theorem finj : Function.Injective G.fo := by
  refine ofFn_inj G.flist ((nodup_loopIdx2 _ _).map fun p q h => ?_)
  have h1 : (mkFace d b p).es = (mkFace d b q).es := by rw [h]
  simp only [mkFace, List.cons.injEq, Prod.mk.injEq] at h1
  obtain ⟨a, c⟩ := hE_inj d b h1.1.1
  exact Prod.ext a c

theorem fo_is (f : Fin m.nf) : ∃ i j, i < b.nx ∧ j < b.ny ∧ G.fo f = mkFace d b (i, j) := by
  have : G.fo f ∈ (genOf2 d b).faces := by rw [← G.flist]; exact List.mem_ofFn.mpr ⟨f, rfl⟩
  obtain ⟨⟨i, j⟩, hp, e⟩ := List.mem_map.mp this
  rw [mem_loopIdx2] at hp
  exact ⟨i, j, hp.1, hp.2, e.symm⟩

theorem eo_mem (i : Fin m.ne) : G.eo i ∈ (genOf2 d b).edges := by rw [← G.elist]; exact List.mem_ofFn.mpr ⟨i, rfl⟩

theorem start (p : Fin m.ne × Bool) : G.vo (m.start p) = Spec.start (G.eo p.1, p.2) := by
  unfold MMesh.start Spec.start
  cases p.2
  · exact G.v1 p.1
  · exact G.v0 p.1
theorem finish (p : Fin m.ne × Bool) : G.vo (m.finish p) = Spec.finish (G.eo p.1, p.2) := by
  unfold MMesh.finish Spec.finish
  cases p.2
  · exact G.v0 p.1
  · exact G.v1 p.1

theorem starts {f : Fin m.nf} {i j : Nat} (h : G.fo f = mkFace d b (i, j)) : ((m.face f).edges.map m.start).map G.vo =
    [mkVert2 d b i j, mkVert2 d b (i + 1) j, mkVert2 d b (i + 1) (j + 1), mkVert2 d b i (j + 1)] := by
  have e := G.es f
  rw [h] at e
  have : ((m.face f).edges.map m.start).map G.vo = (((m.face f).edges.map fun p => (G.eo p.1, p.2))).map Spec.start := by
    rw [List.map_map, List.map_map]
    exact List.map_congr_left fun p _ => G.start p
  rw [this, e]
  rcases i with _ | i <;> rcases j with _ | j <;> simp [mkFace, Spec.start, hE, vE, bot, rgt, top, lft]
theorem finishes {f : Fin m.nf} {i j : Nat} (h : G.fo f = mkFace d b (i, j)) : ((m.face f).edges.map m.finish).map G.vo =
    [mkVert2 d b (i + 1) j, mkVert2 d b (i + 1) (j + 1), mkVert2 d b i (j + 1), mkVert2 d b i j] := by
  have e := G.es f
  rw [h] at e
  have : ((m.face f).edges.map m.finish).map G.vo = (((m.face f).edges.map fun p => (G.eo p.1, p.2))).map Spec.finish := by
    rw [List.map_map, List.map_map]
    exact List.map_congr_left fun p _ => G.finish p
  rw [this, e]
  rcases i with _ | i <;> rcases j with _ | j <;> simp [mkFace, Spec.finish, hE, vE, bot, rgt, top, lft]

include G in
theorem four (f : Fin m.nf) : (m.face f).edges.length = 4 := by
  obtain ⟨i, j, _, _, h⟩ := G.fo_is f
  have := congrArg List.length (G.es f)
  rw [h, List.length_map] at this
  exact this

theorem mk_ne {i j i' j' : Nat} (h : ¬ (i = i' ∧ j = j')) : mkVert2 d b i j ≠ mkVert2 d b i' j' := by
  intro e
  have := congrArg Vert2.ptr e
  simp only [mkVert2, Prod.mk.injEq] at this
  exact h this

include G in
theorem polygons (hx : 0 < b.nx) (hy : 0 < b.ny) : m.Polygons where
  ends e h := by
    have h1 := (edge_ends2 d b hx hy (G.eo_mem e)).2.2
    rw [← G.v0, ← G.v1, h] at h1
    exact h1 rfl
  closed f := by
    obtain ⟨i, j, _, _, h⟩ := G.fo_is f
    refine (List.map_injective_iff.mpr G.vinj) ?_
    rw [G.finishes h, List.map_rotate, G.starts h]
    rfl
  simple f := by
    obtain ⟨i, j, _, _, h⟩ := G.fo_is f
    refine List.Nodup.of_map G.vo ?_
    rw [G.starts h]
    have n := fun {i j i' j' : Nat} => mk_ne (d := d) (b := b) (i := i) (j := j) (i' := i') (j' := j')
    simp only [List.nodup_cons, List.mem_cons, List.not_mem_nil, or_false, not_or, List.nodup_nil, not_false_eq_true, and_true]
    exact ⟨⟨n (by omega), n (by omega), n (by omega)⟩, ⟨n (by omega), n (by omega)⟩, n (by omega)⟩
  noedge f := by
    obtain ⟨i, j, _, _, h⟩ := G.fo_is f
    refine List.Nodup.of_map G.eo ?_
    have e := congrArg (List.map Prod.fst) (G.es f)
    rw [List.map_map] at e
    rw [List.map_map]
    refine (show _ = _ from e) ▸ ?_
    rw [h]
    have hh := fun {i j i' j' : Nat} => hE_inj d b (i := i) (j := j) (i' := i') (j' := j')
    have vv := fun {i j i' j' : Nat} => vE_inj d b (i := i) (j := j) (i' := i') (j' := j')
    have hv := fun {i j i' j' : Nat} => hE_ne_vE d b (i := i) (j := j) (i' := i') (j' := j')
    simp only [mkFace, List.map_cons, List.map_nil, List.nodup_cons, List.mem_cons, List.not_mem_nil, or_false, not_or, List.nodup_nil,
      not_false_eq_true, and_true]
    exact ⟨⟨hv, fun e => by have := hh e; omega, hv⟩, ⟨fun e => hv e.symm, fun e => by have := vv e; omega⟩, hv⟩

include G in
theorem oriented : m.OrientedCells := by
  intro e dir f f' h h'
  obtain ⟨i, j, hi, hj, hf⟩ := G.fo_is f
  obtain ⟨i', j', hi', hj', hf'⟩ := G.fo_is f'
  have m1 : (G.eo e, dir) ∈ (mkFace d b (i, j)).es := by rw [← hf, ← G.es]; exact List.mem_map.mpr ⟨_, h, rfl⟩
  have m2 : (G.eo e, dir) ∈ (mkFace d b (i', j')).es := by rw [← hf', ← G.es]; exact List.mem_map.mpr ⟨_, h', rfl⟩
  have hh := fun {i j i' j' : Nat} => hE_inj d b (i := i) (j := j) (i' := i') (j' := j')
  have vv := fun {i j i' j' : Nat} => vE_inj d b (i := i) (j := j) (i' := i') (j' := j')
  have hv := fun {i j i' j' : Nat} => hE_ne_vE d b (i := i) (j := j) (i' := i') (j' := j')
  have : i = i' ∧ j = j' := by
    simp only [mkFace, List.mem_cons, List.not_mem_nil, or_false, Prod.mk.injEq] at m1 m2
    rcases m1 with ⟨a, rfl⟩ | ⟨a, rfl⟩ | ⟨a, rfl⟩ | ⟨a, rfl⟩ <;> rcases m2 with ⟨c, c'⟩ | ⟨c, c'⟩ | ⟨c, c'⟩ | ⟨c, c'⟩ <;>
    first
    | exact absurd (a.symm.trans c) hv
    | exact absurd (c.symm.trans a) hv
    | (have := hh (a.symm.trans c); simp at c'; omega)
    | (have := vv (a.symm.trans c); simp at c'; omega)
    | (have := hh (a.symm.trans c); omega)
    | (have := vv (a.symm.trans c); omega)
  obtain ⟨rfl, rfl⟩ := this
  exact G.finj (hf.trans hf'.symm)

theorem lookup {α : Type} {n : Nat} {o : Fin n → α} {l : List α} (h : List.ofFn o = l) (i : Fin n) : l[i.1]? = some (o i) := by
  rw [← h, List.getElem?_ofFn]; simp

include G in
theorem holds : Holds2 m (genOf2 d b) where
  counts := ⟨by rw [← G.vlist, List.length_ofFn], by rw [← G.elist, List.length_ofFn], by rw [← G.flist, List.length_ofFn], G.nor⟩
  vtx i := ⟨_, lookup G.vlist i, by rw [G.vgid i], by rw [G.vgid i]⟩
  edge i := ⟨_, lookup G.elist i, by rw [lookup G.vlist, G.v0], by rw [lookup G.vlist, G.v1], (G.egid i).1, (G.egid i).2⟩
  face i := ⟨_, lookup G.flist i, by
    rw [← G.es i, List.map_map]
    exact List.map_congr_left fun p _ => by simp only [Function.comp_apply]; rw [lookup G.elist], (G.fgid i).1, (G.fgid i).2⟩

end Grid2
end
end Jali.MstkGen
