import Verif.Proof.MstkBuild3
/-! Closed surfaces of generated cells; the MSTK mesh is the generated mesh. -/
namespace Jali.MstkGen
open Spec Jali.Mstk

section
variable {K : Type} [Field K] [LinearOrder K] [IsStrictOrderedRing K] {d : Dom K} {b : Blk} {m : MMesh}

theorem sides_FX (hd : GoodDom d) {I J L : Nat} {l : List (Edge K × Bool)} (h : Sides d b (FX d I J L) l) :
    l = [(EY d I J L, true), (EZ d I (J + 1) L, true), (EY d I J (L + 1), false), (EZ d I J L, false)] := by
  generalize hf : FX d I J L = f at h
  have hv := congrArg Face.vs hf
  rcases h with @⟨I', J', L'⟩ | @⟨I', J', L'⟩ | @⟨I', J', L'⟩ <;>
  simp only [FX, FY, FZ, List.cons.injEq, V_iff d hd] at hv
  · have hh : I = I' ∧ J = J' ∧ L = L' := by omega
    obtain ⟨rfl, rfl, rfl⟩ := hh; rfl
  · omega
  · omega

theorem sides_FY (hd : GoodDom d) {I J L : Nat} {l : List (Edge K × Bool)} (h : Sides d b (FY d I J L) l) :
    l = [(EX d I J L, true), (EZ d (I + 1) J L, true), (EX d I J (L + 1), false), (EZ d I J L, false)] := by
  generalize hf : FY d I J L = f at h
  have hv := congrArg Face.vs hf
  rcases h with @⟨I', J', L'⟩ | @⟨I', J', L'⟩ | @⟨I', J', L'⟩ <;>
  simp only [FX, FY, FZ, List.cons.injEq, V_iff d hd] at hv
  · omega
  · have hh : I = I' ∧ J = J' ∧ L = L' := by omega
    obtain ⟨rfl, rfl, rfl⟩ := hh; rfl
  · omega

theorem sides_FZ (hd : GoodDom d) {I J L : Nat} {l : List (Edge K × Bool)} (h : Sides d b (FZ d I J L) l) :
    l = [(EX d I J L, true), (EY d (I + 1) J L, true), (EX d I (J + 1) L, false), (EY d I J L, false)] := by
  generalize hf : FZ d I J L = f at h
  have hv := congrArg Face.vs hf
  rcases h with @⟨I', J', L'⟩ | @⟨I', J', L'⟩ | @⟨I', J', L'⟩ <;>
  simp only [FX, FY, FZ, List.cons.injEq, V_iff d hd] at hv
  · omega
  · omega
  · have hh : I = I' ∧ J = J' ∧ L = L' := by omega
    obtain ⟨rfl, rfl, rfl⟩ := hh; rfl

namespace Grid
variable (G : Grid d b m)

/-- the six faces of a region -/
theorem region_faces (r : Fin m.nr) : ∃ I J L, (b.i0 ≤ I ∧ I < b.i0 + b.nx ∧ b.j0 ≤ J ∧ J < b.j0 + b.ny ∧ b.k0 ≤ L ∧ L < b.k0 + b.nz) ∧
    G.ro r = RG d I J L ∧ ∃ f0 f1 f2 f3 f4 f5, (m.region r).faces =
      [(f0, false), (f1, true), (f2, true), (f3, true), (f4, false), (f5, false)] ∧
      G.fo f0 = FZ d I J L ∧ G.fo f1 = FZ d I J (L + 1) ∧ G.fo f2 = FY d I J L ∧ G.fo f3 = FX d (I + 1) J L ∧
      G.fo f4 = FY d I (J + 1) L ∧ G.fo f5 = FX d I J L := by
  have c := G.cells r
  have h6 := G.six r
  match hl : (m.region r).faces, h6 with
  | [(f0, d0), (f1, d1), (f2, d2), (f3, d3), (f4, d4), (f5, d5)], _ =>
    rw [hl] at c
    simp only [List.map_cons, List.map_nil] at c
    generalize hx : G.ro r = x at c
    generalize hy : [(G.fo f0, d0), (G.fo f1, d1), (G.fo f2, d2), (G.fo f3, d3), (G.fo f4, d4), (G.fo f5, d5)] = y at c
    rcases c with @⟨I, J, L, h1, h2, h3, h4, h5, h6⟩
    simp only [List.cons.injEq, Prod.mk.injEq, and_true] at hy
    obtain ⟨⟨a0, rfl⟩, ⟨a1, rfl⟩, ⟨a2, rfl⟩, ⟨a3, rfl⟩, ⟨a4, rfl⟩, ⟨a5, rfl⟩⟩ := hy
    exact ⟨I, J, L, ⟨h1, h2, h3, h4, h5, h6⟩, rfl, f0, f1, f2, f3, f4, f5, rfl, a0, a1, a2, a3, a4, a5⟩

/-- the uses of the 12 edges of a hexahedron: 0-3 along x, 4-7 along y, 8-11 along z -/
def uses : List (Fin 12 × Bool) :=
  [(0, false), (5, false), (1, true), (4, true)] ++ [(2, true), (7, true), (3, false), (6, false)] ++
  [(0, true), (9, true), (2, false), (8, false)] ++ [(5, true), (11, true), (7, false), (9, false)] ++
  [(1, false), (11, false), (3, true), (10, true)] ++ [(4, false), (10, false), (6, true), (8, true)]

include G in
theorem watertight (hd : GoodDom d) (hb : GoodBlk d b) (r : Fin m.nr) : m.Watertight (m.region r) := by
  obtain ⟨I, J, L, _, _, f0, f1, f2, f3, f4, f5, hl, a0, a1, a2, a3, a4, a5⟩ := G.region_faces r
  have s0 := sides_FZ (b := b) hd (a0 ▸ G.sides f0)
  have s1 := sides_FZ (b := b) hd (a1 ▸ G.sides f1)
  have s2 := sides_FY (b := b) hd (a2 ▸ G.sides f2)
  have s3 := sides_FX (b := b) hd (a3 ▸ G.sides f3)
  have s4 := sides_FY (b := b) hd (a4 ▸ G.sides f4)
  have s5 := sides_FX (b := b) hd (a5 ▸ G.sides f5)
  let E : Fin 12 × Bool → Edge K × Bool := fun p =>
    ((![EX d I J L, EX d I (J + 1) L, EX d I J (L + 1), EX d I (J + 1) (L + 1),
      EY d I J L, EY d (I + 1) J L, EY d I J (L + 1), EY d (I + 1) J (L + 1),
      EZ d I J L, EZ d (I + 1) J L, EZ d I (J + 1) L, EZ d (I + 1) (J + 1) L] : Fin 12 → Edge K) p.1, p.2)
  have hinj : Function.Injective (fun p : Fin m.ne × Bool => (G.eo p.1, p.2)) := by
    rintro ⟨i, x⟩ ⟨j, y⟩ h
    simp only [Prod.mk.injEq] at h
    rw [G.einj hb h.1, h.2]
  have hu : (m.edgeUses (m.region r)).map (fun p => (G.eo p.1, p.2)) = uses.map E := by
    have part : ∀ (f : Fin m.nf) (dir : Bool), ((m.face f).edges.map fun p => (p.1, p.2 == dir)).map (fun p => (G.eo p.1, p.2)) =
        ((m.face f).edges.map fun p => (G.eo p.1, p.2)).map fun p => (p.1, p.2 == dir) := by
      intro f dir
      rw [List.map_map, List.map_map]; rfl
    unfold MMesh.edgeUses
    rw [hl]
    simp only [List.flatMap_cons, List.flatMap_nil, List.map_append, part, s0, s1, s2, s3, s4, s5]
    rfl
  unfold MMesh.Watertight
  rw [← List.map_perm_map_iff hinj]
  have hswap : ((m.edgeUses (m.region r)).map fun u => (u.1, !u.2)).map (fun p => (G.eo p.1, p.2)) =
      (uses.map fun u => (u.1, !u.2)).map E := by
    have : ((m.edgeUses (m.region r)).map fun u => (u.1, !u.2)).map (fun p => (G.eo p.1, p.2)) =
        ((m.edgeUses (m.region r)).map (fun p => (G.eo p.1, p.2))).map fun u => (u.1, !u.2) := by
      rw [List.map_map, List.map_map]; rfl
    rw [this, hu, List.map_map, List.map_map]; rfl
  rw [hswap, hu]
  exact List.Perm.map E (by decide)

theorem lookup {α : Type} {n : Nat} {o : Fin n → α} {l : List α} (h : List.ofFn o = l) (i : Fin n) : l[i.1]? = some (o i) := by
  rw [← h, List.getElem?_ofFn]; simp

include G in
theorem holds : Holds m (genOf d b) where
  counts := by
    rw [← G.vlist, ← G.elist, ← G.flist, ← G.rlist]
    simp only [List.length_ofFn, and_self]
  vtx i := ⟨G.vo i, lookup G.vlist i, by rw [G.vgid], by rw [G.vgid]⟩
  edge i := ⟨G.eo i, lookup G.elist i, by rw [lookup G.vlist, G.v0], by rw [lookup G.vlist, G.v1], (G.egid i).1, (G.egid i).2⟩
  face i := by
    refine ⟨G.fo i, lookup G.flist i, ?_, (G.fgid i).1, (G.fgid i).2⟩
    rw [← G.starts]
    conv_rhs => rw [List.map_map]
    exact List.map_congr_left fun v _ => lookup G.vlist v
  region i := by
    obtain ⟨I, J, L, _, hr, f0, f1, f2, f3, f4, f5, hl, a0, a1, a2, a3, a4, a5⟩ := G.region_faces i
    have hs : ∀ q : Fin m.nf × Bool, ((seen m q).map fun v => (genOf d b).verts[v.1]?) =
        (if q.2 then (G.fo q.1).vs else (G.fo q.1).vs.reverse).map some := by
      intro q
      have : ((seen m q).map fun v => (genOf d b).verts[v.1]?) = ((seen m q).map G.vo).map some := by
        rw [List.map_map]
        exact List.map_congr_left fun v _ => lookup G.vlist v
      rw [this]
      unfold seen
      split
      · rw [G.starts]
      · rw [List.map_reverse, G.starts]
    refine ⟨G.ro i, lookup G.rlist i, (G.rgid i).1, (G.rgid i).2, G.six i, by rw [hr]; rfl, ?_⟩
    intro t ht
    simp only [outside, List.mem_cons, List.not_mem_nil, or_false] at ht
    rw [hl, hr]
    rcases ht with rfl | rfl | rfl | rfl | rfl | rfl
    · exact ⟨(f0, false), by simp, 0, by rw [hs]; simp [a0, FZ, RG]⟩
    · exact ⟨(f1, true), by simp, 0, by rw [hs]; simp [a1, FZ, RG]⟩
    · exact ⟨(f2, true), by simp, 0, by rw [hs]; simp [a2, FY, RG]⟩
    · exact ⟨(f3, true), by simp, 0, by rw [hs]; simp [a3, FX, RG]⟩
    · exact ⟨(f4, false), by simp, 2, by rw [hs]; simp [a4, FY, RG]⟩
    · exact ⟨(f5, false), by simp, 2, by rw [hs]; simp [a5, FX, RG]⟩

end Grid
end
end Jali.MstkGen
