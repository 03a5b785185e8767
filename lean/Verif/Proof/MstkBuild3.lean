import Verif.Proof.MstkBuild2
import Verif.Spec.MstkBuild
/-! The MSTK mesh of a generated mesh, with the entities on the grid. -/
namespace Jali.MstkGen
open Spec Jali.Mstk

section
variable {K : Type} [Field K] [LinearOrder K] [IsStrictOrderedRing K]

/-- the entities of the MSTK mesh as entities on the grid -/
structure Grid (d : Dom K) (b : Blk) (m : MMesh) where
  vo : Fin m.nv → Vert K
  eo : Fin m.ne → Edge K
  fo : Fin m.nf → Face K
  ro : Fin m.nr → Region K
  vlist : List.ofFn vo = (genOf d b).verts
  elist : List.ofFn eo = (genOf d b).edges
  flist : List.ofFn fo = (genOf d b).faces
  rlist : List.ofFn ro = (genOf d b).regions
  v0 : ∀ i, vo (m.edge i).v0 = (eo i).v0
  v1 : ∀ i, vo (m.edge i).v1 = (eo i).v1
  sides : ∀ i, Sides d b (fo i) ((m.face i).edges.map fun p => (eo p.1, p.2))
  cells : ∀ i, Cells d b (ro i) ((m.region i).faces.map fun p => (fo p.1, p.2))
  vgid : ∀ i, m.vtx i = ⟨.interior, (vo i).id⟩
  egid : ∀ i, (m.edge i).gid = (eo i).id ∧ (m.edge i).ptype = .interior
  fgid : ∀ i, (m.face i).gid = (fo i).id ∧ (m.face i).ptype = .interior
  rgid : ∀ i, (m.region i).gid = (ro i).id ∧ (m.region i).ptype = .interior

theorem build_grid (d : Dom K) (hd : GoodDom d) (b : Blk) (hb : GoodBlk d b) :
    ∃ m, build (genOf d b) = some m ∧ Nonempty (Grid d b m) := by
  obtain ⟨es, hes, eo, H⟩ := edges_built d hd b hb
  obtain ⟨fs, hfs, fo, hfo, HF⟩ := faces_built d hd b hb H
  obtain ⟨rs, hrs, ro, hro, HR⟩ := mapM_rel (f := putRegion (genOf d b).verts es fs) (genOf d b).regions
    (fun r hr => region_put hd hb H hfo (fun i => (HF i).1) hr)
  refine ⟨_, by simp [build, hes, hfs, hrs]; rfl, ⟨{
    vo := (genOf d b).verts.get, eo := eo, fo := fo, ro := ro
    vlist := List.ofFn_get _, elist := H.list, flist := hfo, rlist := hro
    v0 := H.v0, v1 := H.v1, sides := fun i => (HF i).1, cells := fun i => (HR i).1
    vgid := fun _ => rfl, egid := fun i => ⟨H.id i, H.own i⟩, fgid := fun i => (HF i).2, rgid := fun i => (HR i).2 }⟩⟩

variable {d : Dom K} {b : Blk} {m : MMesh}

namespace Grid
variable (G : Grid d b m)

theorem vinj (hb : GoodBlk d b) : Function.Injective G.vo := ofFn_inj G.vlist (verts_id_nodup d b hb.iy hb.iz).1
theorem einj (hb : GoodBlk d b) : Function.Injective G.eo := ofFn_inj G.elist (edges_id_nodup d b hb.iy hb.iz).1
theorem finj (hb : GoodBlk d b) : Function.Injective G.fo := ofFn_inj G.flist (faces_id_nodup d b hb.iy hb.iz).1
theorem rinj (hb : GoodBlk d b) : Function.Injective G.ro := ofFn_inj G.rlist (regions_id_nodup d b hb.iy hb.iz).1

theorem start (p : Fin m.ne × Bool) : G.vo (m.start p) = st (G.eo p.1, p.2) := by
  rcases p with ⟨i, _ | _⟩
  · exact G.v1 i
  · exact G.v0 i
theorem finish (p : Fin m.ne × Bool) : G.vo (m.finish p) = fi (G.eo p.1, p.2) := by
  rcases p with ⟨i, _ | _⟩
  · exact G.v0 i
  · exact G.v1 i

theorem starts (f : Fin m.nf) : ((m.face f).edges.map m.start).map G.vo = (G.fo f).vs := by
  rw [← (sides_walk (G.sides f)).1, List.map_map, List.map_map]
  exact List.map_congr_left fun p _ => G.start p
theorem finishes (f : Fin m.nf) : ((m.face f).edges.map m.finish).map G.vo = (G.fo f).vs.rotate 1 := by
  rw [← (sides_walk (G.sides f)).2.1, List.map_map, List.map_map]
  exact List.map_congr_left fun p _ => G.finish p

theorem eo_mem (i : Fin m.ne) : G.eo i ∈ (genOf d b).edges := by rw [← G.elist]; exact List.mem_ofFn.mpr ⟨i, rfl⟩

theorem face_nodup (hd : GoodDom d) (f : Fin m.nf) : (G.fo f).vs.Nodup := by
  have := G.sides f
  generalize ((m.face f).edges.map fun p => (G.eo p.1, p.2)) = l at this
  generalize G.fo f = x at this ⊢
  rcases this with @⟨I, J, L⟩ | @⟨I, J, L⟩ | @⟨I, J, L⟩ <;> simp [FX, FY, FZ, V_iff d hd]

include G in
theorem polygons (hd : GoodDom d) (hb : GoodBlk d b) : m.Polygons where
  ends e h := ((edges_unique d hd b) _ (G.eo_mem e)).1 (by rw [← G.v0, ← G.v1, h])
  closed f := by
    refine (List.map_injective_iff.mpr (G.vinj hb)) ?_
    rw [G.finishes, List.map_rotate, G.starts]
  simple f := by
    have := G.face_nodup hd f
    rw [← G.starts] at this
    exact List.Nodup.of_map _ this
  noedge f := by
    have := G.sides f
    have h2 : (((m.face f).edges.map Prod.fst).map G.eo) = ((m.face f).edges.map fun p => (G.eo p.1, p.2)).map Prod.fst := by
      rw [List.map_map, List.map_map]; rfl
    refine List.Nodup.of_map G.eo ?_
    rw [h2]
    generalize ((m.face f).edges.map fun p => (G.eo p.1, p.2)) = l at this
    generalize G.fo f = x at this
    rcases this with @⟨I, J, L⟩ | @⟨I, J, L⟩ | @⟨I, J, L⟩ <;> simp [EX, EY, EZ, V_iff d hd]

include G in
theorem four (f : Fin m.nf) : (m.face f).edges.length = 4 := by
  have := G.sides f
  have h2 : (m.face f).edges.length = ((m.face f).edges.map fun p => (G.eo p.1, p.2)).length := by rw [List.length_map]
  rw [h2]
  generalize ((m.face f).edges.map fun p => (G.eo p.1, p.2)) = l at this
  generalize G.fo f = x at this
  rcases this with @⟨I, J, L⟩ | @⟨I, J, L⟩ | @⟨I, J, L⟩ <;> rfl

include G in
theorem six (r : Fin m.nr) : (m.region r).faces.length = 6 := by
  have := G.cells r
  have h2 : (m.region r).faces.length = ((m.region r).faces.map fun p => (G.fo p.1, p.2)).length := by rw [List.length_map]
  rw [h2]
  generalize ((m.region r).faces.map fun p => (G.fo p.1, p.2)) = l at this
  generalize G.ro r = x at this
  rcases this with @⟨I, J, L⟩
  rfl

include G in
theorem regions (hd : GoodDom d) (hb : GoodBlk d b) : m.Regions where
  noface r := by
    have := G.cells r
    have h2 : (((m.region r).faces.map Prod.fst).map G.fo) = ((m.region r).faces.map fun p => (G.fo p.1, p.2)).map Prod.fst := by
      rw [List.map_map, List.map_map]; rfl
    refine List.Nodup.of_map G.fo ?_
    rw [h2]
    generalize ((m.region r).faces.map fun p => (G.fo p.1, p.2)) = l at this
    generalize G.ro r = x at this
    rcases this with @⟨I, J, L⟩
    simp [FX, FY, FZ, V_iff d hd]
  sides f dir r r' h h' := by
    refine G.rinj hb ?_
    have c := G.cells r
    have c' := G.cells r'
    have h1 : (G.fo f, dir) ∈ (m.region r).faces.map fun p => (G.fo p.1, p.2) := List.mem_map.mpr ⟨_, h, rfl⟩
    have h2 : (G.fo f, dir) ∈ (m.region r').faces.map fun p => (G.fo p.1, p.2) := List.mem_map.mpr ⟨_, h', rfl⟩
    generalize ((m.region r).faces.map fun p => (G.fo p.1, p.2)) = l at c h1
    generalize ((m.region r').faces.map fun p => (G.fo p.1, p.2)) = l' at c' h2
    generalize G.ro r = x at c ⊢
    generalize G.ro r' = x' at c' ⊢
    generalize G.fo f = y at h1 h2
    rcases c with @⟨I, J, L⟩
    rcases c' with @⟨I', J', L'⟩
    have key : I = I' ∧ J = J' ∧ L = L' := by
      simp only [List.mem_cons, Prod.mk.injEq, List.not_mem_nil, or_false] at h1 h2
      rcases h1 with ⟨rfl, rfl⟩ | ⟨rfl, rfl⟩ | ⟨rfl, rfl⟩ | ⟨rfl, rfl⟩ | ⟨rfl, rfl⟩ | ⟨rfl, rfl⟩ <;>
      rcases h2 with ⟨h2, h3⟩ | ⟨h2, h3⟩ | ⟨h2, h3⟩ | ⟨h2, h3⟩ | ⟨h2, h3⟩ | ⟨h2, h3⟩ <;>
      first
        | exact absurd h3 (by decide)
        | (have h4 := congrArg Face.vs h2
           simp only [FX, FY, FZ, List.cons.injEq, V_iff d hd] at h4
           omega)
    obtain ⟨rfl, rfl, rfl⟩ := key
    rfl

end Grid
end
end Jali.MstkGen
