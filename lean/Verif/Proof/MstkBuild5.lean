import Verif.Proof.MstkBuild4
import Verif.Props.MstkGeometry
import Mathlib.Tactic.FieldSimp
/-! Volumes and normals of generated meshes. -/
namespace Jali.Mstk

theorem all_owned {n : Nat} {pt : Fin n → PType} (h : ∀ i, pt i = .interior) :
    ownedList pt = List.finRange n ∧ ghostList pt = [] := by
  constructor
  · unfold ownedList; exact List.filter_eq_self.mpr fun i _ => by simp [h i]
  · unfold ghostList; exact List.filter_eq_nil_iff.mpr fun i _ => by simp [h i]

theorem numbered_range_at {n : Nat} {im : IdMap n} (h : Numbered im (List.finRange n)) (i : Fin n) : im.at i.1 = some i := by
  rw [h.at_eq]; simp

theorem rmap_plain (m : MMesh) (h : ∀ i, (m.region i).ptype = .interior) (i : Fin m.nr) : (m.rmap false).at i.1 = some i := by
  have N := m.rnum false
  have e1 : ownedCells false (fun i => (m.region i).ptype) (fun i => (m.region i).bndryGhost) = List.finRange m.nr := by
    unfold ownedCells; exact List.filter_eq_self.mpr fun i _ => by simp [h i]
  have e2 : bndryCells false (fun i => (m.region i).ptype) (fun i => (m.region i).bndryGhost) = [] := by
    unfold bndryCells; exact List.filter_eq_nil_iff.mpr fun i _ => by simp
  rw [e1, e2, (all_owned h).2, List.append_nil, List.append_nil] at N
  exact numbered_range_at N i

theorem fmap_plain (m : MMesh) (h : ∀ i, (m.face i).ptype = .interior) (i : Fin m.nf) : m.fmap.at i.1 = some i := by
  have N := m.fnum
  rw [(all_owned h).1, (all_owned h).2, List.append_nil] at N
  exact numbered_range_at N i

end Jali.Mstk

namespace Jali.MstkGen
open Spec Jali.Mstk Jali.Geom Jali.Geom.Point Jali.Geom.Spec Jali.MeshGeom

/-- position of a generated vertex -/
noncomputable def pt (v : Vert ℝ) : Point := mk3 v.x v.y v.z

variable {d : Dom ℝ} {b : Blk} {s : Source ℝ} {r : MeshCache.Request}

theorem place_pt (G : Grid d b s.j.m) (hp : Placed s (genOf d b)) (h3 : s.spaceDim = 3) (v : Fin s.j.m.nv) :
    s.place v = pt (G.vo v) := by
  obtain ⟨w, hw, hx⟩ := hp v
  rw [Grid.lookup G.vlist] at hw
  cases hw
  unfold Source.place pt
  rw [if_pos h3, hx]

theorem outward_pt (G : Grid d b s.j.m) (hp : Placed s (genOf d b)) (h3 : s.spaceDim = 3) (q : Fin s.j.m.nf × Bool) :
    s.outward q = if q.2 then (G.fo q.1).vs.map pt else ((G.fo q.1).vs.map pt).reverse := by
  have : s.corners q.1 = (G.fo q.1).vs.map pt := by
    unfold Source.corners
    rw [← G.starts]
    conv_rhs => rw [List.map_map]
    exact List.map_congr_left fun v _ => place_pt G hp h3 v
  unfold Source.outward
  rw [this]

/-- the vertices of a region -/
theorem verts_perm {m : MMesh} (hd : GoodDom d) (hb : GoodBlk d b) (G : Grid d b m) (rg : Fin m.nr) :
    ((m.mrVertices (m.region rg)).map G.vo).Perm (G.ro rg).vs := by
  obtain ⟨I, J, L, _, hr, f0, f1, f2, f3, f4, f5, hl, a0, a1, a2, a3, a4, a5⟩ := G.region_faces rg
  have hn : ((m.mrVertices (m.region rg)).map G.vo).Nodup := (List.nodup_dedup _).map (G.vinj hb)
  have hn' : (G.ro rg).vs.Nodup := by rw [hr]; simp [RG, V_iff d hd]
  rw [List.perm_ext_iff_of_nodup hn hn']
  intro v
  have hmem : v ∈ (m.mrVertices (m.region rg)).map G.vo ↔ ∃ q ∈ (m.region rg).faces, v ∈ (G.fo q.1).vs := by
    unfold MMesh.mrVertices
    simp only [List.mem_map, List.mem_dedup, List.mem_flatMap]
    constructor
    · rintro ⟨u, ⟨q, hq, hu⟩, rfl⟩
      refine ⟨q, hq, ?_⟩
      rw [mfVertices_true] at hu
      rw [← G.starts]
      exact List.mem_map_of_mem hu
    · rintro ⟨q, hq, hv⟩
      rw [← G.starts] at hv
      obtain ⟨u, hu, rfl⟩ := List.mem_map.mp hv
      exact ⟨u, ⟨q, hq, by rw [mfVertices_true]; exact hu⟩, rfl⟩
  rw [hmem, hl, hr]
  simp only [List.mem_cons, List.not_mem_nil, or_false, exists_eq_or_imp, exists_eq_left, a0, a1, a2, a3, a4, a5, FX, FY, FZ, RG]
  generalize V d I J L = w0
  generalize V d (I + 1) J L = w1
  generalize V d (I + 1) (J + 1) L = w2
  generalize V d I (J + 1) L = w3
  generalize V d I J (L + 1) = w4
  generalize V d (I + 1) J (L + 1) = w5
  generalize V d (I + 1) (J + 1) (L + 1) = w6
  generalize V d I (J + 1) (L + 1) = w7
  constructor
  · rintro ((h | h | h | h) | (h | h | h | h) | (h | h | h | h) | (h | h | h | h) | (h | h | h | h) | (h | h | h | h)) <;> simp [h]
  · rintro (h | h | h | h | h | h | h | h) <;> simp [h]

/-- the corners of a region -/
theorem coords_perm (hd : GoodDom d) (hb : GoodBlk d b) (G : Grid d b s.j.m) (hp : Placed s (genOf d b)) (h3 : s.spaceDim = 3)
    (rg : Fin s.j.m.nr) : ((s.j.m.mrVertices (s.j.m.region rg)).map s.place).Perm ((G.ro rg).vs.map pt) := by
  have e : (s.j.m.mrVertices (s.j.m.region rg)).map s.place = ((s.j.m.mrVertices (s.j.m.region rg)).map G.vo).map pt := by
    rw [List.map_map]
    exact List.map_congr_left fun v _ => place_pt G hp h3 v
  rw [e]
  exact (verts_perm hd hb G rg).map pt

end Jali.MstkGen
