import Verif.Spec.SameMesh
import Verif.Props.SimpleGeometry
import Verif.Props.MstkBuildGeom
/-
C157: the regular mesh of MSTK and the structured mesh of Mesh_simple for the same box and numbers of cells are the same mesh.
-/
namespace Jali.MstkGen
open Spec Jali.Mstk Jali.Geom Jali.Geom.Point Jali.Geom.Spec Jali.MeshGeom Jali.MeshGeom.Spec

/-- the arguments of the constructor of regular meshes, for the same box and the same numbers of cells -/
noncomputable def domOf (dd : Simple.Dims) (bx : Simple.Box) : Dom ℝ :=
  ⟨bx.x0, bx.y0, bx.z0, bx.x1, bx.y1, bx.z1, dd.nx, dd.ny, dd.nz⟩

/-- the whole mesh on one rank -/
def wholeBlk (dd : Simple.Dims) : Blk := ⟨0, 0, 0, dd.nx, dd.ny, dd.nz⟩

/-- a run on one rank generates the whole mesh -/
theorem serial_whole (dd : Simple.Dims) (bx : Simple.Box) : generateSerial (domOf dd bx) = generate (domOf dd bx) (wholeBlk dd) := by
  unfold generateSerial generate
  have : fillBlk (domOf dd bx) ⟨0, 0, 0, 0, 0, 0⟩ = fillBlk (domOf dd bx) (wholeBlk dd) := by
    simp only [fillBlk, domOf, wholeBlk, if_true, Blk.mk.injEq, true_and]
    exact ⟨(ite_self _).symm, (ite_self _).symm, (ite_self _).symm⟩
  rw [this]

variable {dd : Simple.Dims} {bx : Simple.Box}

theorem goodDomOf (h : SimpleGeom.Proper dd bx) : GoodDom (domOf dd bx) :=
  ⟨Rat.cast_lt.2 h.x, Rat.cast_lt.2 h.y, Rat.cast_lt.2 h.z, h.nx, h.ny, h.nz⟩

theorem goodWhole (h : SimpleGeom.Proper dd bx) : GoodBlk (domOf dd bx) (wholeBlk dd) :=
  ⟨h.nx, h.ny, h.nz, by simp [domOf, wholeBlk], by simp [domOf, wholeBlk], by simp [domOf, wholeBlk]⟩

theorem gx_same (i : Nat) : gx (domOf dd bx) i = SimpleGeom.gx dd bx i := by
  simp only [gx, gridPt, domOf, SimpleGeom.gx, SimpleGeom.hx]; ring
theorem gy_same (i : Nat) : gy (domOf dd bx) i = SimpleGeom.gy dd bx i := by
  simp only [gy, gridPt, domOf, SimpleGeom.gy, SimpleGeom.hy]; ring
theorem gz_same (i : Nat) : gz (domOf dd bx) i = SimpleGeom.gz dd bx i := by
  simp only [gz, gridPt, domOf, SimpleGeom.gz, SimpleGeom.hz]; ring

/-- the element of a list of lists of equal lengths -/
theorem getElem_flatMap_range {α : Type*} {f : Nat → List α} {n : Nat} (hl : ∀ a, (f a).length = n) :
    ∀ (A a c : Nat), a < A → c < n → ((List.range A).flatMap f)[a * n + c]? = (f a)[c]?
  | 0, _, _, h, _ => absurd h (Nat.not_lt_zero _)
  | A + 1, a, c, ha, hc => by
    have hlen : ((List.range A).flatMap f).length = A * n := by
      simp [List.length_flatMap, hl]
    rw [List.range_succ, List.flatMap_append, List.flatMap_singleton]
    by_cases h : a < A
    · have : a * n + c < A * n := by nlinarith
      rw [List.getElem?_append_left (by omega)]
      exact getElem_flatMap_range hl A a c h hc
    · have : a = A := by omega
      subst this
      rw [List.getElem?_append_right (by omega), hlen, Nat.add_sub_cancel_left]

/-- where the triple loop visits (a, b, c) -/
theorem loopIdx_get {na nb nc a b c : Nat} (ha : a < na) (hb : b < nb) (hc : c < nc) :
    (loopIdx na nb nc)[(a * nb + b) * nc + c]? = some (a, b, c) := by
  unfold loopIdx
  have e : (a * nb + b) * nc + c = a * (nb * nc) + (b * nc + c) := by ring
  have hlt : b * nc + c < nb * nc := by nlinarith
  rw [e, getElem_flatMap_range (n := nb * nc) (by intro a; simp) na a _ ha hlt,
    getElem_flatMap_range (n := nc) (by intro b; simp) nb b c hb hc]
  simp [hc]

/-- the generated face at a position -/
noncomputable def faceAt (d : Dom ℝ) : Simple.Spec.FacePos → Face ℝ
  | ⟨.yz, p⟩ => FX d p.i p.j p.k
  | ⟨.xz, p⟩ => FY d p.i p.j p.k
  | ⟨.xy, p⟩ => FZ d p.i p.j p.k

noncomputable def cellAt (d : Dom ℝ) (p : Simple.Spec.Pos) : Region ℝ := RG d p.i p.j p.k

theorem cellAt_inj {d : Dom ℝ} (hd : GoodDom d) {p q : Simple.Spec.Pos} (h : cellAt d p = cellAt d q) : p = q := by
  have := congrArg Region.vs h
  simp only [cellAt, RG, List.cons.injEq, V_iff d hd] at this
  obtain ⟨i, j, k⟩ := p
  obtain ⟨i', j', k'⟩ := q
  simp only at this
  obtain ⟨⟨rfl, rfl, rfl⟩, _⟩ := this
  rfl

theorem faceAt_inj {d : Dom ℝ} (hd : GoodDom d) {p q : Simple.Spec.FacePos} (h : faceAt d p = faceAt d q) : p = q := by
  have := congrArg Face.vs h
  obtain ⟨o, i, j, k⟩ := p
  obtain ⟨o', i', j', k'⟩ := q
  cases o <;> cases o' <;> simp only [faceAt, FX, FY, FZ, List.cons.injEq, V_iff d hd] at this <;>
    first
      | (exfalso; omega)
      | (obtain ⟨⟨rfl, rfl, rfl⟩, _⟩ := this; rfl)

theorem faceAt_points (hd : GoodDom (domOf dd bx)) (f : Simple.Spec.FacePos) : (faceAt (domOf dd bx) f).vs.map pt =
    (Simple.faceCorners f).map fun p => mk3 (SimpleGeom.gx dd bx p.i) (SimpleGeom.gy dd bx p.j) (SimpleGeom.gz dd bx p.k) := by
  obtain ⟨o, i, j, k⟩ := f
  cases o <;> simp only [faceAt, FX, FY, FZ, Simple.faceCorners, List.map_cons, List.map_nil, pt_V hd, gx_same, gy_same, gz_same]

section
variable {m : MMesh} (G : Grid (domOf dd bx) (wholeBlk dd) m)

theorem cell_pos : ∃ pc : Fin m.nr → Simple.Spec.Pos, ∀ r, Simple.CellIn dd (pc r) ∧ G.ro r = cellAt (domOf dd bx) (pc r) := by
  have : ∀ r, ∃ p : Simple.Spec.Pos, Simple.CellIn dd p ∧ G.ro r = cellAt (domOf dd bx) p := by
    intro r
    obtain ⟨I, J, L, hr, _, h2, _, h4, _, h6⟩ := G.ro_is r
    simp only [wholeBlk, Nat.zero_add] at h2 h4 h6
    exact ⟨⟨I, J, L⟩, ⟨h2, h4, h6⟩, hr⟩
  choose pc h using this
  exact ⟨pc, h⟩

theorem face_pos : ∃ pf : Fin m.nf → Simple.Spec.FacePos, ∀ f, Simple.FaceIn dd (pf f) ∧ G.fo f = faceAt (domOf dd bx) (pf f) := by
  have : ∀ f, ∃ p : Simple.Spec.FacePos, Simple.FaceIn dd p ∧ G.fo f = faceAt (domOf dd bx) p := by
    intro f
    have hF := G.fo_is f
    generalize G.fo f = x at hF
    rcases hF with @⟨I, J, L, _, h2, _, h4, _, h6⟩ | @⟨I, J, L, _, h2, _, h4, _, h6⟩ | @⟨I, J, L, _, h2, _, h4, _, h6⟩ <;>
      simp only [wholeBlk, Nat.zero_add] at h2 h4 h6
    · exact ⟨⟨.yz, ⟨I, J, L⟩⟩, ⟨h2, h4, h6⟩, rfl⟩
    · exact ⟨⟨.xz, ⟨I, J, L⟩⟩, ⟨h2, h4, h6⟩, rfl⟩
    · exact ⟨⟨.xy, ⟨I, J, L⟩⟩, ⟨h2, h4, h6⟩, rfl⟩
  choose pf h using this
  exact ⟨pf, h⟩

theorem face_there {f : Simple.Spec.FacePos} (hf : Simple.FaceIn dd f) : ∃ fh, G.fo fh = faceAt (domOf dd bx) f := by
  have : faceAt (domOf dd bx) f ∈ (genOf (domOf dd bx) (wholeBlk dd)).faces := by
    rw [mem_faces]
    obtain ⟨o, p⟩ := f
    cases o
    · obtain ⟨h1, h2, h3⟩ : p.In dd.nx dd.ny (dd.nz + 1) := hf
      exact .z (Nat.zero_le _) (by simpa [wholeBlk] using h1) (Nat.zero_le _) (by simpa [wholeBlk] using h2) (Nat.zero_le _)
        (by simpa [wholeBlk] using h3)
    · obtain ⟨h1, h2, h3⟩ : p.In dd.nx (dd.ny + 1) dd.nz := hf
      exact .y (Nat.zero_le _) (by simpa [wholeBlk] using h1) (Nat.zero_le _) (by simpa [wholeBlk] using h2) (Nat.zero_le _)
        (by simpa [wholeBlk] using h3)
    · obtain ⟨h1, h2, h3⟩ : p.In (dd.nx + 1) dd.ny dd.nz := hf
      exact .x (Nat.zero_le _) (by simpa [wholeBlk] using h1) (Nat.zero_le _) (by simpa [wholeBlk] using h2) (Nat.zero_le _)
        (by simpa [wholeBlk] using h3)
  rw [← G.flist] at this
  exact List.mem_ofFn.mp this

theorem cell_there {p : Simple.Spec.Pos} (hp : Simple.CellIn dd p) : ∃ r, G.ro r = cellAt (domOf dd bx) p := by
  obtain ⟨h1, h2, h3⟩ := hp
  exact G.region_at (Nat.zero_le _) (by simpa [wholeBlk] using h1) (Nat.zero_le _) (by simpa [wholeBlk] using h2) (Nat.zero_le _)
    (by simpa [wholeBlk] using h3)

include G in
theorem same_counts : m.nr = Simple.numCells dd ∧ m.nf = Simple.numFaces dd := by
  have h1 := congrArg List.length G.rlist
  have h2 := congrArg List.length G.flist
  rw [List.length_ofFn] at h1 h2
  rw [h1, h2]
  constructor
  · show ((loopIdx dd.nx dd.ny dd.nz).map (shifted (wholeBlk dd) (RG _))).length = _
    rw [List.length_map]
    simp [loopIdx, Simple.numCells, Nat.mul_assoc]
  · show ((loopIdx (dd.nx + 1) dd.ny dd.nz).map _ ++ (loopIdx dd.nx (dd.ny + 1) dd.nz).map _ ++
      (loopIdx dd.nx dd.ny (dd.nz + 1)).map _).length = _
    rw [List.length_append, List.length_append, List.length_map, List.length_map, List.length_map]
    simp [loopIdx, Simple.numFaces]
    ring
end

/-- which cell is at a position -/
theorem cell_number {m : MMesh} (G : Grid (domOf dd bx) (wholeBlk dd) m) {p : Simple.Spec.Pos} (hp : Simple.CellIn dd p) :
    ∃ h : (p.i * dd.ny + p.j) * dd.nz + p.k < m.nr, G.ro ⟨_, h⟩ = cellAt (domOf dd bx) p := by
  have e : (List.ofFn G.ro)[(p.i * dd.ny + p.j) * dd.nz + p.k]? = some (cellAt (domOf dd bx) p) := by
    rw [G.rlist]
    show ((loopIdx dd.nx dd.ny dd.nz).map (shifted (wholeBlk dd) (RG _)))[_]? = _
    rw [List.getElem?_map, loopIdx_get hp.1 hp.2.1 hp.2.2]
    simp [shifted, wholeBlk, cellAt]
  obtain ⟨h, e⟩ := List.getElem?_eq_some_iff.mp e
  rw [List.length_ofFn] at h
  exact ⟨h, by simpa using e⟩
variable {s : Source ℝ} {g : RegMesh ℝ} {r : MeshCache.Request}

/-- the cells of a face of the structured mesh -/
theorem simple_face_cells {f : Simple.Spec.FacePos} (hf : Simple.FaceIn dd f) :
    ((SimpleGeom.simpleMesh dd bx).faceCells (Simple.faceIdx dd f)).Nodup ∧
    ∀ k, k ∈ (SimpleGeom.simpleMesh dd bx).faceCells (Simple.faceIdx dd f) ↔
      ∃ p, Simple.CellIn dd p ∧ f ∈ Simple.cellFaces p ∧ k = Simple.cellIdx dd p := by
  have hin : ∀ q ∈ (Simple.faceCellAt dd f 0).toList ++ (Simple.faceCellAt dd f 1).toList, Simple.CellIn dd q := by
    intro q hq
    simp only [List.mem_append, Option.mem_toList, Option.mem_def] at hq
    rcases hq with h | h <;> exact Simple.faceCellAt_in dd hf h
  have e : (SimpleGeom.simpleMesh dd bx).faceCells (Simple.faceIdx dd f) =
      ((Simple.faceCellAt dd f 0).toList ++ (Simple.faceCellAt dd f 1).toList).map (Simple.cellIdx dd) := by
    show (Simple.faceGetCells dd (Simple.faceIdx dd f)).map Int.toNat = _
    rw [Simple.faceGetCells_eq dd hf, List.map_map]
    rfl
  rw [e]
  constructor
  · refine Simple.map_nodup_on ?_ ?_
    · obtain ⟨o, ⟨i, j, k⟩⟩ := f
      cases o <;> simp only [Simple.faceCellAt] <;> split <;> split <;> simp <;> omega
    · intro a ha b hb h
      exact Simple.cellIdx_inj dd (hin a ha) (hin b hb) h
  · intro k
    rw [List.mem_map]
    constructor
    · rintro ⟨p, hp, rfl⟩
      exact ⟨p, hin p hp, (Simple.mem_cells_iff dd (hin p hp) hf).1 hp, rfl⟩
    · rintro ⟨p, hp, hm, rfl⟩
      exact ⟨p, (Simple.mem_cells_iff dd hp hf).2 hm, rfl⟩

theorem simple_listed {f : Simple.Spec.FacePos} (hf : Simple.FaceIn dd f) : Listed (SimpleGeom.simpleMesh dd bx) (Simple.faceIdx dd f) := by
  intro c hc
  obtain ⟨p, hp, hm, rfl⟩ := ((simple_face_cells (bx := bx) hf).2 c).1 hc
  obtain ⟨fd, hfd, e⟩ : ∃ fd ∈ (SimpleGeom.simpleMesh dd bx).cellFaces (Simple.cellIdx dd p), fd.1 = Simple.faceIdx dd f := by
    have h1 : Simple.faceIdx dd f ∈ ((SimpleGeom.simpleMesh dd bx).cellFaces (Simple.cellIdx dd p)).map Prod.fst := by
      rw [SimpleGeom.cellFaces_eq dd bx hp, List.map_fst_zip (by simp [Simple.cellFaces, Simple.dirs])]
      exact List.mem_map_of_mem hm
    obtain ⟨fd, h2, h3⟩ := List.mem_map.mp h1
    exact ⟨fd, h2, h3⟩
  have := ((SimpleGeom.simple_goodCell (b := bx) hp).face fd hfd).2.1 (Simple.cellIdx dd p) (e ▸ hc)
  rw [e] at this
  exact this

theorem faceAt_para (hd : GoodDom (domOf dd bx)) (f : Simple.Spec.FacePos) :
    ∃ cx cy cz n, 0 < n ∧ IsPara cx cy cz n ((faceAt (domOf dd bx) f).vs.map pt) := by
  obtain ⟨o, I, J, L⟩ := f
  have px : gx (domOf dd bx) I < gx (domOf dd bx) (I + 1) := gridPt_lt hd.x hd.nx (Nat.lt_succ_self I)
  have py : gy (domOf dd bx) J < gy (domOf dd bx) (J + 1) := gridPt_lt hd.y hd.ny (Nat.lt_succ_self J)
  have pz : gz (domOf dd bx) L < gz (domOf dd bx) (L + 1) := gridPt_lt hd.z hd.nz (Nat.lt_succ_self L)
  cases o <;> simp only [faceAt, FX, FY, FZ, List.map_cons, List.map_nil, pt_V hd]
  · exact ⟨_, _, _, _, by have := mul_pos (sub_pos.2 px) (sub_pos.2 py); linarith, rect_z _ _ _ _ _ px py⟩
  · exact ⟨_, _, _, _, by have := mul_pos (sub_pos.2 px) (sub_pos.2 pz); linarith, rect_y _ _ _ _ _ px pz⟩
  · exact ⟨_, _, _, _, by have := mul_pos (sub_pos.2 py) (sub_pos.2 pz); linarith, rect_x _ _ _ _ _ py pz⟩

theorem gmesh_faceCells_nodup (h : s.Solid r) {f : Nat} (hf : f < s.j.m.nf) : (s.gmesh.faceCells f).Nodup := by
  obtain ⟨P, _⟩ := face_get_cells_of_mesh3 s.j r h.made h.faces h.regions f hf
  obtain ⟨l, hl, hn, _, hnn⟩ := P.answers .ALL
  have hl' : s.j.faceGetCells3 f .ALL = some l := hl
  show (((if s.dim3 then s.j.faceGetCells3 f .ALL else s.j.faceGetCells2 f .ALL).getD []).map Int.toNat).Nodup
  rw [h.dim, if_pos rfl, hl', Option.getD_some]
  refine Simple.map_nodup_on hn ?_
  intro a ha b hb e
  have h1 := hnn a ha
  have h2 := hnn b hb
  omega

theorem fid_plain {m : MMesh} (h : ∀ i, (m.face i).ptype = .interior) (i : Fin m.nf) : m.fmap.id i - 1 = i.1 :=
  m.fnum.at_iff.mp (fmap_plain m h i)

/-- **C157** The regular mesh that Mesh_MSTK generates on one rank and the structured mesh of Mesh_simple for the same box and the same
numbers of cells are the same mesh up to the numbers of cells and faces: Mesh_MSTK numbers the cells with the index in Z direction running
fastest, Mesh_simple with the index in X direction running fastest. -/
theorem same_mesh (hp : SimpleGeom.Proper dd bx) (h : RegularMesh s (domOf dd bx) (wholeBlk dd) g r) :
    ∃ cell face, s.j.m.nr = Simple.numCells dd ∧ s.j.m.nf = Simple.numFaces dd ∧
      SameMesh s.gmesh (SimpleGeom.simpleMesh dd bx) (Simple.numCells dd) (Simple.numFaces dd) cell face ∧
      ∀ i j k, i < dd.nx → j < dd.ny → k < dd.nz → cell ((i * dd.ny + j) * dd.nz + k) = i + (j + k * dd.ny) * dd.nx := by
  have hd := goodDomOf hp
  have hb := goodWhole hp
  have hs := h.solid hd hb
  obtain ⟨rfl, ⟨G⟩⟩ := grid_of_build hd hb h.generated h.held
  obtain ⟨pc, hpc⟩ := cell_pos G
  obtain ⟨pf, hpf⟩ := face_pos G
  obtain ⟨nr, nf⟩ := same_counts G
  have hfi := fid_plain fun i => (G.fgid i).2
  have hat : ∀ i : Fin s.j.m.nr, (s.j.m.rmap s.j.bg).at i.1 = some i := fun i => by
    rw [h.plain]; exact rmap_plain s.j.m (fun i => (G.rgid i).2) i
  have pos_cell : ∀ {i : Fin s.j.m.nr} {p : Simple.Spec.Pos}, G.ro i = cellAt (domOf dd bx) p → pc i = p := fun e =>
    cellAt_inj hd ((hpc _).2.symm.trans e)
  have pos_face : ∀ {i : Fin s.j.m.nf} {p : Simple.Spec.FacePos}, G.fo i = faceAt (domOf dd bx) p → pf i = p := fun e =>
    faceAt_inj hd ((hpf _).2.symm.trans e)
  let cell : Nat → Nat := fun c => if hc : c < s.j.m.nr then Simple.cellIdx dd (pc ⟨c, hc⟩) else 0
  let face : Nat → Nat := fun f => if hf : f < s.j.m.nf then Simple.faceIdx dd (pf ⟨f, hf⟩) else 0
  have hcell : ∀ i : Fin s.j.m.nr, cell i.1 = Simple.cellIdx dd (pc i) := fun i => dif_pos i.2
  have hface : ∀ i : Fin s.j.m.nf, face i.1 = Simple.faceIdx dd (pf i) := fun i => dif_pos i.2
  -- the six faces of a cell
  have hfaces : ∀ i : Fin s.j.m.nr, (s.j.m.region i).faces.map (fun q => (face q.1.1, if q.2 then (1 : Int) else -1)) =
      (((Simple.cellFaces (pc i)).map (Simple.faceIdx dd)).zip Simple.dirs).rotate 4 := by
    intro i
    obtain ⟨I, J, L, _, hr, f0, f1, f2, f3, f4, f5, hl, a0, a1, a2, a3, a4, a5⟩ := G.region_faces i
    have e := pos_cell (p := ⟨I, J, L⟩) hr
    rw [e, hl]
    simp only [List.map_cons, List.map_nil, hface, pos_face (p := ⟨.xy, ⟨I, J, L⟩⟩) a0, pos_face (p := ⟨.xy, ⟨I, J, L + 1⟩⟩) a1,
      pos_face (p := ⟨.xz, ⟨I, J, L⟩⟩) a2, pos_face (p := ⟨.yz, ⟨I + 1, J, L⟩⟩) a3, pos_face (p := ⟨.xz, ⟨I, J + 1, L⟩⟩) a4,
      pos_face (p := ⟨.yz, ⟨I, J, L⟩⟩) a5]
    rfl
  have hall : ∀ i : Fin s.j.m.nr, ((s.j.m.region i).faces.map (fun q => (face q.1.1, if q.2 then (1 : Int) else -1))).Perm
      ((SimpleGeom.simpleMesh dd bx).cellFaces (cell i.1)) := by
    intro i
    rw [hfaces, hcell, SimpleGeom.cellFaces_eq dd bx (hpc i).1]
    exact List.rotate_perm _ _
  have hgf : ∀ i : Fin s.j.m.nr, (s.gmesh.cellFaces i.1).map (fun q => face q.1) =
      ((s.j.m.region i).faces.map (fun q => (face q.1.1, if q.2 then (1 : Int) else -1))).map Prod.fst := by
    intro i
    rw [gmesh_cellFaces hs (hat i), List.map_map, List.map_map]
    exact List.map_congr_left fun q _ => by simp [hfi]
  have hmem : ∀ (f : Nat) (hf : f < s.j.m.nf) (c : Nat), c ∈ s.gmesh.faceCells f ↔ ∃ i : Fin s.j.m.nr, i.1 = c ∧ (⟨f, hf⟩ : Fin s.j.m.nf) ∈ (s.j.m.region i).mrFaces := by
    intro f hf c
    rw [gmesh_faceCells hs hf, hasFst_cellFaces3 hs.ready]
    constructor
    · rintro ⟨i, fh, h1, h2, h3⟩
      have e1 : s.j.m.fmap.at f = some ⟨f, hf⟩ := fmap_plain s.j.m (fun i => (G.fgid i).2) ⟨f, hf⟩
      rw [h2] at e1
      cases e1
      refine ⟨i, ?_, h3⟩
      have := (s.j.m.rnum s.j.bg).at_iff.mp h1
      have h0 := (s.j.m.rnum s.j.bg).at_iff.mp (hat i)
      omega
    · rintro ⟨i, rfl, h3⟩
      exact ⟨i, ⟨f, hf⟩, hat i, fmap_plain s.j.m (fun i => (G.fgid i).2) ⟨f, hf⟩, h3⟩
  have hnum : ∀ i j k, i < dd.nx → j < dd.ny → k < dd.nz → cell ((i * dd.ny + j) * dd.nz + k) = i + (j + k * dd.ny) * dd.nx := by
    intro i j k hi hj hk
    obtain ⟨hlt, e⟩ := cell_number G (p := ⟨i, j, k⟩) ⟨hi, hj, hk⟩
    rw [hcell ⟨_, hlt⟩, pos_cell e]
    simp only [Simple.cellIdx, Simple.cellIndex]
    push_cast
    ring
  refine ⟨cell, face, nr, nf, ⟨⟨?_, ?_, ?_⟩, ⟨?_, ?_, ?_⟩, ?_, ?_, ?_, ?_, ?_, ?_, ?_, ?_⟩, hnum⟩
  · intro i hi
    rw [← nr] at hi
    rw [hcell ⟨i, hi⟩]
    exact Simple.cellIdx_lt dd (hpc _).1
  · intro i hi j hj e
    rw [← nr] at hi hj
    rw [hcell ⟨i, hi⟩, hcell ⟨j, hj⟩] at e
    have := Simple.cellIdx_inj dd (hpc _).1 (hpc _).1 e
    exact congrArg Fin.val (G.rinj hb ((hpc ⟨i, hi⟩).2.trans (this ▸ (hpc ⟨j, hj⟩).2.symm)))
  · intro k hk
    obtain ⟨p, hpin, rfl⟩ := Simple.cellIdx_surj dd hk
    obtain ⟨i, hi⟩ := cell_there G hpin
    exact ⟨i.1, nr ▸ i.2, by rw [hcell, pos_cell hi]⟩
  · intro i hi
    rw [← nf] at hi
    rw [hface ⟨i, hi⟩]
    exact Simple.faceIdx_lt dd (hpf _).1
  · intro i hi j hj e
    rw [← nf] at hi hj
    rw [hface ⟨i, hi⟩, hface ⟨j, hj⟩] at e
    have := Simple.faceIdx_inj dd (hpf _).1 (hpf _).1 e
    exact congrArg Fin.val (G.finj hb ((hpf ⟨i, hi⟩).2.trans (this ▸ (hpf ⟨j, hj⟩).2.symm)))
  · intro k hk
    obtain ⟨p, hpin, rfl⟩ := Simple.faceIdx_surj dd hk
    obtain ⟨i, hi⟩ := face_there G hpin
    exact ⟨i.1, nf ▸ i.2, by rw [hface, pos_face hi]⟩
  · intro c hc
    rw [← nr] at hc
    rw [hgf ⟨c, hc⟩]
    exact (hall ⟨c, hc⟩).map Prod.fst
  · intro f hf
    rw [← nf] at hf
    rw [hface ⟨f, hf⟩]
    obtain ⟨hn', hm'⟩ := simple_face_cells (bx := bx) (hpf ⟨f, hf⟩).1
    have hmem := hmem f hf
    have hinc : ∀ i : Fin s.j.m.nr, (⟨f, hf⟩ : Fin s.j.m.nf) ∈ (s.j.m.region i).mrFaces ↔ pf ⟨f, hf⟩ ∈ Simple.cellFaces (pc i) := by
      intro i
      obtain ⟨I, J, L, _, hr, f0, f1, f2, f3, f4, f5, hl, a0, a1, a2, a3, a4, a5⟩ := G.region_faces i
      have e := pos_cell (p := ⟨I, J, L⟩) hr
      have fe : ∀ {x : Fin s.j.m.nf} {p : Simple.Spec.FacePos}, G.fo x = faceAt (domOf dd bx) p → (⟨f, hf⟩ = x ↔ pf ⟨f, hf⟩ = p) := by
        intro x p hx
        constructor
        · rintro rfl; exact pos_face hx
        · intro he
          exact G.finj hb ((hpf _).2.trans (he ▸ hx.symm))
      unfold Mstk.Region.mrFaces
      rw [e, hl]
      simp only [List.map_cons, List.map_nil, Simple.cellFaces, List.mem_cons, List.not_mem_nil, or_false,
        fe (p := ⟨.xy, ⟨I, J, L⟩⟩) a0, fe (p := ⟨.xy, ⟨I, J, L + 1⟩⟩) a1, fe (p := ⟨.xz, ⟨I, J, L⟩⟩) a2,
        fe (p := ⟨.yz, ⟨I + 1, J, L⟩⟩) a3, fe (p := ⟨.xz, ⟨I, J + 1, L⟩⟩) a4, fe (p := ⟨.yz, ⟨I, J, L⟩⟩) a5]
      generalize pf ⟨f, hf⟩ = x
      constructor
      · rintro (h | h | h | h | h | h) <;> simp [h]
      · rintro (h | h | h | h | h | h) <;> simp [h]
    refine (List.perm_ext_iff_of_nodup (Simple.map_nodup_on (gmesh_faceCells_nodup hs hf) ?_) hn').2 ?_
    · intro a ha a' ha' e
      obtain ⟨i, rfl, _⟩ := (hmem a).1 ha
      obtain ⟨i', rfl, _⟩ := (hmem a').1 ha'
      rw [hcell, hcell] at e
      have := Simple.cellIdx_inj dd (hpc _).1 (hpc _).1 e
      exact congrArg Fin.val (G.rinj hb ((hpc i).2.trans (this ▸ (hpc i').2.symm)))
    · intro k
      rw [hm', List.mem_map]
      constructor
      · rintro ⟨c, hc, rfl⟩
        obtain ⟨i, rfl, hi⟩ := (hmem c).1 hc
        exact ⟨pc i, (hpc i).1, (hinc i).1 hi, hcell i⟩
      · rintro ⟨p, hpin, hpm, rfl⟩
        obtain ⟨i, hi⟩ := cell_there G hpin
        refine ⟨i.1, (hmem _).2 ⟨i, rfl, (hinc i).2 ?_⟩, ?_⟩
        · rw [pos_cell hi]; exact hpm
        · rw [hcell, pos_cell hi]
  · intro f hf c hc
    rw [← nf] at hf
    obtain ⟨i, rfl, _⟩ := (hmem f hf c).1 hc
    exact nr ▸ i.2
  · intro c hc
    rw [← nr] at hc
    rw [hcell ⟨c, hc⟩, gmesh_cellCoords hs (hat ⟨c, hc⟩), SimpleGeom.cellCoords_eq dd bx (hpc _).1]
    refine (coords_perm hd hb G h.placed h.space ⟨c, hc⟩).trans ?_
    rw [(hpc _).2]
    refine List.Perm.of_eq ?_
    simp only [cellAt, RG, List.map_cons, List.map_nil, pt_V hd, gx_same, gy_same, gz_same, SimpleGeom.cellBox, boxCorners, boxC,
      boxCorner, SimpleGeom.gx, SimpleGeom.gy, SimpleGeom.gz]
    push_cast
    simp only [add_mul, zero_mul, add_zero, one_mul, add_assoc]
  · intro f hf
    rw [← nf] at hf
    rw [hface ⟨f, hf⟩, SimpleGeom.faceCoords_eq dd bx (hpf _).1, ← faceAt_points hd, ← (hpf ⟨f, hf⟩).2]
    have e1 := gmesh_faceCoords hs ⟨f, hf⟩
    rw [hfi] at e1
    rw [e1]
    have hcor : ((s.j.m.face ⟨f, hf⟩).edges.map s.j.m.start).map s.place = (G.fo ⟨f, hf⟩).vs.map pt := by
      have := outward_pt G h.placed h.space (⟨f, hf⟩, true)
      rw [if_pos rfl] at this
      exact this
    rw [← hcor]
    cases s.j.faceflip[f]?.getD false
    · show ((s.j.m.mfVertices _ true).map s.place).Perm _
      rw [mfVertices_true]
    · show ((s.j.m.mfVertices _ false).map s.place).Perm _
      rw [mfVertices_false, List.map_reverse, hs.polygons.closed, List.map_rotate]
      exact (List.reverse_perm _).trans (List.rotate_perm _ _)
  · intro c hc
    rw [← nr] at hc
    obtain ⟨cen, e, e1, e2, e3⟩ := cell_box hs hd hb G h.placed (hat ⟨c, hc⟩) (hpc ⟨c, hc⟩).2
    rw [hcell ⟨c, hc⟩, SimpleGeom.simple_cell_geometry hp (hpc ⟨c, hc⟩).1]
    have vx := SimpleGeom.hx_pos hp
    have vy := SimpleGeom.hy_pos hp
    have vz := SimpleGeom.hz_pos hp
    refine ⟨_, cen, _, e, congrArg some (Prod.ext ?_ rfl), ?_, ?_, ?_, ?_⟩
    · simp only [gx_same, gy_same, gz_same, SimpleGeom.gx, SimpleGeom.gy, SimpleGeom.gz, SimpleGeom.hx, SimpleGeom.hy, SimpleGeom.hz]
      push_cast
      ring
    · simp only [gx_same, gy_same, gz_same, SimpleGeom.gx, SimpleGeom.gy, SimpleGeom.gz]
      push_cast
      have : 0 < SimpleGeom.hx dd bx * SimpleGeom.hy dd bx * SimpleGeom.hz dd bx := by positivity
      linarith
    · rw [e1]; simp only [gx_same, SimpleGeom.gx, SimpleGeom.hx, mk3]; push_cast; ring
    · rw [e2]; simp only [gy_same, SimpleGeom.gy, SimpleGeom.hy, mk3]; push_cast; ring
    · rw [e3]; simp only [gz_same, SimpleGeom.gz, SimpleGeom.hz, mk3]; push_cast; ring
  · intro f hf
    rw [← nf] at hf
    obtain ⟨cx, cy, cz, n, hn, hpara⟩ := faceAt_para hd (pf ⟨f, hf⟩)
    have hcor : s.corners ⟨f, hf⟩ = (faceAt (domOf dd bx) (pf ⟨f, hf⟩)).vs.map pt := by
      have := outward_pt G h.placed h.space (⟨f, hf⟩, true)
      rw [if_pos rfl, (hpf _).2] at this
      exact this
    obtain ⟨ns, e⟩ := face_area_para hs ⟨f, hf⟩ (fmap_plain s.j.m (fun i => (G.fgid i).2) ⟨f, hf⟩) (hcor ▸ hpara) hn.ne'
    have hpara' : IsPara cx cy cz n ((SimpleGeom.simpleMesh dd bx).faceCoords (Simple.faceIdx dd (pf ⟨f, hf⟩))) := by
      rw [SimpleGeom.faceCoords_eq dd bx (hpf _).1, ← faceAt_points hd]; exact hpara
    obtain ⟨a1, a2⟩ := hpara'.area hn.ne'
    have e' : ∃ ns', computeFaceGeometry (SimpleGeom.simpleMesh dd bx) (Simple.faceIdx dd (pf ⟨f, hf⟩)) =
        some (4 * n, mk3 cx cy cz, ns') := by
      simp only [computeFaceGeometry, show (SimpleGeom.simpleMesh dd bx).manifoldDim = 3 from rfl, if_true]
      rw [storeNormals_eq _ _ _ _ _ (simple_listed (hpf _).1), a1, a2]
      exact ⟨_, rfl⟩
    obtain ⟨ns', e'⟩ := e'
    rw [hface ⟨f, hf⟩]
    exact ⟨_, _, ns, ns', e, e', by linarith⟩
  · intro c hc q hq
    rw [← nr] at hc
    rw [gmesh_cellFaces hs (hat ⟨c, hc⟩)] at hq
    obtain ⟨q', hq', rfl⟩ := List.mem_map.mp hq
    have hin := (hall ⟨c, hc⟩).subset (List.mem_map_of_mem (f := fun q : Fin s.j.m.nf × Bool => (face q.1.1, if q.2 then (1 : Int) else -1)) hq')
    rw [hcell ⟨c, hc⟩] at hin ⊢
    have h1 := normals_of_mesh hs (hat ⟨c, hc⟩) hq'
    have h2 := outward_eq (SimpleGeom.simpleMesh dd bx) _ (SimpleGeom.simple_goodCell (b := bx) (hpc ⟨c, hc⟩).1) hin
    simp only at h2 ⊢
    rw [hfi] at h1 ⊢
    refine ⟨nf ▸ q'.1.2, _, h1, h2.trans ?_⟩
    congr 2
    rw [outward_pt G h.placed h.space, orientedFace, hface, SimpleGeom.faceCoords_eq dd bx (hpf _).1, ← faceAt_points hd,
      ← (hpf q'.1).2]
    cases q'.2 <;> simp

/-- the hypotheses are met for every box and all numbers of cells -/
theorem same_mesh_exists (hp : SimpleGeom.Proper dd bx) : ∃ (s : Source ℝ) (g : RegMesh ℝ) (r : MeshCache.Request),
    RegularMesh s (domOf dd bx) (wholeBlk dd) g r ∧ g.regions.length = dd.nx * dd.ny * dd.nz :=
  regular_exists (goodDomOf hp) (goodWhole hp)

example : ∃ (s : Source ℝ) (cell face : Nat → Nat), s.j.m.nr = 24 ∧ s.j.m.nf = 98 ∧
    SameMesh s.gmesh (SimpleGeom.simpleMesh ⟨2, 3, 4⟩ ⟨-1, 0, 2, 1, 9, 4⟩) 24 98 cell face := by
  have hp : SimpleGeom.Proper ⟨2, 3, 4⟩ ⟨-1, 0, 2, 1, 9, 4⟩ := by constructor <;> norm_num
  obtain ⟨s, g, r, h, _⟩ := same_mesh_exists hp
  obtain ⟨cell, face, h1, h2, h3, _⟩ := same_mesh hp h
  exact ⟨s, cell, face, h1, h2, h3⟩

end Jali.MstkGen
