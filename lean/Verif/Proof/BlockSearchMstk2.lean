import Verif.Props.MstkBuild2DGeom
import Verif.Props.BlockSearchMstk
/- The search for a regular structure on the regular meshes of Mesh_MSTK in the plane. -/
namespace Jali.MstkGen
open Spec Jali.Mstk Jali.Geom Jali.Geom.Point Jali.Geom.Spec Jali.MeshGeom
open Jali.BlockSearch (coord scan walk search limits corner refdir Aligned scan_pair scan_last scan_only geometry_some limits_eq dist2)

variable {d : Dom2 ℝ} {b : Blk2} {s : Source ℝ} {g : RegMesh2 ℝ} {r : MeshCache.Request}

theorem loopIdx2_get {na nb a c : Nat} (ha : a < na) (hc : c < nb) : (loopIdx2 na nb)[a * nb + c]? = some (a, c) := by
  unfold loopIdx2
  rw [getElem_flatMap_range (n := nb) (by intro a; simp) na a c ha hc]
  simp [hc]

/-- which cell is at a position -/
theorem cell_number2 {m : MMesh} (G : Grid2 d b m) {i j : Nat} (hi : i < b.nx) (hj : j < b.ny) :
    ∃ h : i * b.ny + j < m.nf, G.fo ⟨_, h⟩ = mkFace d b (i, j) := by
  have e : (List.ofFn G.fo)[i * b.ny + j]? = some (mkFace d b (i, j)) := by
    rw [G.flist]
    show ((loopIdx2 b.nx b.ny).map (mkFace d b))[_]? = _
    rw [List.getElem?_map, loopIdx2_get hi hj]; rfl
  obtain ⟨h, e⟩ := List.getElem?_eq_some_iff.mp e
  rw [List.length_ofFn] at h
  exact ⟨h, by simpa using e⟩

theorem cells_count2 {m : MMesh} (G : Grid2 d b m) : m.nf = b.nx * b.ny := by
  have h1 := congrArg List.length G.flist
  rw [List.length_ofFn] at h1
  rw [h1]
  show ((loopIdx2 b.nx b.ny).map (mkFace d b)).length = _
  rw [List.length_map]
  simp [loopIdx2]

theorem eid_plain {m : MMesh} (h : ∀ i, (m.edge i).ptype = .interior) (i : Fin m.ne) : m.emap.id i - 1 = i.1 :=
  m.enum.at_iff.mp (emap_plain m h i)

/-- the faces of a cell and their normals -/
theorem faces_at2 (hd : GoodDom2 d) (hb : GoodBlk2 d b) (h : RegularMesh2 s d b g r) (G : Grid2 d b s.j.m) {i j : Nat} (hi : i < b.nx)
    (hj : j < b.ny) :
    let dx := (d.X1 - d.X0) / d.NX
    let dy := (d.Y1 - d.Y0) / d.NY
    ∃ e0 e1 e2 e3 : Fin s.j.m.ne, (s.gmesh.cellFaces (i * b.ny + j)).map Prod.fst = [e0.1, e1.1, e2.1, e3.1] ∧
      G.eo e1 = vE d b (i + 1) j ∧ G.eo e2 = hE d b i (j + 1) ∧
      faceNormal s.gmesh e0.1 (some (i * b.ny + j)) = some (mk2 0 (-dx)) ∧ faceNormal s.gmesh e1.1 (some (i * b.ny + j)) = some (mk2 dy 0) ∧
      faceNormal s.gmesh e2.1 (some (i * b.ny + j)) = some (mk2 0 dx) ∧ faceNormal s.gmesh e3.1 (some (i * b.ny + j)) = some (mk2 (-dy) 0) := by
  intro dx dy
  obtain ⟨hlt, hfo⟩ := cell_number2 G hi hj
  have hg : g = genOf2 d b := (grid_of_build2 hb h.generated h.held).1
  have hc : g.faces[i * b.ny + j]? = some (mkFace d b (i, j)) := by
    rw [hg]
    have := Grid2.lookup G.flist ⟨_, hlt⟩
    rw [hfo] at this
    exact this
  have hn := generated_cell_normals2 hd hb h hc
  have hat : (s.j.m.cmap s.j.bg).at (i * b.ny + j) = some ⟨i * b.ny + j, hlt⟩ := by
    rw [h.plain]; exact cmap_plain s.j.m (fun i => (G.fgid i).2) ⟨_, hlt⟩
  have hes := G.es ⟨_, hlt⟩
  rw [hfo] at hes
  have h4 := G.four ⟨_, hlt⟩
  obtain ⟨p0, p1, p2, p3, hp⟩ : ∃ p0 p1 p2 p3, (s.j.m.face ⟨i * b.ny + j, hlt⟩).edges = [p0, p1, p2, p3] := by
    match hl : (s.j.m.face ⟨i * b.ny + j, hlt⟩).edges, h4 with
    | [p0, p1, p2, p3], _ => exact ⟨_, _, _, _, rfl⟩
  have hid := eid_plain fun i => (G.egid i).2
  have hcf := gmesh_cellFaces2 (h.flat hb) hat
  rw [hp] at hcf hes
  simp only [mkFace, List.map_cons, List.map_nil, List.cons.injEq, Prod.mk.injEq] at hes
  rw [hcf] at hn
  simp only [List.map_cons, List.map_nil, hid] at hcf hn
  refine ⟨p0.1, p1.1, p2.1, p3.1, by rw [hcf]; rfl, hes.2.1.1, hes.2.2.1.1, ?_⟩
  simp only [List.mapM_cons, List.mapM_nil, bind, Option.bind_eq_some_iff, pure, Option.some.injEq] at hn
  obtain ⟨a0, q0, _, ⟨a1, q1, _, ⟨a2, q2, _, ⟨a3, q3, _, rfl, rfl⟩, rfl⟩, rfl⟩, e⟩ := hn
  simp only [List.cons.injEq, and_true] at e
  obtain ⟨rfl, rfl, rfl, rfl⟩ := e
  exact ⟨q0, q1, q2, q3⟩

/-- the cells of an edge -/
theorem edge_cells2 (hb : GoodBlk2 d b) (h : RegularMesh2 s d b g r) (G : Grid2 d b s.j.m) (e : Fin s.j.m.ne) :
    (s.gmesh.faceCells e.1).Nodup ∧ ∀ c, c ∈ s.gmesh.faceCells e.1 ↔
      ∃ i j, i < b.nx ∧ j < b.ny ∧ c = i * b.ny + j ∧ ∃ dir, (G.eo e, dir) ∈ (mkFace d b (i, j)).es := by
  have hs := h.flat hb
  constructor
  · obtain ⟨P, _⟩ := face_get_cells_of_mesh2 s.j r hs.made hs.faces hs.cells e.1 e.2
    obtain ⟨l, hl, hn, _, hnn⟩ := P.answers .ALL
    have hl' : s.j.faceGetCells2 e.1 .ALL = some l := hl
    show (((if s.dim3 then s.j.faceGetCells3 e.1 .ALL else s.j.faceGetCells2 e.1 .ALL).getD []).map Int.toNat).Nodup
    rw [if_neg (not_dim3 hs), hl', Option.getD_some]
    refine Simple.map_nodup_on hn ?_
    intro a ha b hb e
    have h1 := hnn a ha
    have h2 := hnn b hb
    omega
  · intro c
    have hat : ∀ i : Fin s.j.m.nf, (s.j.m.cmap s.j.bg).at i.1 = some i := fun i => by
      rw [h.plain]; exact cmap_plain s.j.m (fun i => (G.fgid i).2) i
    have hmem : ∀ f : Fin s.j.m.nf, e ∈ (s.j.m.face f).mfEdges true ↔ ∃ dir, (G.eo e, dir) ∈ (G.fo f).es := by
      intro f
      rw [← G.mem_meFaces]
      unfold MMesh.meFaces
      simp
    rw [gmesh_faceCells2 hs e.2, hasFst_cellFaces2 hs.ready]
    constructor
    · rintro ⟨f, e', h1, h2, h3⟩
      have e1 : s.j.m.emap.at e.1 = some e := emap_plain s.j.m (fun i => (G.egid i).2) e
      rw [h2] at e1
      cases e1
      have hcf : f.1 = c := by
        have a1 := (s.j.m.cnum s.j.bg).at_iff.mp h1
        have a2 := (s.j.m.cnum s.j.bg).at_iff.mp (hat f)
        omega
      obtain ⟨i, j, hi, hj, hfo⟩ := G.fo_is f
      obtain ⟨hlt, hfo'⟩ := cell_number2 G hi hj
      have := G.finj (hfo.trans hfo'.symm)
      refine ⟨i, j, hi, hj, by rw [← hcf, this], ?_⟩
      rw [← hfo, ← hmem]
      exact h3
    · rintro ⟨i, j, hi, hj, rfl, hu⟩
      obtain ⟨hlt, hfo⟩ := cell_number2 G hi hj
      exact ⟨⟨_, hlt⟩, e, hat ⟨_, hlt⟩, emap_plain s.j.m (fun i => (G.egid i).2) e, by rw [hmem, hfo]; exact hu⟩

/-- the centroid of an edge is in its middle -/
theorem edge_centroid2 (hb : GoodBlk2 d b) (h : RegularMesh2 s d b g r) (G : Grid2 d b s.j.m) (e : Fin s.j.m.ne)
    {q : ℝ × Point × Normals} (hq : computeFaceGeometry s.gmesh e.1 = some q) :
    q.2.1.x = ((G.eo e).v0.x + (G.eo e).v1.x) / 2 ∧ q.2.1.y = ((G.eo e).v0.y + (G.eo e).v1.y) / 2 := by
  have hs := h.flat hb
  have hg : g = genOf2 d b := (grid_of_build2 hb h.generated h.held).1
  obtain ⟨dm, ds⟩ := gmesh_dim2 hs
  have hid := eid_plain (fun i => (G.egid i).2) e
  have hco := gmesh_faceCoords2 hs e
  rw [hid] at hco
  have hp := h.placed
  rw [hg] at hp
  unfold computeFaceGeometry at hq
  simp only [dm, ds, show ¬ (2 : Nat) = 3 by decide, if_false, if_true, Option.map_eq_some_iff] at hq
  obtain ⟨n, _, rfl⟩ := hq
  rw [hco]
  simp only [place_pt2 G hp h.space, G.v0, G.v1]
  have mid : ∀ a b c e : ℝ, smul 0.5 (mk2 a b + mk2 c e) = mk2 (0.5 * (a + c)) (0.5 * (b + e)) := by
    intro a b c e
    show smul 0.5 (add _ _) = _
    simp [add, mk2, smul]
  split
  · simp only [Jali.Geom.pt, List.getD_cons_zero, List.getD_cons_succ, mid]
    simp only [mk2]
    constructor <;> norm_num <;> ring
  · simp only [Jali.Geom.pt, List.getD_cons_zero, List.getD_cons_succ, mid]
    simp only [mk2]
    constructor <;> norm_num <;> ring

theorem unit_dot2 {x y w : ℝ} (hw : 0 < w) (h : x * x + y * y = w * w) {dir : Nat} (hd : dir < 2) :
    dot (divAssign (mk2 x y) (Point.norm (mk2 x y))) (refdir 2 dir) = coord (mk2 x y) dir / w := by
  have hn : Point.norm (mk2 x y) = w := by
    rw [Point.norm, mk2]
    simp only [dot]
    simp
    rw [h, Real.sqrt_mul_self hw.le]
  rw [hn]
  have : dir = 0 ∨ dir = 1 := by omega
  rcases this with rfl | rfl <;> simp [dot, divAssign, mk2, refdir, coord]

theorem aligned_of2 {x y w : ℝ} (hw : 0 < w) (h : x * x + y * y = w * w) {dir : Nat} (hd : dir < 2)
    (e : coord (mk2 x y) dir = w) : Aligned 2 dir (mk2 x y) := by
  show |_ - 1| < _
  rw [unit_dot2 hw h hd, e, div_self hw.ne']; norm_num

theorem not_aligned2 {x y w : ℝ} (hw : 0 < w) (h : x * x + y * y = w * w) {dir : Nat} (hd : dir < 2)
    (e : coord (mk2 x y) dir = 0 ∨ coord (mk2 x y) dir = -w) : ¬ Aligned 2 dir (mk2 x y) := by
  show ¬ |_ - 1| < _
  rw [unit_dot2 hw h hd]
  rcases e with e | e
  · rw [e, zero_div]; norm_num
  · rw [e, neg_div, div_self hw.ne']; norm_num

theorem nodup_two {l : List Nat} (hn : l.Nodup) {x y : Nat} (hxy : x ≠ y) (h : ∀ c, c ∈ l ↔ c = x ∨ c = y) :
    ∃ u v, l = [u, v] ∧ (if u = x then v else u) = y := by
  have hp : l.Perm [x, y] := by
    rw [List.perm_ext_iff_of_nodup hn (by simp [hxy])]
    intro c; rw [h]; simp
  obtain ⟨u, v, rfl⟩ := List.length_eq_two.1 hp.length_eq
  refine ⟨u, v, rfl, ?_⟩
  have h1 := (h u).1 (by simp)
  have h2 := (h v).1 (by simp)
  have h3 : u ≠ v := by
    intro e; rw [e] at hn; simp at hn
  split <;> omega

theorem nodup_one {l : List Nat} (hn : l.Nodup) {x : Nat} (h : ∀ c, c ∈ l ↔ c = x) : l = [x] := by
  have hp : l.Perm [x] := by
    rw [List.perm_ext_iff_of_nodup hn (by simp)]
    intro c; rw [h]; simp
  exact List.perm_singleton.1 hp

/-- the end of the block in a direction -/
noncomputable def hi2 (d : Dom2 ℝ) (b : Blk2) (dir : Nat) : ℝ :=
  if dir = 0 then gridPt d.X0 d.X1 d.NX (b.i0 + b.nx) else gridPt d.Y0 d.Y1 d.NY (b.j0 + b.ny)
/-- the start of the block in a direction -/
noncomputable def lo2 (d : Dom2 ℝ) (b : Blk2) (dir : Nat) : ℝ :=
  if dir = 0 then gridPt d.X0 d.X1 d.NX b.i0 else gridPt d.Y0 d.Y1 d.NY b.j0

/-- one turn of the walk in X direction -/
theorem scan_x2 (hd : GoodDom2 d) (hb : GoodBlk2 d b) (h : RegularMesh2 s d b g r) {i j : Nat} (hi : i < b.nx) (hj : j < b.ny) :
    scan s.gmesh (fun _ => true) (hi2 d b 0) 0 (i * b.ny + j) ((s.gmesh.cellFaces (i * b.ny + j)).map Prod.fst) =
      if i + 1 < b.nx then .next ((i + 1) * b.ny + j) else .reached := by
  obtain ⟨_, ⟨G⟩⟩ := grid_of_build2 hb h.generated h.held
  obtain ⟨e0, e1, e2, e3, hl, he1, he2, n0, n1, n2, n3⟩ := faces_at2 hd hb h G hi hj
  have dx : 0 < (d.X1 - d.X0) / d.NX := div_pos (sub_pos.2 hd.x) (by exact_mod_cast hd.nx)
  have dy : 0 < (d.Y1 - d.Y0) / d.NY := div_pos (sub_pos.2 hd.y) (by exact_mod_cast hd.ny)
  have ds : s.gmesh.spaceDim = 2 := h.space
  have ha : Aligned s.gmesh.spaceDim 0 (mk2 ((d.Y1 - d.Y0) / d.NY) 0) := by
    rw [ds]; exact aligned_of2 (x := (d.Y1 - d.Y0) / d.NY) (y := 0) dy (by ring) (by decide) rfl
  rw [hl, Jali.BlockSearch.scan_skip n0 (by rw [ds]; exact not_aligned2 dx (by ring) (by decide) (.inl rfl))]
  obtain ⟨hnd, hmem⟩ := edge_cells2 hb h G e1
  simp only [he1, used_vE] at hmem
  split
  · rename_i hlt
    obtain ⟨u, v, huv, e⟩ := nodup_two hnd (x := i * b.ny + j) (y := (i + 1) * b.ny + j) (by have := hb.ny; nlinarith) (by
      intro c
      rw [hmem]
      constructor
      · rintro ⟨i', j', h1, h2, rfl, h3 | h3, rfl⟩
        · exact .inr (by rw [h3])
        · exact .inl (by rw [show i' = i by omega])
      · rintro (rfl | rfl)
        · exact ⟨i, j, hi, hj, rfl, .inr rfl, rfl⟩
        · exact ⟨i + 1, j, hlt, hj, rfl, .inl rfl, rfl⟩)
    rw [scan_pair n1 ha (by rw [huv]; rfl), e]
  · rename_i hlt
    have e := nodup_one hnd (x := i * b.ny + j) (by
      intro c
      rw [hmem]
      constructor
      · rintro ⟨i', j', h1, h2, rfl, h3 | h3, rfl⟩
        · omega
        · rw [show i' = i by omega]
      · rintro rfl
        exact ⟨i, j, hi, hj, rfl, .inr rfl, rfl⟩)
    obtain ⟨q, hq⟩ := geometry_some n1
    refine scan_last n1 ha (by rw [e]; rfl) hq ?_
    have hc := (edge_centroid2 hb h G e1 hq).1
    rw [he1] at hc
    show q.2.1.x = _
    rw [hc]
    simp only [vE, rgt, (vx d hd b _ _).1, hi2, if_true, show i + 1 = b.nx by omega]
    ring

/-- one turn of the walk in Y direction -/
theorem scan_y2 (hd : GoodDom2 d) (hb : GoodBlk2 d b) (h : RegularMesh2 s d b g r) {i j : Nat} (hi : i < b.nx) (hj : j < b.ny) :
    scan s.gmesh (fun _ => true) (hi2 d b 1) 1 (i * b.ny + j) ((s.gmesh.cellFaces (i * b.ny + j)).map Prod.fst) =
      if j + 1 < b.ny then .next (i * b.ny + (j + 1)) else .reached := by
  obtain ⟨_, ⟨G⟩⟩ := grid_of_build2 hb h.generated h.held
  obtain ⟨e0, e1, e2, e3, hl, he1, he2, n0, n1, n2, n3⟩ := faces_at2 hd hb h G hi hj
  have dx : 0 < (d.X1 - d.X0) / d.NX := div_pos (sub_pos.2 hd.x) (by exact_mod_cast hd.nx)
  have dy : 0 < (d.Y1 - d.Y0) / d.NY := div_pos (sub_pos.2 hd.y) (by exact_mod_cast hd.ny)
  have ds : s.gmesh.spaceDim = 2 := h.space
  have ha : Aligned s.gmesh.spaceDim 1 (mk2 0 ((d.X1 - d.X0) / d.NX)) := by
    rw [ds]; exact aligned_of2 (x := 0) (y := (d.X1 - d.X0) / d.NX) dx (by ring) (by decide) rfl
  rw [hl, Jali.BlockSearch.scan_skip n0 (by rw [ds]; exact not_aligned2 dx (by ring) (by decide) (.inr rfl)),
    Jali.BlockSearch.scan_skip n1 (by rw [ds]; exact not_aligned2 dy (by ring) (by decide) (.inl rfl))]
  obtain ⟨hnd, hmem⟩ := edge_cells2 hb h G e2
  simp only [he2, used_hE] at hmem
  split
  · rename_i hlt
    obtain ⟨u, v, huv, e⟩ := nodup_two hnd (x := i * b.ny + j) (y := i * b.ny + (j + 1)) (by omega) (by
      intro c
      rw [hmem]
      constructor
      · rintro ⟨i', j', h1, h2, rfl, rfl, h3 | h3⟩
        · exact .inr (by rw [h3])
        · exact .inl (by rw [show j' = j by omega])
      · rintro (rfl | rfl)
        · exact ⟨i, j, hi, hj, rfl, rfl, .inr rfl⟩
        · exact ⟨i, j + 1, hi, hlt, rfl, rfl, .inl rfl⟩)
    rw [scan_pair n2 ha (by rw [huv]; rfl), e]
  · rename_i hlt
    have e := nodup_one hnd (x := i * b.ny + j) (by
      intro c
      rw [hmem]
      constructor
      · rintro ⟨i', j', h1, h2, rfl, rfl, h3 | h3⟩
        · omega
        · rw [show j' = j by omega]
      · rintro rfl
        exact ⟨i, j, hi, hj, rfl, rfl, .inr rfl⟩)
    obtain ⟨q, hq⟩ := geometry_some n2
    refine scan_last n2 ha (by rw [e]; rfl) hq ?_
    have hc := (edge_centroid2 hb h G e2 hq).2
    rw [he2] at hc
    show q.2.1.y = _
    rw [hc]
    simp only [hE, top, (vx d hd b _ _).2, hi2, show ¬ (1 : Nat) = 0 by decide, if_false, show j + 1 = b.ny by omega]
    ring

end Jali.MstkGen
