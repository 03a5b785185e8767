import Verif.Model.RegionGeometry
import Verif.Props.SameMesh
import Verif.Props.SameRegions
import Verif.Proof.MstkSideGeometry
/-! C168: the sets of regions on the structured mesh and on the regular mesh of MSTK are the same. -/
namespace Jali.MstkGen
open Spec Jali.Mstk Jali.Geom Jali.Geom.Point Jali.MeshGeom Jali.MeshGeom.Spec Jali.Reg

variable {dd : Simple.Dims} {bx : Simple.Box} {s : Source ℝ} {g : RegMesh ℝ} {r : MeshCache.Request}

theorem vmap_plain (m : MMesh) (h : ∀ i, (m.vtx i).ptype = .interior) (i : Fin m.nv) : m.vmap.at i.1 = some i := by
  have N := m.vnum
  rw [(all_owned h).1, (all_owned h).2, List.append_nil] at N
  exact numbered_range_at N i

/-- the nodes of both meshes are the same up to their numbers -/
theorem same_nodes (hp : SimpleGeom.Proper dd bx) (h : RegularMesh s (domOf dd bx) (wholeBlk dd) g r) :
    ∃ node, s.j.m.nv = Simple.numNodes dd ∧ Renumbers (Simple.numNodes dd) node ∧
      (∀ n < Simple.numNodes dd, (SimpleGeom.simpleMesh dd bx).nodeCoord (node n) = s.gmesh.nodeCoord n) ∧
      ∀ i j k, i < dd.nx + 1 → j < dd.ny + 1 → k < dd.nz + 1 →
        node ((i * (dd.ny + 1) + j) * (dd.nz + 1) + k) = i + (j + k * (dd.ny + 1)) * (dd.nx + 1) := by
  have hd := goodDomOf hp
  have hb := goodWhole hp
  obtain ⟨rfl, ⟨G⟩⟩ := grid_of_build hd hb h.generated h.held
  have hpos : ∀ v, ∃ p : Simple.Spec.Pos, Simple.NodeIn dd p ∧ G.vo v = V (domOf dd bx) p.i p.j p.k := by
    intro v
    have : G.vo v ∈ (genOf (domOf dd bx) (wholeBlk dd)).verts := by rw [← G.vlist]; exact List.mem_ofFn.2 ⟨v, rfl⟩
    rw [mem_verts] at this
    obtain ⟨I, J, L, _, h2, _, h4, _, h6, e⟩ := this
    simp only [wholeBlk, Nat.zero_add] at h2 h4 h6
    exact ⟨⟨I, J, L⟩, ⟨h2, h4, h6⟩, e⟩
  choose pv hpv using hpos
  have nv : s.j.m.nv = Simple.numNodes dd := by
    have h1 := congrArg List.length G.vlist
    rw [List.length_ofFn] at h1
    rw [h1]
    show ((loopIdx (dd.nx + 1) (dd.ny + 1) (dd.nz + 1)).map _).length = _
    rw [List.length_map]
    simp [loopIdx, Simple.numNodes, Nat.mul_assoc]
  have number : ∀ {p : Simple.Spec.Pos}, Simple.NodeIn dd p →
      ∃ h : (p.i * (dd.ny + 1) + p.j) * (dd.nz + 1) + p.k < s.j.m.nv, G.vo ⟨_, h⟩ = V (domOf dd bx) p.i p.j p.k := by
    intro p hq
    have e : (List.ofFn G.vo)[(p.i * (dd.ny + 1) + p.j) * (dd.nz + 1) + p.k]? = some (V (domOf dd bx) p.i p.j p.k) := by
      rw [G.vlist]
      show ((loopIdx (dd.nx + 1) (dd.ny + 1) (dd.nz + 1)).map (shifted (wholeBlk dd) (V _)))[_]? = _
      rw [List.getElem?_map, loopIdx_get hq.1 hq.2.1 hq.2.2]
      simp [shifted, wholeBlk]
    obtain ⟨h, e⟩ := List.getElem?_eq_some_iff.mp e
    rw [List.length_ofFn] at h
    exact ⟨h, by simpa using e⟩
  have pos_of : ∀ {v : Fin s.j.m.nv} {p : Simple.Spec.Pos}, G.vo v = V (domOf dd bx) p.i p.j p.k → pv v = p := by
    intro v p e
    have := (hpv v).2.symm.trans e
    rw [V_iff _ hd] at this
    obtain ⟨i, j, k⟩ := p
    cases hq : pv v
    rw [hq] at this
    obtain ⟨rfl, rfl, rfl⟩ := this
    rfl
  let node : Nat → Nat := fun n => if hn : n < s.j.m.nv then Simple.nodeIdx dd (pv ⟨n, hn⟩) else 0
  have hnode : ∀ v : Fin s.j.m.nv, node v.1 = Simple.nodeIdx dd (pv v) := fun v => dif_pos v.2
  refine ⟨node, nv, ⟨?_, ?_, ?_⟩, ?_, ?_⟩
  · intro n hn
    rw [← nv] at hn
    rw [hnode ⟨n, hn⟩]
    exact Simple.nodeIdx_lt dd (hpv _).1
  · intro n hn n' hn' e
    rw [← nv] at hn hn'
    rw [hnode ⟨n, hn⟩, hnode ⟨n', hn'⟩] at e
    have e := Simple.nodeIdx_inj dd (hpv _).1 (hpv _).1 e
    obtain ⟨h1, e1⟩ := number (hpv ⟨n, hn⟩).1
    have e2 := (hpv ⟨n, hn⟩).2
    have e3 := (hpv ⟨n', hn'⟩).2
    rw [← e] at e3
    have := G.vinj hb (e2.trans e3.symm)
    simpa using this
  · intro k hk
    obtain ⟨p, hq, rfl⟩ := Simple.nodeIdx_surj dd hk
    obtain ⟨h1, e1⟩ := number hq
    exact ⟨_, nv ▸ h1, by rw [hnode ⟨_, h1⟩, pos_of e1]⟩
  · intro n hn
    rw [← nv] at hn
    rw [hnode ⟨n, hn⟩]
    have e1 : s.gmesh.nodeCoord n = s.place ⟨n, hn⟩ := by
      have := node_place s (Or.inl h.space) ⟨n, hn⟩
      rwa [s.j.m.vnum.at_iff.mp (vmap_plain s.j.m (fun i => by rw [G.vgid i]) ⟨n, hn⟩)] at this
    rw [e1, place_pt G h.placed h.space, (hpv _).2, pt_V hd]
    have := SimpleGeom.nodes_points dd bx [pv ⟨n, hn⟩] (by simp [(hpv _).1])
    simp only [List.map_cons, List.map_nil, List.cons.injEq, and_true] at this
    rw [gx_same, gy_same, gz_same, ← this]
    rfl
  · intro i j k hi hj hk
    obtain ⟨h1, e1⟩ := number (p := ⟨i, j, k⟩) ⟨hi, hj, hk⟩
    rw [hnode ⟨_, h1⟩, pos_of e1]
    simp only [Simple.nodeIdx, Simple.nodeIndex]
    ring

/-- the centroid of a polyhedron has three coordinates -/
theorem addTet_d {acc : VolAcc} {o a b c cen : Point} : (addTet acc o a b c cen).mom.d = acc.mom.d := rfl

theorem faceStep_d (center : Point) (fc : List Point) (o n : Nat) (acc : VolAcc) : (faceStep center fc o n acc).mom.d = acc.mom.d := by
  unfold faceStep
  split
  · rfl
  · simp only
    generalize List.range n = l
    induction l generalizing acc with
    | nil => rfl
    | cons j l ih => rw [List.foldl_cons, ih]; rfl

theorem facesLoop_d (center : Point) (fc : List Point) : ∀ (l : List Nat) (o : Nat) (acc : VolAcc), (facesLoop center fc l o acc).mom.d = acc.mom.d
  | [], _, _ => rfl
  | n :: l, o, acc => by rw [facesLoop, facesLoop_d center fc l, faceStep_d]

theorem centroid_d {m : GMesh} {c : Nat} {v : ℝ} {cen : Point} (h3 : m.manifoldDim = 3) (h4 : 4 < (m.cellCoords c).length)
    (e : computeCellGeometry m c = some (v, cen)) : cen.d = 3 := by
  unfold computeCellGeometry at e
  rw [if_pos h3] at e
  simp only [polyhedVolCentroid, if_neg (show ¬ (m.cellCoords c).length < 4 by omega),
    if_neg (show ¬ (m.cellCoords c).length = 4 by omega), Option.some.injEq, Prod.mk.injEq] at e
  rw [← e.2]
  show (facesLoop _ _ _ _ _).mom.d = 3
  rw [facesLoop_d]
  rfl

/-- **C168** The regular mesh of MSTK on one rank and the structured mesh for the same box and numbers of cells: cells, faces and nodes are the
same up to their numbers as far as regions can tell. -/
theorem frameworks_alike (hp : SimpleGeom.Proper dd bx) (h : RegularMesh s (domOf dd bx) (wholeBlk dd) g r) :
    ∃ cell face node, s.j.m.nr = Simple.numCells dd ∧ s.j.m.nf = Simple.numFaces dd ∧ s.j.m.nv = Simple.numNodes dd ∧
      (∀ (fr fr' : Bool) (nc nc' : Nat → List Nat) (pic pic' : Point → Nat → Bool) (ds ds' : Point → Point → Rat),
        Alike (geoOf s.gmesh fr nc pic ds) (geoOf (SimpleGeom.simpleMesh dd bx) fr' nc' pic' ds') .CELL (Simple.numCells dd) cell ∧
        Alike (geoOf s.gmesh fr nc pic ds) (geoOf (SimpleGeom.simpleMesh dd bx) fr' nc' pic' ds') .FACE (Simple.numFaces dd) face ∧
        Alike (geoOf s.gmesh fr nc pic ds) (geoOf (SimpleGeom.simpleMesh dd bx) fr' nc' pic' ds') .NODE (Simple.numNodes dd) node) ∧
      (∀ i j k, i < dd.nx → j < dd.ny → k < dd.nz → cell ((i * dd.ny + j) * dd.nz + k) = i + (j + k * dd.ny) * dd.nx) ∧
      ∀ i j k, i < dd.nx + 1 → j < dd.ny + 1 → k < dd.nz + 1 →
        node ((i * (dd.ny + 1) + j) * (dd.nz + 1) + k) = i + (j + k * (dd.ny + 1)) * (dd.nx + 1) := by
  obtain ⟨cell, face, n1, n2, S, hc⟩ := same_mesh hp h
  obtain ⟨node, n3, hr, hn, hi⟩ := same_nodes hp h
  have h3 : s.gmesh.manifoldDim = 3 := by show (if s.dim3 then 3 else 2) = 3; rw [h.dim]; rfl
  have hdim : (SimpleGeom.simpleMesh dd bx).manifoldDim = s.gmesh.manifoldDim := h3.symm
  refine ⟨cell, face, node, n1, n2, n3, fun fr fr' nc nc' pic pic' ds ds' => ⟨⟨S.cells, hdim, fun _ c hc => ?_,
    fun _ c hc => S.cellCoords c hc, fun k => (by cases k), fun k => (by cases k), fun k => (by cases k)⟩,
    ⟨S.faces, hdim, fun k => (by cases k), fun k => (by cases k), fun _ f hf => ?_, fun _ f hf => S.faceCoords f hf, fun k => (by cases k)⟩,
    ⟨hr, hdim, fun k => (by cases k), fun k => (by cases k), fun k => (by cases k), fun k => (by cases k), fun _ => hn⟩⟩, hc, hi⟩
  · obtain ⟨vol, cen, cen', e1, e2, -, e3, e4, e5⟩ := S.volume c hc
    simp only [geoOf]
    rw [e1, e2]
    show cen' = cen
    have l8 : ((SimpleGeom.simpleMesh dd bx).cellCoords (cell c)).length = 8 := by
      obtain ⟨p, hq, e⟩ := Simple.cellIdx_surj dd (S.cells.into c hc)
      rw [← e, SimpleGeom.cellCoords_eq dd bx hq]
      rfl
    have d1 := centroid_d h3 (by rw [(S.cellCoords c hc).length_eq, l8]; omega) e1
    have d2 := centroid_d rfl (by rw [l8]; omega) e2
    cases cen; cases cen'
    simp_all
  · obtain ⟨area, cen, ns, ns', e1, e2, -⟩ := S.area f hf
    simp only [geoOf]
    rw [e1, e2]
    rfl

/-- a mesh on one rank without sets: `n` entities of the kind, all of them owned -/
structure Fresh (w : World) (kind : EntityKind) (n : Nat) : Prop where
  heap : w.heap = []
  reg : w.reg = []
  owned : ∀ e, (w.view kind).typeOf e = .PARALLEL_OWNED ↔ e < n
  ghost : ∀ e, (w.view kind).typeOf e ≠ .PARALLEL_GHOST
  counts : (w.view kind).nOwned = n ∧ (w.view kind).nGhost = 0

theorem Fresh.fits {w : World} {kind : EntityKind} {n : Nat} (h : Fresh w kind n) {g : Geo Point} {gm : List (Reg.Region Point)}
    (hnc : kind = .CELL → ∀ v, (g.nodeCells v).Nodup ∧ ∀ c ∈ g.nodeCells v, c < n) (hl : ∀ r ∈ gm, r.type ≠ .LABELEDSET) :
    Fits g gm w kind := by
  refine ⟨⟨fun e => ?_, fun e => ?_⟩, fun k v => ?_, fun r hr ht => absurd ht (hl r hr)⟩
  · rw [h.owned, h.counts.1]
  · simp only [h.ghost, MSet.MeshView.nAll, h.counts.1, h.counts.2, false_iff]
    omega
  · simp only [MSet.MeshView.nAll, h.counts.1, h.counts.2, Nat.add_zero]
    exact hnc k v

/-- **C168** The same box, the same numbers of cells, the same geometric model of boxes, planes, polygons and logical regions: the sets of
cells, faces and nodes of a region on the regular mesh of MSTK and on the structured mesh are the same up to the numbers of the entities.
The numbers of cells and nodes are related explicitly (the index in Z direction runs fastest in MSTK, the index in X direction in the
structured mesh). -/
theorem frameworks_same_region_sets (hp : SimpleGeom.Proper dd bx) (h : RegularMesh s (domOf dd bx) (wholeBlk dd) g r) :
    ∃ cell face node : Nat → Nat,
      (∀ i j k, i < dd.nx → j < dd.ny → k < dd.nz → cell ((i * dd.ny + j) * dd.nz + k) = i + (j + k * dd.ny) * dd.nx) ∧
      (∀ i j k, i < dd.nx + 1 → j < dd.ny + 1 → k < dd.nz + 1 →
        node ((i * (dd.ny + 1) + j) * (dd.nz + 1) + k) = i + (j + k * (dd.ny + 1)) * (dd.nx + 1)) ∧
      ∀ (kind : EntityKind) (ren : Nat → Nat) (N : Nat), (kind = .CELL ∧ ren = cell ∧ N = Simple.numCells dd) ∨
        (kind = .FACE ∧ ren = face ∧ N = Simple.numFaces dd) ∨ (kind = .NODE ∧ ren = node ∧ N = Simple.numNodes dd) →
      ∀ (fr fr' : Bool) (nc nc' : Nat → List Nat) (pic pic' : Point → Nat → Bool) (ds ds' : Point → Point → Rat),
      (kind = .CELL → ∀ v, (nc v).Nodup ∧ ∀ c ∈ nc v, c < N) → (kind = .CELL → ∀ v, (nc' v).Nodup ∧ ∀ c ∈ nc' v, c < N) →
      ∀ (gm : List (Reg.Region Point)) (d : Nat) (w w' : World), Fresh w kind N → Fresh w' kind N →
      (∀ r ∈ gm, r.type ≠ .LABELEDSET) → (∀ n r, findRegion gm n = some r → Reg.Placed gm kind d n) → Sane gm w kind →
      ∀ n r, findRegion gm n = some r → ∃ a w1 x a' w1' x',
        Reg.build (geoOf s.gmesh fr nc pic ds) gm d w n kind true = .ok (some a, w1) ∧ w1.heap[a]? = some x ∧
        Reg.build (geoOf (SimpleGeom.simpleMesh dd bx) fr' nc' pic' ds') gm d w' n kind true = .ok (some a', w1') ∧ w1'.heap[a']? = some x' ∧
        ((MSet.entities x .ALL).map ren).Perm (MSet.entities x' .ALL) := by
  obtain ⟨cell, face, node, -, -, -, ha, h7, h8⟩ := frameworks_alike hp h
  refine ⟨cell, face, node, h7, h8, ?_⟩
  intro kind ren N hk fr fr' nc nc' pic pic' ds ds' hnc hnc' gm d w w' hw hw' hl hpl hs n r hr
  have al : Alike (geoOf s.gmesh fr nc pic ds) (geoOf (SimpleGeom.simpleMesh dd bx) fr' nc' pic' ds') kind N ren := by
    obtain ⟨a1, a2, a3⟩ := ha fr fr' nc nc' pic pic' ds ds'
    rcases hk with ⟨rfl, rfl, rfl⟩ | ⟨rfl, rfl, rfl⟩ | ⟨rfl, rfl, rfl⟩
    exacts [a1, a2, a3]
  have hs' : Sane gm w' kind := ⟨hs.union, hs.diff, fun _ _ _ _ => hw'.counts.2⟩
  obtain ⟨a, w1, x, a', w1', x', e1, e2, e3, e4, e5, -⟩ := region_sets_correspond al
    (by simp only [MSet.MeshView.nAll, hw.counts.1, hw.counts.2, Nat.add_zero])
    (by simp only [MSet.MeshView.nAll, hw'.counts.1, hw'.counts.2, Nat.add_zero])
    (hw.fits hnc hl) (hw'.fits hnc' hl) hs hs' hpl (inOrder_fresh hw.heap hw.reg) (inOrder_fresh hw'.heap hw'.reg) n r hr true true
  exact ⟨a, w1, x, a', w1', x', e1, e2, e3, e4, e5⟩

/-- a world with `n` owned entities of every kind -/
def freshWorld (n : Nat) : World := ⟨fun _ => ⟨fun e => if e < n then .PARALLEL_OWNED else .TYPE_UNKNOWN, n, 0⟩, [], []⟩

theorem fresh_freshWorld (n : Nat) (kind : EntityKind) : Fresh (freshWorld n) kind n := by
  refine ⟨rfl, rfl, fun e => ?_, fun e => ?_, rfl, rfl⟩
  · simp only [freshWorld]; split <;> simp_all
  · simp only [freshWorld]; split <;> simp

/-- two boxes as made by the constructor, and the first without the second -/
noncomputable def boxGm : List (Reg.Region Point) :=
  [regionOf ([], []) (.box ⟨"A", 1, 3, .PERMANENT⟩ (mk3 0 0 0) (mk3 2 2 2)), regionOf ([], []) (.box ⟨"B", 2, 3, .PERMANENT⟩ (mk3 1 0 0) (mk3 2 2 2)),
    regionOf ([], []) (.logical ⟨"C", 3, 3, .PERMANENT⟩ (some .SUBTRACT) ["A", "B"])]

example : mkBox "A" 1 (mk3 0 0 0) (mk3 2 2 2) .PERMANENT = .value (.box ⟨"A", 1, 3, .PERMANENT⟩ (mk3 0 0 0) (mk3 2 2 2)) := by
  simp [mkBox, mk3, Point.coord, List.range_succ]

theorem boxGm_cases {n : String} {r : Reg.Region Point} (h : findRegion boxGm n = some r) : (n = "A" ∧ r.type = .BOX) ∨ (n = "B" ∧ r.type = .BOX) ∨
    (n = "C" ∧ r.type = .LOGICAL ∧ r.op = .SUBTRACT ∧ r.comps = ["A", "B"]) := by
  obtain ⟨h1, h2⟩ := findRegion_mem h
  simp only [boxGm, List.mem_cons, List.not_mem_nil, or_false] at h1
  rcases h1 with rfl | rfl | rfl <;> simp only [regionOf, AnyRegion.name, AnyRegion.base] at h2 <;> subst h2 <;>
    simp [regionOf, AnyRegion.type, AnyRegion.operation, AnyRegion.components]

theorem boxGm_placed (kind : EntityKind) (hk : Positional kind .BOX = true) : ∀ n r, findRegion boxGm n = some r → Reg.Placed boxGm kind 1 n := by
  have hA : Reg.Placed boxGm kind 0 "A" := .prim 0 "A" (boxGm.head (by simp [boxGm])) (by simp [findRegion, boxGm, regionOf, AnyRegion.name, AnyRegion.base]) hk
  have hB : Reg.Placed boxGm kind 0 "B" := .prim 0 "B" (boxGm.tail.head (by simp [boxGm])) (by simp [findRegion, boxGm, regionOf, AnyRegion.name, AnyRegion.base]) hk
  intro n r hr
  rcases boxGm_cases hr with ⟨rfl, ht⟩ | ⟨rfl, ht⟩ | ⟨rfl, ht, ho, hc⟩
  · exact .prim 1 _ r hr (ht ▸ hk)
  · exact .prim 1 _ r hr (ht ▸ hk)
  · exact .logical 0 _ r hr ht (by simp [ho]) (by simp [hc]) (by simp [hc]) (by simp [hc, hA, hB])

/-- the hypotheses are met: a mesh of 2 x 3 x 4 cells and the region C -/
example : ∃ (s : Source ℝ) (cell : Nat → Nat) (a : Nat) (w1 : World) (x : MSet.Obj) (a' : Nat) (w1' : World) (x' : MSet.Obj),
    cell 1 = 6 ∧
    Reg.build (geoOf s.gmesh true (fun _ => []) (fun _ _ => false) (fun _ _ => (0 : Rat))) boxGm 1 (freshWorld 24) "C" .CELL true = .ok (some a, w1) ∧
    w1.heap[a]? = some x ∧
    Reg.build (geoOf (SimpleGeom.simpleMesh ⟨2, 3, 4⟩ ⟨-1, 0, 2, 1, 9, 4⟩) true (fun _ => []) (fun _ _ => false) (fun _ _ => (0 : Rat))) boxGm 1
      (freshWorld 24) "C" .CELL true = .ok (some a', w1') ∧ w1'.heap[a']? = some x' ∧
    ((MSet.entities x .ALL).map cell).Perm (MSet.entities x' .ALL) := by
  have hp : SimpleGeom.Proper ⟨2, 3, 4⟩ ⟨-1, 0, 2, 1, 9, 4⟩ := by constructor <;> norm_num
  obtain ⟨s, g, r, h, _⟩ := same_mesh_exists hp
  obtain ⟨cell, face, node, h1, -, h2⟩ := frameworks_same_region_sets hp h
  obtain ⟨a, w1, x, a', w1', x', k⟩ := h2 .CELL cell 24 (Or.inl ⟨rfl, rfl, rfl⟩) true true (fun _ => []) (fun _ => []) (fun _ _ => false)
    (fun _ _ => false) (fun _ _ => (0 : Rat)) (fun _ _ => (0 : Rat)) (by simp) (by simp) boxGm 1 (freshWorld 24) (freshWorld 24) (fresh_freshWorld _ _)
    (fresh_freshWorld _ _) (by simp [boxGm, regionOf, AnyRegion.type]) (boxGm_placed _ rfl)
    ⟨by simp [boxGm, regionOf, AnyRegion.type, AnyRegion.operation], by simp [boxGm, regionOf, AnyRegion.type, AnyRegion.operation, AnyRegion.components],
      fun _ _ _ _ => rfl⟩ "C" _ (by simp [findRegion, boxGm, regionOf, AnyRegion.name, AnyRegion.base]; rfl)
  exact ⟨s, cell, a, w1, x, a', w1', x', h1 0 0 1 (by simp) (by simp) (by simp), k⟩

end Jali.MstkGen
