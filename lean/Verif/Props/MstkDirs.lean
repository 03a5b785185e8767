import Verif.Proof.MstkDirs
import Verif.Props.MstkOrient
/-
C108: directions of edges and faces are the same on all ranks (mesh of MSTK).
-/
namespace Jali.Mstk

/-- all ranks of a parallel run after `init_edges` -/
structure EdgeRun (W : List JMesh) : Prop where
  parts : EdgesMatch (W.map JMesh.m)
  rank : ∀ j ∈ W, j.edges = true ∧ j.serial = false ∧ initPedgeDirs false (W.map JMesh.m) j.m = some j.edgeflip

/-- all ranks of a parallel run on a 2D mesh after `init_faces` -/
structure FaceRun2 (W : List JMesh) : Prop where
  parts : EdgesMatch (W.map JMesh.m)
  rank : ∀ j ∈ W, j.faces = true ∧ j.serial = false ∧ initPfaceDirs2 false (W.map JMesh.m) j.m = some j.faceflip

/-- **C108** no exception: the flags can always be computed, and those of the edges and 2D faces are the same -/
theorem edge_flags_computed (w : List MMesh) (hw : EdgesMatch w) (m : MMesh) (hm : m ∈ w) :
    ∃ fl, initPedgeDirs false w m = some fl ∧ initPfaceDirs2 false w m = some fl ∧ fl.length = m.ne := by
  obtain ⟨fl, h1, h2, _⟩ := flips_edges hw hm flipTest fun r l hr h => (flipTest_ends hr h).1
  refine ⟨fl, h1, ?_, h2⟩
  rw [← h1]
  unfold initPfaceDirs2 setFlips
  simp only [Bool.false_eq_true, if_false]
  unfold ghostList
  have : ∀ (gs : List (Fin m.ne)) (f0 : List Bool), (∀ g ∈ gs, (m.edge g).ptype = .ghost) →
      gs.foldlM (fun fl g => (flipTest2 (received (sentEdges w MMesh.edgeAtt) (m.edge g).gid (m.edgeAtt g)) (m.edgeAtt g)).map
        fun b => if b then fl.set (m.emap.id g - 1) true else fl) f0 =
      gs.foldlM (fun fl g => (flipTest (received (sentEdges w MMesh.edgeAtt) (m.edge g).gid (m.edgeAtt g)) (m.edgeAtt g)).map
        fun b => if b then fl.set (m.emap.id g - 1) true else fl) f0 := by
    intro gs
    induction gs with
    | nil => intro f0 _; rfl
    | cons g gs ih =>
      intro f0 hg
      obtain ⟨m', hm', e', _, h4, h5⟩ := received_ends hw hm (hg g List.mem_cons_self)
      have := flipTest_ends (hw.two m' hm' e') (hw.same m' hm' m hm e' g h4)
      rw [List.foldlM_cons, List.foldlM_cons, h5]
      have e1 : m.edgeAtt g = m.ends g := rfl
      rw [e1, this.1, this.2, Option.map_some]
      exact ih _ fun x hx => hg x (List.mem_cons_of_mem _ hx)
  exact this _ _ fun g hg => by simpa using hg

theorem gid_nat (a b : Nat) : gidOf false a b = (a : Int) - 1 := by unfold gidOf; simp

/-- the ends shown for an edge with given global id are those of its owner -/
theorem edge_shown {W : List JMesh} (hW : EdgeRun W) {j : JMesh} (hj : j ∈ W) {e : Nat} {g : Int} (hg : j.edgeGid e = some g) :
    ∃ a b, j.edgeNodes e = some (a, b) ∧ ∃ m' ∈ W.map JMesh.m, ∃ e' : Fin m'.ne, (m'.edge e').ptype ≠ .ghost ∧
      ((m'.edge e').gid : Int) - 1 = g ∧ j.nodeGid a = some (((m'.ends e').1 : Int) - 1) ∧
      j.nodeGid b = some (((m'.ends e').2 : Int) - 1) := by
  obtain ⟨hE, hS, hI⟩ := hW.rank j hj
  have hm : j.m ∈ W.map JMesh.m := List.mem_map_of_mem hj
  unfold JMesh.edgeGid at hg
  rw [Option.map_eq_some_iff] at hg
  obtain ⟨eh, hat, hg⟩ := hg
  obtain ⟨fl, h1, h2, h3⟩ := flips_edges hW.parts hm flipTest fun r l hr h => (flipTest_ends hr h).1
  have hfl : fl = j.edgeflip := Option.some.inj (h1.symm.trans hI)
  subst hfl
  obtain ⟨b, hb, m', hm', e', ho, hgid, hsh⟩ := h3 eh
  have hid := j.m.enum.at_iff.mp hat
  have hen := edgeNodes_eq j ⟨hE, h2⟩ eh b hb
  rw [hid] at hen
  refine ⟨_, _, hen, m', hm', e', ho, ?_, ?_, ?_⟩
  · rw [hgid, ← hg, hS, gid_nat]
  · unfold JMesh.nodeGid
    rw [j.m.vnum.at_id, Option.map_some, hS, gid_nat, ← hsh]
    unfold shown MMesh.start MMesh.ends
    cases b <;> rfl
  · unfold JMesh.nodeGid
    rw [j.m.vnum.at_id, Option.map_some, hS, gid_nat, ← hsh]
    unfold shown MMesh.finish MMesh.ends
    cases b <;> rfl

/-- **C108** (edges) an edge has the same first and the same second node on every rank -/
theorem edge_nodes_agree (W : List JMesh) (hW : EdgeRun W) (j j' : JMesh) (hj : j ∈ W) (hj' : j' ∈ W) (e e' : Nat) (g : Int)
    (hg : j.edgeGid e = some g) (hg' : j'.edgeGid e' = some g) :
    ∃ a b a' b' ga gb, j.edgeNodes e = some (a, b) ∧ j'.edgeNodes e' = some (a', b') ∧
      j.nodeGid a = some ga ∧ j'.nodeGid a' = some ga ∧ j.nodeGid b = some gb ∧ j'.nodeGid b' = some gb := by
  obtain ⟨a, b, h1, m1, hm1, e1, ho1, hg1, h2, h3⟩ := edge_shown hW hj hg
  obtain ⟨a', b', h1', m2, hm2, e2, ho2, hg2, h2', h3'⟩ := edge_shown hW hj' hg'
  have : m1.ends e1 = m2.ends e2 := hW.parts.unique m1 hm1 m2 hm2 e1 e2 ho1 ho2 (by omega)
  rw [← this] at h2' h3'
  exact ⟨a, b, a', b', _, _, h1, h1', h2, h2', h3, h3'⟩

theorem face_shown2 {W : List JMesh} (hW : FaceRun2 W) {j : JMesh} (hj : j ∈ W) {e : Nat} {g : Int} (hg : j.edgeGid e = some g) :
    ∃ a b, j.faceNodes2 e = some [a, b] ∧ ∃ m' ∈ W.map JMesh.m, ∃ e' : Fin m'.ne, (m'.edge e').ptype ≠ .ghost ∧
      ((m'.edge e').gid : Int) - 1 = g ∧ j.nodeGid a = some (((m'.ends e').1 : Int) - 1) ∧
      j.nodeGid b = some (((m'.ends e').2 : Int) - 1) := by
  obtain ⟨hE, hS, hI⟩ := hW.rank j hj
  have hm : j.m ∈ W.map JMesh.m := List.mem_map_of_mem hj
  unfold JMesh.edgeGid at hg
  rw [Option.map_eq_some_iff] at hg
  obtain ⟨eh, hat, hg⟩ := hg
  obtain ⟨fl, h1, h2, h3⟩ := flips_edges hW.parts hm flipTest2 fun r l hr h => (flipTest_ends hr h).2
  have hfl : fl = j.faceflip := Option.some.inj (h1.symm.trans hI)
  subst hfl
  obtain ⟨b, hb, m', hm', e', ho, hgid, hsh⟩ := h3 eh
  have hid := j.m.enum.at_iff.mp hat
  rw [hid] at hb
  have hen : j.faceNodes2 e = some [j.m.vmap.id (j.m.start (eh, !b)) - 1, j.m.vmap.id (j.m.finish (eh, !b)) - 1] := by
    unfold JMesh.faceNodes2
    rw [if_pos hE, hat, Option.bind_some, hb, Option.map_some]
    unfold MMesh.start MMesh.finish
    cases b <;> rfl
  refine ⟨_, _, hen, m', hm', e', ho, ?_, ?_, ?_⟩
  · rw [hgid, ← hg, hS, gid_nat]
  · unfold JMesh.nodeGid
    rw [j.m.vnum.at_id, Option.map_some, hS, gid_nat, ← hsh]
    unfold shown MMesh.start MMesh.ends
    cases b <;> rfl
  · unfold JMesh.nodeGid
    rw [j.m.vnum.at_id, Option.map_some, hS, gid_nat, ← hsh]
    unfold shown MMesh.finish MMesh.ends
    cases b <;> rfl

/-- **C108** (2D faces) a face has the same first and the same second node on every rank -/
theorem face_nodes_agree2 (W : List JMesh) (hW : FaceRun2 W) (j j' : JMesh) (hj : j ∈ W) (hj' : j' ∈ W) (f f' : Nat) (g : Int)
    (hg : j.edgeGid f = some g) (hg' : j'.edgeGid f' = some g) :
    ∃ a b a' b' ga gb, j.faceNodes2 f = some [a, b] ∧ j'.faceNodes2 f' = some [a', b'] ∧
      j.nodeGid a = some ga ∧ j'.nodeGid a' = some ga ∧ j.nodeGid b = some gb ∧ j'.nodeGid b' = some gb := by
  obtain ⟨a, b, h1, m1, hm1, e1, ho1, hg1, h2, h3⟩ := face_shown2 hW hj hg
  obtain ⟨a', b', h1', m2, hm2, e2, ho2, hg2, h2', h3'⟩ := face_shown2 hW hj' hg'
  have : m1.ends e1 = m2.ends e2 := hW.parts.unique m1 hm1 m2 hm2 e1 e2 ho1 ho2 (by omega)
  rw [← this] at h2' h3'
  exact ⟨a, b, a', b', _, _, h1, h1', h2, h2', h3, h3'⟩

theorem cyclicPairs_rotated {α : Type} {l l' : List α} (h : l.IsRotated l') (x : α × α) :
    x ∈ cyclicPairs l ↔ x ∈ cyclicPairs l' := by
  obtain ⟨n, rfl⟩ := h
  unfold cyclicPairs
  rw [List.rotate_rotate, Nat.add_comm, ← List.rotate_rotate]
  rw [List.zip_eq_zipWith, List.zip_eq_zipWith, ← List.zipWith_rotate_distrib _ _ _ _ (by simp), List.mem_rotate]

theorem along_cases {o : Option (Nat × Nat)} {d : Int} {a b x y : Nat} (ho : o = some (a, b)) (h : along o d = some (x, y)) :
    (d = 1 ∧ x = a ∧ y = b) ∨ (d = -1 ∧ x = b ∧ y = a) := by
  subst ho
  simp only [along, Option.bind_some] at h
  split at h
  · simp only [Option.some.injEq, Prod.mk.injEq] at h; exact Or.inl ⟨by assumption, h.1.symm, h.2.symm⟩
  · split at h
    · simp only [Option.some.injEq, Prod.mk.injEq] at h; exact Or.inr ⟨by assumption, h.1.symm, h.2.symm⟩
    · cases h

/-- **C108** (2D) a face has the same direction in a cell on every rank, if the ranks list the nodes of the cell in the same
cyclic order -/
theorem face_dirs_agree2 (W : List JMesh) (hW : FaceRun2 W) (j j' : JMesh) (hj : j ∈ W) (hj' : j' ∈ W) (hp : j.m.Polygons)
    (hp' : j'.m.Polygons) (c c' f f' : Nat) (g d d' : Int) (fs fs' : List (Nat × Int)) (ns ns' : List Nat)
    (hfs : j.cellFaces2 c = some fs) (hfs' : j'.cellFaces2 c' = some fs') (hns : j.cellNodes2 c = some ns)
    (hns' : j'.cellNodes2 c' = some ns') (hcyc : (ns.map j.nodeGid).IsRotated (ns'.map j'.nodeGid))
    (hnd : (ns.map j.nodeGid).Nodup) (h3 : 3 ≤ ns.length) (hg : j.edgeGid f = some g) (hg' : j'.edgeGid f' = some g)
    (hd : (f, d) ∈ fs) (hd' : (f', d') ∈ fs') : d = d' := by
  have ready : ∀ i ∈ W, i.Ready2 := by
    intro i hi
    obtain ⟨h1, _, h3⟩ := hW.rank i hi
    obtain ⟨fl, _, h5, h6⟩ := edge_flags_computed _ hW.parts i.m (List.mem_map_of_mem hi)
    have : fl = i.faceflip := Option.some.inj (h5.symm.trans h3)
    exact ⟨h1, this ▸ h6⟩
  obtain ⟨a, b, a', b', ga, gb, n1, n2, a1, a2, b1, b2⟩ := face_nodes_agree2 W hW j j' hj hj' f f' g hg hg'
  have w1 := cell_faces_walk_nodes2 j (ready j hj) hp c fs ns hfs hns
  have w2 := cell_faces_walk_nodes2 j' (ready j' hj') hp' c' fs' ns' hfs' hns'
  have m1 : along (twoNodes (j.faceNodes2 f)) d ∈ (cyclicPairs ns).map some := by
    rw [← w1]; exact List.mem_map.mpr ⟨(f, d), hd, rfl⟩
  have m2 : along (twoNodes (j'.faceNodes2 f')) d' ∈ (cyclicPairs ns').map some := by
    rw [← w2]; exact List.mem_map.mpr ⟨(f', d'), hd', rfl⟩
  obtain ⟨⟨x, y⟩, p1, q1⟩ := List.mem_map.mp m1
  obtain ⟨⟨x', y'⟩, p2, q2⟩ := List.mem_map.mp m2
  have P1 : (j.nodeGid x, j.nodeGid y) ∈ cyclicPairs (ns.map j.nodeGid) := by
    rw [cyclicPairs_map]; exact List.mem_map.mpr ⟨_, p1, rfl⟩
  have P2 : (j'.nodeGid x', j'.nodeGid y') ∈ cyclicPairs (ns.map j.nodeGid) := by
    rw [cyclicPairs_rotated hcyc, cyclicPairs_map]; exact List.mem_map.mpr ⟨_, p2, rfl⟩
  have t1 : twoNodes (j.faceNodes2 f) = some (a, b) := by rw [n1]; rfl
  have t2 : twoNodes (j'.faceNodes2 f') = some (a', b') := by rw [n2]; rfl
  have nb := not_both_ways hnd (by simpa using h3) P1
  rcases along_cases t1 q1.symm with ⟨e1, rfl, rfl⟩ | ⟨e1, rfl, rfl⟩ <;>
    rcases along_cases t2 q2.symm with ⟨e2, rfl, rfl⟩ | ⟨e2, rfl, rfl⟩
  · rw [e1, e2]
  · rw [a2, b2, ← a1, ← b1] at P2; exact absurd P2 nb
  · rw [a2, b2, ← a1, ← b1] at P2; exact absurd P2 nb
  · rw [e1, e2]

/-! ### Faces of 3D meshes -/

/-- all ranks of a parallel run on a 3D mesh after `init_faces` -/
structure FaceRun3 (W : List JMesh) : Prop where
  parts : FacesMatch (W.map JMesh.m)
  regions : ∀ j ∈ W, j.m.Regions
  polygons : ∀ j ∈ W, j.m.Polygons
  rank : ∀ j ∈ W, j.faces = true ∧ j.serial = false ∧ initPfaceDirs3 false (W.map JMesh.m) j.m = some j.faceflip

/-- what the flag of a face should be: true if the copy of the owner is directed otherwise -/
theorem flipTest_sides {m m' : MMesh} (hr : m.Regions) (hr' : m'.Regions) {f : Fin m.nf} {f' : Fin m'.nf} {σ : Bool}
    (hc : CopyOf m m' f f' σ)
    (hd : ∀ g d, g ≠ 0 → m.Uses g f d → m.Uses g f (!d) → False)
    (hd' : ∀ g d, g ≠ 0 → m'.Uses g f' d → m'.Uses g f' (!d) → False)
    (hb : ∃ g d, g ≠ 0 ∧ m.Uses g f d) (hk : ∀ g d, g ≠ 0 → m.Uses g f d → ∃ d', m'.Uses g f' d') :
    flipTest (m'.faceAtt f') (m.faceAtt f) = some σ := by
  -- sides as numbers
  have S : ∀ s, m.sideGid f s ≠ 0 → m'.sideGid f' (xor s σ) = m.sideGid f s := by
    intro s hs
    have u := (sideGid_iff m hr f s _ hs).mp rfl
    obtain ⟨d', u'⟩ := hk _ _ hs u
    have := hc.uses _ _ _ hs u u'
    rw [sideGid_iff m' hr' f' _ _ hs]
    rw [this] at u'
    cases s <;> cases σ <;> exact u'
  have D : ∀ s, m.sideGid f s ≠ 0 → m.sideGid f s ≠ m.sideGid f (!s) := by
    intro s hs e
    exact hd _ _ hs ((sideGid_iff m hr f s _ hs).mp rfl) ((sideGid_iff m hr f (!s) _ hs).mp e.symm)
  have D' : ∀ s, m'.sideGid f' s ≠ 0 → m'.sideGid f' s ≠ m'.sideGid f' (!s) := by
    intro s hs e
    exact hd' _ _ hs ((sideGid_iff m' hr' f' s _ hs).mp rfl) ((sideGid_iff m' hr' f' (!s) _ hs).mp e.symm)
  have B : m.sideGid f false ≠ 0 ∨ m.sideGid f true ≠ 0 := by
    obtain ⟨g, d, hg, u⟩ := hb
    cases d
    · right; rw [(sideGid_iff m hr f true g hg).mpr u]; exact hg
    · left; rw [(sideGid_iff m hr f false g hg).mpr u]; exact hg
  have S0 := S false; have S1 := S true
  have D0 := D false; have D1 := D true
  have E0 := D' false; have E1 := D' true
  unfold flipTest MMesh.faceAtt
  simp only [Bool.not_false, Bool.not_true] at *
  cases σ with
  | true =>
    simp only [Bool.bne_true, Bool.not_false, Bool.not_true] at S0 S1
    rw [if_pos]
    by_cases z0 : m.sideGid f false = 0
    · by_cases z1 : m.sideGid f true = 0
      · exact absurd z1 (by rcases B with h | h; exact absurd z0 h; exact h)
      · right; exact S1 z1
    · left; exact S0 z0
  | false =>
    simp only [Bool.bne_false] at S0 S1
    have hn : ¬(m'.sideGid f' true = m.sideGid f false ∨ m'.sideGid f' false = m.sideGid f true) := by
      rintro (h | h)
      · by_cases z0 : m.sideGid f false = 0
        · have z1 : m.sideGid f true ≠ 0 := by rcases B with h | h; exact absurd z0 h; exact h
          have := S1 z1; omega
        · have := S0 z0
          exact E0 (by omega) (by omega)
      · by_cases z1 : m.sideGid f true = 0
        · have z0 : m.sideGid f false ≠ 0 := by rcases B with h | h; exact h; exact absurd z1 h
          have := S0 z0; omega
        · have := S1 z1
          exact E1 (by omega) (by omega)
    rw [if_neg hn, if_neg]
    rintro ⟨h1, h2⟩
    rcases B with z | z
    · exact h2 (S0 z)
    · exact h1 (S1 z)

theorem received_face {w : List MMesh} (hw : FacesMatch w) {m : MMesh} (hm : m ∈ w) {f : Fin m.nf}
    (hg : (m.face f).ptype = .ghost) : ∃ m' ∈ w, ∃ f' : Fin m'.nf, (m'.face f').ptype = .overlap ∧
      (m'.face f').gid = (m.face f).gid ∧
      received (sentFaces w MMesh.faceAtt) (m.face f).gid (m.faceAtt f) = m'.faceAtt f' := by
  obtain ⟨m1, hm1, e1, ho1, hg1⟩ := hw.owner m hm f hg
  have := received_mem (sentFaces w MMesh.faceAtt) (m.face f).gid (m.faceAtt f)
    ⟨_, (mem_sentFaces _ _ _ _).mpr ⟨m1, hm1, e1, ho1, hg1, rfl⟩⟩
  obtain ⟨m', hm', e', h1, h2, h3⟩ := (mem_sentFaces _ _ _ _).mp this
  exact ⟨m', hm', e', h1, h2, h3.symm⟩

/-- the flags say whether the owner's copy is directed otherwise -/
theorem flips_faces {w : List MMesh} (hw : FacesMatch w) (hl : GhostLayer w) (hr : ∀ m ∈ w, m.Regions) {m : MMesh} (hm : m ∈ w) :
    ∃ fl, initPfaceDirs3 false w m = some fl ∧ fl.length = m.nf ∧
      ∀ f, ∃ b, fl[m.fmap.id f - 1]? = some b ∧ ∃ m' ∈ w, ∃ f' : Fin m'.nf, (m'.face f').ptype ≠ .ghost ∧
        (m'.face f').gid = (m.face f).gid ∧ CopyOf m m' f f' b := by
  have T : ∀ f, (m.face f).ptype = .ghost → ∃ b, flipTest (received (sentFaces w MMesh.faceAtt) (m.face f).gid (m.faceAtt f))
      (m.faceAtt f) = some b ∧ ∃ m' ∈ w, ∃ f' : Fin m'.nf, (m'.face f').ptype ≠ .ghost ∧
        (m'.face f').gid = (m.face f).gid ∧ CopyOf m m' f f' b := by
    intro f hf
    obtain ⟨m', hm', f', h1, h2, h3⟩ := received_face hw hm hf
    have hng : (m'.face f').ptype ≠ .ghost := by rw [h1]; decide
    obtain ⟨σ, hσ⟩ := hw.same m hm m' hm' f f' h2.symm
    refine ⟨σ, ?_, m', hm', f', hng, h2, hσ⟩
    rw [h3]
    exact flipTest_sides (hr m hm) (hr m' hm') hσ (hw.different m hm f) (hw.different m' hm' f') (hw.bounds m hm f)
      (hl m hm m' hm' f f' h2.symm hng)
  have key := setFlips_get m.fnum (fun f => (m.face f).ptype) fun f =>
      flipTest (received (sentFaces w MMesh.faceAtt) (m.face f).gid (m.faceAtt f)) (m.faceAtt f)
  obtain ⟨fl, hfl⟩ := key.1 (by
    intro v hv
    obtain ⟨b, h, _⟩ := T v hv
    exact ⟨b, h⟩)
  obtain ⟨hlen, hget⟩ := key.2 fl hfl
  refine ⟨fl, hfl, hlen, fun f => ⟨_, hget f, ?_⟩⟩
  by_cases he : (m.face f).ptype = .ghost
  · obtain ⟨b, h1, m', hm', f', h2, h3, h4⟩ := T f he
    refine ⟨m', hm', f', h2, h3, ?_⟩
    rw [h1]
    cases b <;> simpa [he] using h4
  · refine ⟨m, hm, f, he, rfl, ?_⟩
    simp only [he, false_and, decide_false]
    refine ⟨List.IsRotated.refl _, ?_⟩
    intro g d d' hg u u'
    rw [Bool.xor_false]
    by_contra hne
    have : d' = !d := by cases d <;> cases d' <;> simp_all
    rw [this] at u'
    exact hw.different m hm f g d hg u u'

/-- **C108** (3D) no exception, if there is a layer of ghost cells -/
theorem face_flags_computed (w : List MMesh) (hw : FacesMatch w) (hl : GhostLayer w) (hr : ∀ m ∈ w, m.Regions) (m : MMesh)
    (hm : m ∈ w) : ∃ fl, initPfaceDirs3 false w m = some fl ∧ fl.length = m.nf := by
  obtain ⟨fl, h1, h2, _⟩ := flips_faces hw hl hr hm
  exact ⟨fl, h1, h2⟩

theorem FaceRun3.ready {W : List JMesh} (hW : FaceRun3 W) (hl : GhostLayer (W.map JMesh.m)) {j : JMesh} (hj : j ∈ W) :
    j.Ready3 ∧ j.serial = false ∧ ∀ f, ∃ b, j.faceflip[j.m.fmap.id f - 1]? = some b ∧ ∃ m' ∈ W.map JMesh.m,
      ∃ f' : Fin m'.nf, (m'.face f').ptype ≠ .ghost ∧ (m'.face f').gid = (j.m.face f).gid ∧ CopyOf j.m m' f f' b := by
  obtain ⟨h1, h2, h3⟩ := hW.rank j hj
  have hr : ∀ m ∈ W.map JMesh.m, m.Regions := by
    intro m hm
    obtain ⟨i, hi, rfl⟩ := List.mem_map.mp hm
    exact hW.regions i hi
  obtain ⟨fl, h4, h5, h6⟩ := flips_faces hW.parts hl hr (List.mem_map_of_mem (f := JMesh.m) hj)
  have : fl = j.faceflip := Option.some.inj (h4.symm.trans h3)
  subst this
  exact ⟨⟨h1, h5⟩, h2, h6⟩

/-- the nodes shown for a face, by global id -/
theorem shown_cycle (j : JMesh) (h : j.Ready3) (hs : j.serial = false) (hp : j.m.Polygons) (f : Fin j.m.nf) (b : Bool)
    (hb : j.faceflip[j.m.fmap.id f - 1]? = some b) :
    ∃ ns, j.faceNodes3 (j.m.fmap.id f - 1) = some ns ∧ (ns.map j.nodeGid).IsRotated
      ((if b then (j.m.cycle f).reverse else j.m.cycle f).map fun g : Nat => some ((g : Int) - 1)) := by
  unfold JMesh.faceNodes3
  rw [if_pos h.faces, j.m.fnum.at_id f, Option.bind_some, hb, Option.map_some]
  refine ⟨_, rfl, ?_⟩
  rw [List.map_map]
  have e : ∀ l : List (Fin j.m.nv), l.map (j.nodeGid ∘ fun v => j.m.vmap.id v - 1) =
      (l.map fun v => (j.m.vtx v).gid).map fun g : Nat => some ((g : Int) - 1) := by
    intro l
    rw [List.map_map]
    apply List.map_congr_left
    intro v _
    show j.nodeGid _ = _
    unfold JMesh.nodeGid
    rw [j.m.vnum.at_id, Option.map_some, hs, gid_nat]
    rfl
  rw [e]
  apply List.IsRotated.map
  have c : j.m.cycle f = ((j.m.face f).edges.map j.m.start).map fun v => (j.m.vtx v).gid := by
    unfold MMesh.cycle; rw [List.map_map]; rfl
  cases b with
  | false =>
    rw [Bool.not_false, mfVertices_true, c]
    exact List.IsRotated.refl _
  | true =>
    rw [Bool.not_true, mfVertices_false, hp.closed f, if_pos rfl, c, List.map_reverse, List.map_rotate]
    apply List.IsRotated.reverse
    exact (List.IsRotated.forall _ 1)

/-- **C108** (3D) the nodes of a face run round the face the same way on every rank, if there is a layer of ghost cells -/
theorem face_nodes_agree3 (W : List JMesh) (hW : FaceRun3 W) (hl : GhostLayer (W.map JMesh.m)) (j j' : JMesh) (hj : j ∈ W)
    (hj' : j' ∈ W) (f f' : Nat) (g : Int) (hg : j.faceGid3 f = some g) (hg' : j'.faceGid3 f' = some g) :
    ∃ ns ns', j.faceNodes3 f = some ns ∧ j'.faceNodes3 f' = some ns' ∧ (ns.map j.nodeGid).IsRotated (ns'.map j'.nodeGid) := by
  have key : ∀ i ∈ W, ∀ k, i.faceGid3 k = some g → ∃ ns, i.faceNodes3 k = some ns ∧ ∃ m' ∈ W.map JMesh.m, ∃ f' : Fin m'.nf,
      (m'.face f').ptype ≠ .ghost ∧ ((m'.face f').gid : Int) - 1 = g ∧
      (ns.map i.nodeGid).IsRotated ((m'.cycle f').map fun g : Nat => some ((g : Int) - 1)) := by
    intro i hi k hk
    obtain ⟨h1, h2, h3⟩ := hW.ready hl hi
    unfold JMesh.faceGid3 at hk
    rw [Option.map_eq_some_iff] at hk
    obtain ⟨fh, hat, hk⟩ := hk
    obtain ⟨b, hb, m', hm', f', h4, h5, h6⟩ := h3 fh
    obtain ⟨ns, h7, h8⟩ := shown_cycle i h1 h2 (hW.polygons i hi) fh b hb
    rw [i.m.fnum.at_iff.mp hat] at h7
    refine ⟨ns, h7, m', hm', f', h4, ?_, h8.trans (h6.cycle.map _).symm⟩
    rw [h5, ← hk, h2, gid_nat]
  obtain ⟨ns, h1, m1, hm1, f1, n1, g1, r1⟩ := key j hj f hg
  obtain ⟨ns', h2, m2, hm2, f2, n2, g2, r2⟩ := key j' hj' f' hg'
  refine ⟨ns, ns', h1, h2, ?_⟩
  have := (hW.parts.unique m1 hm1 m2 hm2 f1 f2 n1 n2 (by omega)).1
  exact r1.trans ((this.map _).trans r2.symm)

/-- the direction shown for a face in a cell is the one of the owner of the face -/
theorem dir_shown {W : List JMesh} (hW : FaceRun3 W) (hl : GhostLayer (W.map JMesh.m)) {i : JMesh} (hi : i ∈ W) {c f : Nat}
    {l : List (Nat × Int)} {x g gc : Int} (hgc : 0 ≤ gc) (hl' : i.cellFaces3 c = some l) (hc : i.cellGid3 c = some gc)
    (hk : i.faceGid3 f = some g) (hx : (f, x) ∈ l) :
    ∃ j' ∈ W, ∃ f' : Fin j'.m.nf, ∃ d, (j'.m.face f').ptype ≠ .ghost ∧ ((j'.m.face f').gid : Int) - 1 = g ∧
      j'.m.Uses (gc + 1).toNat f' d ∧ x = dirInt d := by
  obtain ⟨h1, h2, h3⟩ := hW.ready hl hi
  unfold JMesh.cellGid3 at hc
  rw [Option.map_eq_some_iff] at hc
  obtain ⟨r, hr, hc⟩ := hc
  rw [h2, gid_nat] at hc
  rw [cellFaces3_eq h1 hr] at hl'
  rw [← Option.some.inj hl', List.mem_map] at hx
  obtain ⟨⟨fh, dd⟩, hp, hpe⟩ := hx
  simp only [Prod.mk.injEq] at hpe
  unfold JMesh.faceGid3 at hk
  rw [← hpe.1, i.m.fnum.at_id, Option.map_some, h2, gid_nat] at hk
  have hk := Option.some.inj hk
  obtain ⟨b, hb, m', hm', f', h4, h5, h6⟩ := h3 fh
  have u : i.m.Uses (gc + 1).toNat fh dd := ⟨r, by omega, hp⟩
  have hm : i.m ∈ W.map JMesh.m := List.mem_map_of_mem hi
  obtain ⟨d', u'⟩ := hl i.m hm m' hm' fh f' h5.symm h4 _ _ (by omega) u
  have hx := h6.uses _ _ _ (by omega) u u'
  obtain ⟨j', hj', rfl⟩ := List.mem_map.mp hm'
  refine ⟨j', hj', f', d', h4, by rw [h5]; exact hk, u', ?_⟩
  rw [← hpe.2, hx]
  unfold flipDir
  rw [hb, Option.getD_some]
  cases b <;> cases dd <;> rfl

/-- **C108** (3D) a face has the same direction in a cell on every rank that knows the cell, if there is a layer of ghost
cells -/
theorem face_dirs_agree3 (W : List JMesh) (hW : FaceRun3 W) (hl : GhostLayer (W.map JMesh.m)) (j j' : JMesh) (hj : j ∈ W)
    (hj' : j' ∈ W) (c c' f f' : Nat) (g gc d d' : Int) (fs fs' : List (Nat × Int))
    (hfs : j.cellFaces3 c = some fs) (hfs' : j'.cellFaces3 c' = some fs')
    (hc : j.cellGid3 c = some gc) (hc' : j'.cellGid3 c' = some gc) (hgc : 0 ≤ gc)
    (hg : j.faceGid3 f = some g) (hg' : j'.faceGid3 f' = some g)
    (hd : (f, d) ∈ fs) (hd' : (f', d') ∈ fs') : d = d' := by
  obtain ⟨m1, hm1, f1, d1, n1, g1, u1, r1⟩ := dir_shown hW hl hj hgc hfs hc hg hd
  obtain ⟨m2, hm2, f2, d2, n2, g2, u2, r2⟩ := dir_shown hW hl hj' hgc hfs' hc' hg' hd'
  have M1 : m1.m ∈ W.map JMesh.m := List.mem_map_of_mem hm1
  have M2 : m2.m ∈ W.map JMesh.m := List.mem_map_of_mem hm2
  have := (hW.parts.unique m1.m M1 m2.m M2 f1 f2 n1 n2 (by omega)).2 _ _ |>.mp u1
  have hdd : d1 = d2 := by
    by_contra hne
    have e : d2 = !d1 := by cases d1 <;> cases d2 <;> simp_all
    rw [e] at u2
    exact hW.parts.different m2.m M2 f2 _ d1 (by omega) this u2
  rw [r1, r2, hdd]

/-- **C108** (3D) two cells that share a face see it in opposite directions even if the directions are asked for on different
ranks -/
theorem opposite_dirs_across_ranks (W : List JMesh) (hW : FaceRun3 W) (hl : GhostLayer (W.map JMesh.m)) (j j' : JMesh)
    (hj : j ∈ W) (hj' : j' ∈ W) (c c' f f' : Nat) (g gc gc' d d' : Int) (fs fs' : List (Nat × Int))
    (hfs : j.cellFaces3 c = some fs) (hfs' : j'.cellFaces3 c' = some fs')
    (hc : j.cellGid3 c = some gc) (hc' : j'.cellGid3 c' = some gc') (hgc : 0 ≤ gc) (hgc' : 0 ≤ gc') (hne : gc ≠ gc')
    (hg : j.faceGid3 f = some g) (hg' : j'.faceGid3 f' = some g)
    (hd : (f, d) ∈ fs) (hd' : (f', d') ∈ fs') : d' = -d := by
  obtain ⟨m1, hm1, f1, d1, n1, g1, u1, r1⟩ := dir_shown hW hl hj hgc hfs hc hg hd
  obtain ⟨m2, hm2, f2, d2, n2, g2, u2, r2⟩ := dir_shown hW hl hj' hgc' hfs' hc' hg' hd'
  have M1 : m1.m ∈ W.map JMesh.m := List.mem_map_of_mem hm1
  have M2 : m2.m ∈ W.map JMesh.m := List.mem_map_of_mem hm2
  have u1' := (hW.parts.unique m1.m M1 m2.m M2 f1 f2 n1 n2 (by omega)).2 _ _ |>.mp u1
  have hdd : d1 ≠ d2 := by
    rintro rfl
    obtain ⟨ra, ga, ha⟩ := u1'
    obtain ⟨rb, gb, hb⟩ := u2
    have := (hW.regions m2 hm2).sides f2 d1 ra rb ha hb
    subst this
    omega
  rw [r1, r2]
  cases d1 <;> cases d2 <;> first | rfl | exact absurd rfl hdd

/-- **C108** is false without ghost cells (3D): where a face lies between a cell of its owner and a cell of another rank, the two
cells see it in the same direction -/
theorem no_ghost_layer_wrong (W : List JMesh) (hW : FaceRun3 W) (j j' : JMesh) (hj : j ∈ W) (hj' : j' ∈ W)
    (f : Fin j.m.nf) (f' : Fin j'.m.nf) (hgid : (j.m.face f).gid = (j'.m.face f').gid) (hgh : (j.m.face f).ptype = .ghost)
    (how : (j'.m.face f').ptype = .overlap) (a b : Nat) (d d' : Bool) (ha : a ≠ 0) (hb : b ≠ 0)
    (hu : ∀ g x, j.m.Uses g f x ↔ g = b ∧ x = d) (hu' : ∀ g x, j'.m.Uses g f' x ↔ g = a ∧ x = d') (hready : j.Ready3 ∧ j'.Ready3)
    (c c' : Nat) (fs fs' : List (Nat × Int)) (x x' : Int) (hfs : j.cellFaces3 c = some fs) (hfs' : j'.cellFaces3 c' = some fs')
    (hx : (j.m.fmap.id f - 1, x) ∈ fs) (hx' : (j'.m.fmap.id f' - 1, x') ∈ fs') : x' = x := by
  have M : j.m ∈ W.map JMesh.m := List.mem_map_of_mem hj
  have M' : j'.m ∈ W.map JMesh.m := List.mem_map_of_mem hj'
  have hng : (j'.m.face f').ptype ≠ .ghost := by rw [how]; decide
  -- what the owner shows
  have shows' : ∀ (i : JMesh), i ∈ W → i.Ready3 → ∀ (k : Fin i.m.nf) (fl : Bool) (g : Nat) (dd : Bool),
      i.faceflip[i.m.fmap.id k - 1]? = some fl → (∀ g' x, i.m.Uses g' k x ↔ g' = g ∧ x = dd) → ∀ c l y, i.cellFaces3 c = some l →
      (i.m.fmap.id k - 1, y) ∈ l → y = if fl then - dirInt dd else dirInt dd := by
    intro i hi hR k fl g dd hfl hU c l y hl hy
    cases hr : (i.m.rmap i.bg).at c with
    | none => simp [JMesh.cellFaces3, hr, hR.faces] at hl
    | some r =>
      rw [cellFaces3_eq hR hr] at hl
      rw [← Option.some.inj hl, List.mem_map] at hy
      obtain ⟨⟨fh, e⟩, hp, hpe⟩ := hy
      simp only [Prod.mk.injEq] at hpe
      have := i.m.fnum.id_inj hpe.1
      subst this
      have := (hU _ _).mp ⟨r, rfl, hp⟩
      rw [← hpe.2, this.2]
      unfold flipDir
      rw [hfl, Option.getD_some]
  have flag : ∀ (i : JMesh), i ∈ W → ∀ v, i.faceflip[i.m.fmap.id v - 1]? = some (decide ((i.m.face v).ptype = .ghost ∧
      flipTest (received (sentFaces (W.map JMesh.m) MMesh.faceAtt) (i.m.face v).gid (i.m.faceAtt v)) (i.m.faceAtt v) = some true)) := by
    intro i hi
    exact ((setFlips_get i.m.fnum (fun f => (i.m.face f).ptype) fun f =>
      flipTest (received (sentFaces (W.map JMesh.m) MMesh.faceAtt) (i.m.face f).gid (i.m.faceAtt f)) (i.m.faceAtt f)).2 _
      (hW.rank i hi).2.2).2
  have F' := flag j' hj' f'
  have F := flag j hj f
  obtain ⟨m1, hm1, f1, h1, h2, h3⟩ := received_face hW.parts M hgh
  have hn1 : (m1.face f1).ptype ≠ .ghost := by rw [h1]; decide
  have U1 := (hW.parts.unique m1 hm1 j'.m M' f1 f' hn1 hng (h2.trans hgid)).2
  obtain ⟨j1, hj1, rfl⟩ := List.mem_map.mp hm1
  have side : ∀ (i : JMesh), i ∈ W → ∀ (k : Fin i.m.nf) (g : Nat) (dd : Bool), g ≠ 0 →
      (∀ g' x, g' ≠ 0 → (i.m.Uses g' k x ↔ g' = g ∧ x = dd)) → i.m.faceAtt k = if dd then (g, 0) else (0, g) := by
    intro i hi k g dd hg hU
    have A := (sideGid_iff i.m (hW.regions i hi) k (!dd) g hg).mpr ((hU _ _ hg).mpr ⟨rfl, by simp⟩)
    have B : i.m.sideGid k dd = 0 := by
      by_contra hne
      have := (hU _ _ hne).mp ((sideGid_iff i.m (hW.regions i hi) k dd _ hne).mp rfl)
      have := this.2
      cases dd <;> cases this
    unfold MMesh.faceAtt
    cases dd
    · simp only [Bool.not_false] at A; rw [A, B]; rfl
    · simp only [Bool.not_true] at A; rw [A, B]; rfl
  have A1 := side j1 hj1 f1 a d' ha fun g' x _ => by rw [U1, hu']
  have A2 := side j hj f b d hb fun g' x _ => hu g' x
  rw [h3, A1, A2] at F
  have X := shows' j hj hready.1 f _ b d F hu c fs x hfs hx
  have X' := shows' j' hj' hready.2 f' _ a d' F' hu' c' fs' x' hfs' hx'
  rw [X, X']
  simp only [how, hgh]
  have ha' : ¬ 0 = a := fun e => ha e.symm
  have hb' : ¬ 0 = b := fun e => hb e.symm
  cases d <;> cases d' <;> simp [flipTest, dirInt, ha, hb, ha', hb']

/-! ### Examples -/

/-- two tetrahedra on a common face; rank 0 owns the first, the face, and everything on it -/
abbrev rank0 : MMesh where
  nv := 5
  ne := 9
  nf := 7
  nr := 2
  vtx := ![⟨.overlap, 1⟩, ⟨.overlap, 2⟩, ⟨.overlap, 3⟩, ⟨.overlap, 4⟩, ⟨.ghost, 5⟩]
  edge := ![⟨.overlap, 1, 0, 1, false⟩,
    ⟨.overlap, 2, 1, 2, false⟩,
    ⟨.overlap, 3, 2, 0, false⟩,
    ⟨.overlap, 4, 0, 3, false⟩,
    ⟨.overlap, 5, 1, 3, false⟩,
    ⟨.overlap, 6, 2, 3, false⟩,
    ⟨.ghost, 7, 0, 4, false⟩,
    ⟨.ghost, 8, 1, 4, false⟩,
    ⟨.ghost, 9, 2, 4, false⟩]
  face := ![⟨.overlap, 1, [(0, true), (1, true), (2, true)], false, false⟩,
    ⟨.overlap, 2, [(0, true), (4, true), (3, false)], false, false⟩,
    ⟨.overlap, 3, [(1, true), (5, true), (4, false)], false, false⟩,
    ⟨.overlap, 4, [(2, true), (3, true), (5, false)], false, false⟩,
    ⟨.ghost, 5, [(0, true), (7, true), (6, false)], false, false⟩,
    ⟨.ghost, 6, [(1, true), (8, true), (7, false)], false, false⟩,
    ⟨.ghost, 7, [(2, true), (6, true), (8, false)], false, false⟩]
  region := ![⟨.overlap, 1, [(0, true), (1, false), (2, false), (3, false)], false⟩,
    ⟨.ghost, 2, [(0, false), (4, true), (5, true), (6, true)], false⟩]

/-- the same on rank 1, which owns the second; the common face and one of its edges are directed otherwise -/
abbrev rank1 : MMesh where
  nv := 5
  ne := 9
  nf := 7
  nr := 2
  vtx := ![⟨.ghost, 1⟩, ⟨.ghost, 2⟩, ⟨.ghost, 3⟩, ⟨.ghost, 4⟩, ⟨.overlap, 5⟩]
  edge := ![⟨.ghost, 1, 1, 0, false⟩,
    ⟨.ghost, 2, 1, 2, false⟩,
    ⟨.ghost, 3, 2, 0, false⟩,
    ⟨.ghost, 4, 0, 3, false⟩,
    ⟨.ghost, 5, 1, 3, false⟩,
    ⟨.ghost, 6, 2, 3, false⟩,
    ⟨.overlap, 7, 0, 4, false⟩,
    ⟨.overlap, 8, 1, 4, false⟩,
    ⟨.overlap, 9, 2, 4, false⟩]
  face := ![⟨.ghost, 1, [(2, false), (1, false), (0, true)], false, false⟩,
    ⟨.ghost, 2, [(0, false), (4, true), (3, false)], false, false⟩,
    ⟨.ghost, 3, [(1, true), (5, true), (4, false)], false, false⟩,
    ⟨.ghost, 4, [(2, true), (3, true), (5, false)], false, false⟩,
    ⟨.overlap, 5, [(0, false), (7, true), (6, false)], false, false⟩,
    ⟨.overlap, 6, [(1, true), (8, true), (7, false)], false, false⟩,
    ⟨.overlap, 7, [(2, true), (6, true), (8, false)], false, false⟩]
  region := ![⟨.ghost, 1, [(0, false), (1, false), (2, false), (3, false)], false⟩,
    ⟨.overlap, 2, [(0, true), (4, true), (5, true), (6, true)], false⟩]

/-- the first tetrahedron without ghost cells -/
abbrev alone0 : MMesh where
  nv := 4
  ne := 6
  nf := 4
  nr := 1
  vtx := ![⟨.overlap, 1⟩, ⟨.overlap, 2⟩, ⟨.overlap, 3⟩, ⟨.overlap, 4⟩]
  edge := ![⟨.overlap, 1, 0, 1, false⟩,
    ⟨.overlap, 2, 1, 2, false⟩,
    ⟨.overlap, 3, 2, 0, false⟩,
    ⟨.overlap, 4, 0, 3, false⟩,
    ⟨.overlap, 5, 1, 3, false⟩,
    ⟨.overlap, 6, 2, 3, false⟩]
  face := ![⟨.overlap, 1, [(0, true), (1, true), (2, true)], false, false⟩,
    ⟨.overlap, 2, [(0, true), (4, true), (3, false)], false, false⟩,
    ⟨.overlap, 3, [(1, true), (5, true), (4, false)], false, false⟩,
    ⟨.overlap, 4, [(2, true), (3, true), (5, false)], false, false⟩]
  region := ![⟨.overlap, 1, [(0, true), (1, false), (2, false), (3, false)], false⟩]

/-- the second tetrahedron without ghost cells -/
abbrev alone1 : MMesh where
  nv := 4
  ne := 6
  nf := 4
  nr := 1
  vtx := ![⟨.ghost, 1⟩, ⟨.ghost, 2⟩, ⟨.ghost, 3⟩, ⟨.overlap, 5⟩]
  edge := ![⟨.ghost, 1, 1, 0, false⟩,
    ⟨.ghost, 2, 1, 2, false⟩,
    ⟨.ghost, 3, 2, 0, false⟩,
    ⟨.overlap, 7, 0, 3, false⟩,
    ⟨.overlap, 8, 1, 3, false⟩,
    ⟨.overlap, 9, 2, 3, false⟩]
  face := ![⟨.ghost, 1, [(2, false), (1, false), (0, true)], false, false⟩,
    ⟨.overlap, 5, [(0, false), (4, true), (3, false)], false, false⟩,
    ⟨.overlap, 6, [(1, true), (5, true), (4, false)], false, false⟩,
    ⟨.overlap, 7, [(2, true), (3, true), (5, false)], false, false⟩]
  region := ![⟨.overlap, 2, [(0, true), (1, true), (2, true), (3, true)], false⟩]

theorem usesPair_of (m m' : MMesh) (f : Fin m.nf) (f' : Fin m'.nf) (σ : Bool)
    (h : ∀ (r : Fin m.nr) (r' : Fin m'.nr), (m.region r).gid = (m'.region r').gid → ∀ d d', (f, d) ∈ (m.region r).faces →
      (f', d') ∈ (m'.region r').faces → d' = xor d σ) : ∀ g d d', g ≠ 0 → m.Uses g f d → m'.Uses g f' d' → d' = xor d σ := by
  rintro g d d' _ ⟨r, h1, h2⟩ ⟨r', h3, h4⟩
  exact h r r' (h1.trans h3.symm) d d' h2 h4

/-- `EdgesMatch` for the examples -/
theorem sample_edges : EdgesMatch [rank0, rank1] := by
  constructor <;> decide +kernel

example : EdgesMatch [alone0, alone1] := by
  constructor <;> decide +kernel

theorem rank_polygons : rank0.Polygons ∧ rank1.Polygons ∧ alone0.Polygons ∧ alone1.Polygons := by
  refine ⟨⟨?_, ?_, ?_, ?_⟩, ⟨?_, ?_, ?_, ?_⟩, ⟨?_, ?_, ?_, ?_⟩, ⟨?_, ?_, ?_, ?_⟩⟩ <;> decide +kernel

theorem rank_regions : rank0.Regions ∧ rank1.Regions ∧ alone0.Regions ∧ alone1.Regions := by
  refine ⟨⟨?_, ?_⟩, ⟨?_, ?_⟩, ⟨?_, ?_⟩, ⟨?_, ?_⟩⟩ <;> decide +kernel

/-- a decidable form of `FacesMatch` -/
theorem facesMatch_of (w : List MMesh)
    (same : ∀ m ∈ w, ∀ m' ∈ w, ∀ f f', (m.face f).gid = (m'.face f').gid → ∃ σ : Bool,
      (m'.cycle f').IsRotated (if σ then (m.cycle f).reverse else m.cycle f) ∧
      ∀ (r : Fin m.nr) (r' : Fin m'.nr), (m.region r).gid = (m'.region r').gid → ∀ d d', (f, d) ∈ (m.region r).faces →
      (f', d') ∈ (m'.region r').faces → d' = xor d σ)
    (owner : ∀ m ∈ w, ∀ f, (m.face f).ptype = .ghost → ∃ m' ∈ w, ∃ f', (m'.face f').ptype = .overlap ∧ (m'.face f').gid = (m.face f).gid)
    (unique : ∀ m ∈ w, ∀ m' ∈ w, ∀ f f', (m.face f).ptype ≠ .ghost → (m'.face f').ptype ≠ .ghost →
      (m.face f).gid = (m'.face f').gid → (m.cycle f).IsRotated (m'.cycle f') ∧
      (∀ r d, (f, d) ∈ (m.region r).faces → ∃ r', (m'.region r').gid = (m.region r).gid ∧ (f', d) ∈ (m'.region r').faces) ∧
      (∀ r d, (f', d) ∈ (m'.region r).faces → ∃ r', (m.region r').gid = (m'.region r).gid ∧ (f, d) ∈ (m.region r').faces))
    (different : ∀ m ∈ w, ∀ f r r', (m.region r).gid = (m.region r').gid → ∀ d, (f, d) ∈ (m.region r).faces →
      (f, !d) ∉ (m.region r').faces)
    (bounds : ∀ m ∈ w, ∀ f, ∃ r d, (m.region r).gid ≠ 0 ∧ (f, d) ∈ (m.region r).faces) : FacesMatch w := by
  refine ⟨?_, owner, ?_, ?_, ?_⟩
  · intro m hm m' hm' f f' h
    obtain ⟨σ, h1, h2⟩ := same m hm m' hm' f f' h
    exact ⟨σ, h1, usesPair_of _ _ _ _ _ h2⟩
  · intro m hm m' hm' f f' n n' h
    obtain ⟨h1, h2, h3⟩ := unique m hm m' hm' f f' n n' h
    refine ⟨h1, fun g d => ⟨?_, ?_⟩⟩
    · rintro ⟨r, rfl, hr⟩; exact h2 r d hr
    · rintro ⟨r, rfl, hr⟩; exact h3 r d hr
  · rintro m hm f g d _ ⟨r, h1, h2⟩ ⟨r', h3, h4⟩
    exact different m hm f r r' (h1.trans h3.symm) d h2 h4
  · intro m hm f
    obtain ⟨r, d, h1, h2⟩ := bounds m hm f
    exact ⟨_, d, h1, r, rfl, h2⟩

set_option synthInstance.maxHeartbeats 400000 in
set_option synthInstance.maxSize 2000 in
theorem sample_faces : FacesMatch [rank0, rank1] := by
  apply facesMatch_of <;> decide +kernel

set_option synthInstance.maxHeartbeats 400000 in
set_option synthInstance.maxSize 2000 in
theorem alone_faces : FacesMatch [alone0, alone1] := by
  apply facesMatch_of <;> decide +kernel

theorem sample_layer : GhostLayer [rank0, rank1] := by
  have : ∀ m ∈ [rank0, rank1], ∀ m' ∈ [rank0, rank1], ∀ f f', (m.face f).gid = (m'.face f').gid → (m'.face f').ptype ≠ .ghost →
      ∀ r d, (f, d) ∈ (m.region r).faces → ∃ r' d', (m'.region r').gid = (m.region r).gid ∧ (f', d') ∈ (m'.region r').faces := by
    decide +kernel
  rintro m hm m' hm' f f' h n g d _ ⟨r, rfl, hr⟩
  obtain ⟨r', d', h1, h2⟩ := this m hm m' hm' f f' h n r d hr
  exact ⟨d', r', h1, h2⟩

/-- the two ranks; on rank 1 the common face and the reversed edge are flipped -/
def sampleWorld : List JMesh :=
  [⟨rank0, true, true, false, false, List.replicate 7 false, List.replicate 9 false⟩,
   ⟨rank1, true, true, false, false, [false, false, false, true, false, false, false],
    [false, false, false, true, false, false, false, false, false]⟩]

/-- the hypotheses of the theorems about 3D faces and about edges hold -/
theorem sampleWorld_runs : FaceRun3 sampleWorld ∧ EdgeRun sampleWorld ∧ GhostLayer (sampleWorld.map JMesh.m) := by
  refine ⟨⟨sample_faces, ?_, ?_, ?_⟩, ⟨sample_edges, ?_⟩, sample_layer⟩
  · intro j hj
    rcases List.mem_cons.mp hj with rfl | hj
    · exact rank_regions.1
    · rcases List.mem_singleton.mp hj with rfl; exact rank_regions.2.1
  · intro j hj
    rcases List.mem_cons.mp hj with rfl | hj
    · exact rank_polygons.1
    · rcases List.mem_singleton.mp hj with rfl; exact rank_polygons.2.1
  · decide +kernel
  · decide +kernel

/-- face 0 of rank 0 is face 3 of rank 1, cell 0 of rank 0 is cell 1 of rank 1 -/
example : (sampleWorld[0]).faceGid3 0 = some 0 ∧ (sampleWorld[1]).faceGid3 3 = some 0 ∧
    (sampleWorld[0]).cellGid3 0 = some 0 ∧ (sampleWorld[1]).cellGid3 1 = some 0 := by decide +kernel

example : (sampleWorld[0]).cellFaces3 0 = some [(0, 1), (1, -1), (2, -1), (3, -1)] ∧
    (sampleWorld[1]).cellFaces3 1 = some [(3, 1), (4, -1), (5, -1), (6, -1)] := by decide +kernel

example : (sampleWorld[0]).faceNodes3 0 = some [0, 1, 2] ∧ (sampleWorld[1]).faceNodes3 3 = some [1, 2, 3] := by decide +kernel

/-- the two ranks without ghost cells -/
def aloneWorld : List JMesh :=
  [⟨alone0, true, true, false, false, List.replicate 4 false, List.replicate 6 false⟩,
   ⟨alone1, true, true, false, false, List.replicate 4 false, [false, false, false, true, false, false]⟩]

theorem aloneWorld_runs : FaceRun3 aloneWorld := by
  refine ⟨alone_faces, ?_, ?_, ?_⟩
  · intro j hj
    rcases List.mem_cons.mp hj with rfl | hj
    · exact rank_regions.2.2.1
    · rcases List.mem_singleton.mp hj with rfl; exact rank_regions.2.2.2
  · intro j hj
    rcases List.mem_cons.mp hj with rfl | hj
    · exact rank_polygons.2.2.1
    · rcases List.mem_singleton.mp hj with rfl; exact rank_polygons.2.2.2
  · decide +kernel

/-- both cells at the common face see it in direction 1 -/
example : (aloneWorld[0]).cellFaces3 0 = some [(0, 1), (1, -1), (2, -1), (3, -1)] ∧
    (aloneWorld[1]).cellFaces3 0 = some [(3, 1), (0, 1), (1, 1), (2, 1)] ∧
    (aloneWorld[0]).faceGid3 0 = some 0 ∧ (aloneWorld[1]).faceGid3 3 = some 0 := by decide +kernel

/-- the same triangles as a surface mesh (the faces are the edges) -/
def sampleWorld2 : List JMesh := sampleWorld.map fun j => { j with faceflip := j.edgeflip }

example : FaceRun2 sampleWorld2 := ⟨sample_edges, by decide +kernel⟩

/-- cell 1 of rank 0 is cell 4 of rank 1; its nodes are the same, and its first face, reversed on rank 1, has the same
direction -/
example : (sampleWorld2[0]).cellGid2 1 = some 1 ∧ (sampleWorld2[1]).cellGid2 4 = some 1 ∧
    (sampleWorld2[0]).cellFaces2 1 = some [(0, 1), (4, 1), (3, -1)] ∧
    (sampleWorld2[1]).cellFaces2 4 = some [(3, 1), (7, 1), (6, -1)] := by decide +kernel

example : ((sampleWorld2[0]).cellNodes2 1).map (fun l => l.map (sampleWorld2[0]).nodeGid) = some [some 0, some 1, some 3] ∧
    ((sampleWorld2[1]).cellNodes2 4).map (fun l => l.map (sampleWorld2[1]).nodeGid) = some [some 0, some 1, some 3] := by
  decide +kernel

end Jali.Mstk
