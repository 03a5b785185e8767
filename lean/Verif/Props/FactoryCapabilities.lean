import Verif.Props.FactoryCreate
/-! Property theorems C85, C86: what the factory says about frameworks, and what reaches the meshes it makes. -/
namespace Jali.Factory

theorem not_mesh_of_error {rs : List Rank} (hn : rs ≠ []) {l : Rank → Final} (h : ∀ r, l r = .done .error) :
    ¬ AllMesh (rs.map l) := by
  cases rs with
  | nil => exact absurd rfl hn
  | cons r rs =>
    intro hm
    obtain ⟨m, hm⟩ := hm (l r) (by simp)
    rw [h r] at hm
    cases hm

theorem allMesh_map (rs : List Rank) (m : Made) : AllMesh (rs.map fun _ => Final.done (.mesh m)) := by
  intro f hf
  obtain ⟨_, _, rfl⟩ := List.mem_map.1 hf
  exact ⟨m, rfl⟩

/-- **C85**, selection: a framework can be chosen exactly if `framework_available` says so; choosing another one raises
an error and changes nothing. -/
theorem available_iff_selectable (o : Options) (f : Framework) :
    (frameworkAvailable f = true ↔ (step o (.framework f)).framework = f ∧ setFramework o f ≠ none) ∧
      (frameworkAvailable f = false → step o (.framework f) = o) := by
  cases f <;> simp [frameworkAvailable, step, setFramework]

/-- **C85** (library built with MSTK), generation: for every valid request to generate a mesh (of dimension `d`) on any
number of ranks alike, where the framework itself does not fail, `framework_generates` tells whether a mesh is made. -/
theorem generates_iff_partial (rs : List Rank) (env : Env) (o : Options) (c : Call) (d : Nat) (hn : rs ≠ [])
    (h : Alike rs env o c) (hd : c.dim = some d) (hl : NotLine c) (hv : ¬ c.Invalid) (hm : ModelFits o c)
    (hb : o.boundaryGhosts = false) (ha : frameworkAvailable o.framework = true) (hok : ∀ s a, (env s a).isSome = true) :
    frameworkGenerates o.framework (decide (1 < rs.length)) d = true ↔ AllMesh (createAll true rs) := by
  have hlen : 0 < rs.length := List.length_pos_iff.2 hn
  have hlen' : (0 : Int) < rs.length := by omega
  rw [createAll_same true rs env o c h, solo_valid _ _ _ _ _ _ hv hm hl]
  have some_ : ∀ s a, ∃ x, env s a = some x := fun s a => Option.isSome_iff_exists.1 (hok s a)
  have herr : solo rs.length (switchOf true rs.length env o c) = .error →
      ¬ AllMesh (rs.map fun _ => Final.done (solo rs.length (switchOf true rs.length env o c))) :=
    fun he => not_mesh_of_error hn fun _ => by rw [he]
  have hmesh : ∀ m, solo rs.length (switchOf true rs.length env o c) = .mesh m →
      AllMesh (rs.map fun _ => Final.done (solo rs.length (switchOf true rs.length env o c))) :=
    fun m he => by rw [he]; exact allMesh_map rs m
  cases hf : o.framework with
  | MOAB => rw [hf] at ha; simp [frameworkAvailable] at ha
  | STKMESH => rw [hf] at ha; simp [frameworkAvailable] at ha
  | Simple =>
    by_cases h1 : rs.length = 1
    · have hp : decide (1 < rs.length) = false := by simp [h1]
      cases c with
      | box3 b =>
        simp only [Call.dim, Option.some.injEq] at hd; subst hd
        obtain ⟨x, hx⟩ := some_ (.simple3 b.x0 b.y0 b.z0 b.x1 b.y1 b.z1 b.nx b.ny b.nz) (simpleArgs o)
        refine iff_of_true (by rw [hp]; decide) (hmesh (made (.simple3 b.x0 b.y0 b.z0 b.x1 b.y1 b.z1 b.nx b.ny b.nz) { simpleArgs o with geomType := .CARTESIAN } 3) ?_)
        have hb' : (simpleArgs o).boundaryGhosts = false := hb
        simp only [switchOf, switch3, hf, if_pos h1, construct, hb', hx]
        rfl
      | box2 b =>
        simp only [Call.dim, Option.some.injEq] at hd; subst hd
        refine iff_of_false (by rw [hp]; decide) (herr ?_)
        simp only [switchOf, switch2, hf, if_pos h1, construct]
        exact solo_finish1 _ hlen'
      | points x =>
        simp only [Call.dim, Option.some.injEq] at hd; subst hd
        obtain ⟨y, hy⟩ := some_ (.simple1 x) (simpleArgs o)
        refine iff_of_true (by rw [hp]; decide) (hmesh (made (.simple1 x) { simpleArgs o with gm := none } 1) ?_)
        have hb' : (simpleArgs o).boundaryGhosts = false := hb
        simp only [switchOf, switch1, hf, if_pos h1, construct, hb', hy]
        rfl
      | line x0 x1 nx => exact absurd rfl (hl _ _ _)
      | file => cases hd
      | sub => cases hd
    · have hp : decide (1 < rs.length) = true := by simp; omega
      refine iff_of_false (by rw [hp]; simp [frameworkGenerates]) (herr ?_)
      cases c with
      | box3 b => simp only [switchOf, switch3, hf, if_neg h1]; exact solo_finish1 _ hlen'
      | box2 b => simp only [switchOf, switch2, hf, if_neg h1]; exact solo_finish1 _ hlen'
      | points x => simp only [switchOf, switch1, hf, if_neg h1]; exact solo_finish1 _ hlen'
      | line x0 x1 nx => exact absurd rfl (hl _ _ _)
      | file => cases hd
      | sub => cases hd
  | MSTK =>
    cases c with
    | box3 b =>
      simp only [Call.dim, Option.some.injEq] at hd; subst hd
      obtain ⟨x, hx⟩ := some_ (.mstk3 b.x0 b.y0 b.z0 b.x1 b.y1 b.z1 b.nx b.ny b.nz) (mstkArgs o)
      refine iff_of_true (by simp [frameworkGenerates]) (hmesh (made (.mstk3 b.x0 b.y0 b.z0 b.x1 b.y1 b.z1 b.nx b.ny b.nz) { mstkArgs o with geomType := .CARTESIAN } 3) ?_)
      simp only [switchOf, switch3, hf, construct, hx]
      rfl
    | box2 b =>
      simp only [Call.dim, Option.some.injEq] at hd; subst hd
      obtain ⟨x, hx⟩ := some_ (.mstk2 b.x0 b.y0 b.x1 b.y1 b.nx b.ny) (mstkArgs o)
      refine iff_of_true (by simp [frameworkGenerates]) (hmesh (made (.mstk2 b.x0 b.y0 b.x1 b.y1 b.nx b.ny) (mstkArgs o) 2) ?_)
      simp only [switchOf, switch2, hf, construct, hx]
      rfl
    | points x =>
      simp only [Call.dim, Option.some.injEq] at hd; subst hd
      refine iff_of_false (by simp [frameworkGenerates]) (herr ?_)
      simp only [switchOf, switch1, hf]
      exact solo_finish1 _ hlen'
    | line x0 x1 nx => exact absurd rfl (hl _ _ _)
    | file => cases hd
    | sub => cases hd

example : frameworkGenerates .MSTK true 2 = true ∧ frameworkGenerates .MSTK true 1 = false ∧
    frameworkGenerates .Simple true 3 = false := by decide

/-- **C85** (library built with MSTK), reading and extracting: for ranks behaving alike with no geometric model and a
framework that does not fail itself, a file is imported exactly if `framework_reads` says that the framework reads Exodus
files, and a part of a 2D or 3D mesh is extracted exactly if `framework_extracts` says so. -/
theorem reads_extracts_iff_partial (rs : List Rank) (env : Env) (o : Options) (c : Call) (hn : rs ≠ [])
    (h : Alike rs env o c) (hm : o.geometricModel = none) (ha : frameworkAvailable o.framework = true)
    (hok : ∀ s a, (env s a).isSome = true) :
    ((∃ name, c = .file name) →
      (frameworkReads o.framework (decide (1 < rs.length)) .ExodusII = true ↔ AllMesh (createAll true rs))) ∧
    ((∃ i s k f e, c = .sub i s k f e) → ∀ d : Int, d = 2 ∨ d = 3 →
      (frameworkExtracts o.framework (decide (1 < rs.length)) d = true ↔ AllMesh (createAll true rs))) := by
  have hlen : 0 < rs.length := List.length_pos_iff.2 hn
  have hlen' : (0 : Int) < rs.length := by omega
  rw [createAll_same true rs env o c h]
  have some_ : ∀ s a, ∃ x, env s a = some x := fun s a => Option.isSome_iff_exists.1 (hok s a)
  have herr : solo rs.length (create true rs.length env o c) = .error →
      ¬ AllMesh (rs.map fun _ => Final.done (solo rs.length (create true rs.length env o c))) :=
    fun he => not_mesh_of_error hn fun _ => by rw [he]
  have hmesh : (∃ m, solo rs.length (create true rs.length env o c) = .mesh m) →
      AllMesh (rs.map fun _ => Final.done (solo rs.length (create true rs.length env o c))) := by
    rintro ⟨m, he⟩; rw [he]; exact allMesh_map rs m
  have hfw : o.framework = .Simple ∨ o.framework = .MSTK := by
    cases hf : o.framework <;> rw [hf] at ha <;> simp [frameworkAvailable] at ha ⊢
  refine ⟨?_, ?_⟩
  · rintro ⟨name, rfl⟩
    rcases hfw with hf | hf <;> rw [hf]
    · refine iff_of_false (by simp [frameworkReads]) (herr ?_)
      simp only [create, createFile, hf]
      exact solo_finish1 _ hlen'
    · refine iff_of_true (by simp [frameworkReads]) (hmesh ?_)
      obtain ⟨x, hx⟩ := some_ (.mstkFile name) (mstkArgs o)
      simp only [create, createFile, hf, construct, hx, checkFileMesh, hm]
      exact ⟨_, rfl⟩
  · rintro ⟨i, s, k, f, e, rfl⟩ d hd
    rcases hfw with hf | hf <;> rw [hf]
    · refine iff_of_false (by simp [frameworkExtracts]) (herr ?_)
      simp only [create, createSub, hf]
      exact solo_finish1 _ hlen'
    · refine iff_of_true (by simpa [frameworkExtracts] using hd) (hmesh ?_)
      obtain ⟨x, hx⟩ := some_ (.mstkSub i s k f e) (mstkArgs o)
      simp only [create, createSub, hf, construct, hx]
      exact ⟨_, rfl⟩

example : frameworkReads .MSTK true .ExodusII = true ∧ frameworkReads .Simple false .ExodusII = false ∧
    frameworkExtracts .MSTK false 2 = true := by decide

/-- C85 is false of a library built without MSTK: MSTK is reported as available and as generating, reading and extracting
meshes, but no call of a factory using it ever yields a mesh, on any number of ranks. -/
theorem mstk_reported_without_build (rs : List Rank) (env : Env) (o : Options) (c : Call) (hn : rs ≠ [])
    (h : Alike rs env o c) (hf : o.framework = .MSTK) :
    frameworkAvailable .MSTK = true ∧ frameworkGenerates .MSTK (decide (1 < rs.length)) 2 = true ∧
      frameworkReads .MSTK (decide (1 < rs.length)) .ExodusII = true ∧
      frameworkExtracts .MSTK (decide (1 < rs.length)) 3 = true ∧ ¬ AllMesh (createAll false rs) := by
  refine ⟨rfl, rfl, rfl, rfl, ?_⟩
  have hlen : 0 < rs.length := List.length_pos_iff.2 hn
  have hlen' : (0 : Int) < rs.length := by omega
  rw [createAll_same false rs env o c h]
  have key : ∀ m, solo rs.length (create false rs.length env o c) ≠ .mesh m := by
    intro m hm
    have one : ∀ x, solo rs.length (create1 rs.length env o x) ≠ .mesh m := by
      intro x hm
      rw [solo_create1 _ hlen'] at hm
      split at hm
      · cases hm
      · simp only [switch1, hf] at hm
        rw [solo_finish1 _ hlen'] at hm; cases hm
    cases c with
    | file name =>
      simp only [create, createFile, hf] at hm
      rw [solo_finish1 _ hlen'] at hm; cases hm
    | sub i s k f e =>
      simp only [create, createSub, hf] at hm
      rw [solo_finish1 _ hlen'] at hm; cases hm
    | box3 b =>
      simp only [create, create3, switch3, hf] at hm
      split at hm
      · cases hm
      · have hm := solo_check_mesh (solo_check_mesh hm)
        rw [solo_finish1 _ hlen'] at hm; cases hm
    | box2 b =>
      simp only [create, create2, switch2, hf] at hm
      split at hm
      · cases hm
      · have hm := solo_check_mesh (solo_check_mesh hm)
        rw [solo_finish] at hm
        split at hm <;> cases hm
    | points x => exact one x hm
    | line x0 x1 nx =>
      simp only [create, createLine] at hm
      split at hm
      · cases hm
      · exact one _ hm
  intro hall
  cases rs with
  | nil => exact hn rfl
  | cons r rs =>
    obtain ⟨m, hm⟩ := hall _ (List.mem_map.2 ⟨r, by simp, rfl⟩)
    injection hm with hm
    exact key m hm

example : createAll false [⟨okEnv, new, .file "mesh.exo"⟩] = [.done .error] := by decide +kernel

/-- **C86** (all options but two). Whatever the ranks do, a mesh returned to a rank has the numbers of tiles and ghost
layers and the partitioner of that rank's factory, represents every kind of entity that `included_entities()` lists, has
the geometric model of the factory if it is generated in 2D or 3D or read from a file, has the geometry type of the
factory unless generated in 3D, and has the dimension of the geometric model if it is read from a file. -/
theorem options_reach_mesh_partial (mstk : Bool) (rs : List Rank) (i : Nat) (r : Rank) (m : Made) (hi : rs[i]? = some r)
    (hm : (createAll mstk rs)[i]? = some (.done (.mesh m))) :
    m.numTiles = r.opts.numTiles ∧ m.ghostLayersTile = r.opts.ghostLayersTile ∧
    m.ghostLayersDistmesh = r.opts.ghostLayersDistmesh ∧ m.partitioner = r.opts.partitioner ∧
    (EntityKind.EDGE ∈ includedEntities r.opts → m.req.edges = true) ∧
    (EntityKind.FACE ∈ includedEntities r.opts → m.req.faces = true) ∧
    (EntityKind.SIDE ∈ includedEntities r.opts → m.req.sides = true) ∧
    (EntityKind.WEDGE ∈ includedEntities r.opts → m.req.wedges = true) ∧
    (EntityKind.CORNER ∈ includedEntities r.opts → m.req.corners = true) ∧
    ((∀ b, r.call ≠ .box3 b) → m.geomType = r.opts.geomType) ∧
    ((∃ b, r.call = .box3 b) ∨ (∃ b, r.call = .box2 b) ∨ (∃ f, r.call = .file f) → m.gm = r.opts.geometricModel) ∧
    ((∃ f, r.call = .file f) → ∀ g, m.gm = some g → g.dim = m.spaceDim) := by
  have hleaf := run_leaf _ i (create mstk rs.length r.env r.opts r.call) _ (by rw [List.getElem?_map, hi]; rfl) hm
  obtain ⟨s, a, hc, ha, hs⟩ := leaf_create _ _ _ _ _ _ hleaf
  obtain ⟨h1, h2, h3, h4, h5, h6, h7, h8, h9⟩ := construct_fields _ _ _ _ hc
  have hopt : a.numTiles = r.opts.numTiles ∧ a.ghostLayersTile = r.opts.ghostLayersTile ∧
      a.ghostLayersDistmesh = r.opts.ghostLayersDistmesh ∧ a.partitioner = r.opts.partitioner ∧
      a.geomType = r.opts.geomType ∧ a.gm = r.opts.geometricModel ∧
      a.request = MeshCache.closure ⟨r.opts.faces, r.opts.edges, r.opts.sides, r.opts.wedges, r.opts.corners⟩ := by
    rcases ha with rfl | rfl <;> exact ⟨rfl, rfl, rfl, rfl, rfl, rfl, rfl⟩
  obtain ⟨o1, o2, o3, o4, o5, o6, o7⟩ := hopt
  rw [o7] at h5
  have flags : (EntityKind.EDGE ∈ includedEntities r.opts → m.req.edges = true) ∧
    (EntityKind.FACE ∈ includedEntities r.opts → m.req.faces = true) ∧
    (EntityKind.SIDE ∈ includedEntities r.opts → m.req.sides = true) ∧
    (EntityKind.WEDGE ∈ includedEntities r.opts → m.req.wedges = true) ∧
    (EntityKind.CORNER ∈ includedEntities r.opts → m.req.corners = true) := by
    simp only [mem_included, flag, h5]
    generalize r.opts.edges = e, r.opts.faces = f, r.opts.sides = s, r.opts.wedges = w, r.opts.corners = c
    revert e f s w c
    decide
  obtain ⟨f1, f2, f3, f4, f5⟩ := flags
  refine ⟨h1.trans o1, h2.trans o2, h3.trans o3, h4.trans o4, f1, f2, f3, f4, f5, ?_, ?_, ?_⟩
  · intro hb
    refine (h6 ?_).trans o5
    cases hcall : r.call with
    | box3 b => exact absurd hcall (hb b)
    | box2 b =>
      rw [hcall] at hs; obtain ⟨_, _, _, _, _, _, rfl⟩ := hs; simp
    | points x => rw [hcall] at hs; obtain ⟨_, rfl⟩ := hs; simp
    | line => rw [hcall] at hs; obtain ⟨_, rfl⟩ := hs; simp
    | file => rw [hcall] at hs; obtain ⟨rfl, -⟩ := hs; simp
    | sub => rw [hcall] at hs; obtain ⟨_, _, _, _, _, rfl⟩ := hs; simp
  · intro hk
    refine (h7 ?_).trans o6
    rcases hk with ⟨b, hb⟩ | ⟨b, hb⟩ | ⟨b, hb⟩ <;> rw [hb] at hs
    · rcases hs with ⟨_, _, _, _, _, _, _, _, _, rfl⟩ | ⟨_, _, _, _, _, _, _, _, _, rfl⟩ <;> simp
    · obtain ⟨_, _, _, _, _, _, rfl⟩ := hs; simp
    · obtain ⟨rfl, -⟩ := hs; simp
  · rintro ⟨f, hf⟩ g hg
    rw [hf] at hs
    obtain ⟨rfl, hs⟩ := hs
    have hgm : m.gm = r.opts.geometricModel := (h7 (by simp)).trans o6
    rw [hg] at hgm
    simp only [checkFileMesh, ← hgm] at hs
    split at hs
    · cases hs
    · rename_i hd; exact not_not.1 hd

/-- C86 is false of the code for two options: a 1D mesh never has the geometric model of the factory, and a mesh
generated in 3D always has the Cartesian geometry, whatever geometry type was set. -/
theorem options_lost (mstk : Bool) (rs : List Rank) (i : Nat) (r : Rank) (m : Made) (hi : rs[i]? = some r)
    (hm : (createAll mstk rs)[i]? = some (.done (.mesh m))) :
    ((∃ x, r.call = .points x) → m.gm = none) ∧ ((∃ b, r.call = .box3 b) → m.geomType = .CARTESIAN) := by
  have hleaf := run_leaf _ i (create mstk rs.length r.env r.opts r.call) _ (by rw [List.getElem?_map, hi]; rfl) hm
  obtain ⟨s, a, hc, ha, hs⟩ := leaf_create _ _ _ _ _ _ hleaf
  obtain ⟨h1, h2, h3, h4, h5, h6, h7, h8, h9⟩ := construct_fields _ _ _ _ hc
  refine ⟨?_, ?_⟩
  · rintro ⟨x, hx⟩
    rw [hx] at hs
    exact h8 hs
  · rintro ⟨b, hb⟩
    rw [hb] at hs
    exact h9 hs

example : createAll false [⟨okEnv, { new with framework := .Simple, geometricModel := some ⟨7, 1⟩, sides := true }, .points [0, 1]⟩] =
    [.done (.mesh ⟨.simple1 [0, 1], 1, none, ⟨true, true, true, false, false⟩, 0, 0, 1, .INDEX, false, .CARTESIAN⟩)] := by
  decide +kernel

example : ∃ m : Made, createAll true [⟨okEnv, { new with geomType := .SPHERICAL }, .box3 ⟨0, 0, 0, 1, 1, 1, 2, 2, 2⟩⟩] =
    [.done (.mesh m)] ∧ m.geomType = .CARTESIAN :=
  ⟨made (.mstk3 0 0 0 1 1 1 2 2 2) (mstkArgs new) 3, by decide +kernel, rfl⟩

end Jali.Factory
