import Verif.Props.BlockSearch
/-! Property theorems C161: whether the BLOCK partitioner ends. -/
namespace Jali.BlockSearch
open Jali.Geom Jali.Geom.Point Jali.MeshGeom Jali.SimpleGeom

/-- Crossing a face that points along axis `d` leads from a cell of `cells` to a cell of `cells` with a larger value of `up`
(for instance the coordinate of the centroid). -/
def Upward (m : GMesh) (cells : List Nat) (owned : Nat → Bool) (d : Nat) (up : Nat → ℝ) : Prop :=
  ∀ c ∈ cells, ∀ f ∈ (m.cellFaces c).map Prod.fst, ∀ n, faceNormal m f (some c) = some n → Aligned m.spaceDim d n →
    ∀ a b, (m.faceCells f).filter owned = [a, b] → (if a = c then b else a) ∈ cells ∧ up c < up (if a = c then b else a)

theorem scan_next {m : GMesh} {owned : Nat → Bool} {hi : ℝ} {d c c' : Nat} : ∀ fs, scan m owned hi d c fs = .next c' →
    ∃ f ∈ fs, ∃ n, faceNormal m f (some c) = some n ∧ Aligned m.spaceDim d n ∧
      ∃ a b, (m.faceCells f).filter owned = [a, b] ∧ c' = if a = c then b else a := by
  intro fs
  induction fs with
  | nil => intro h; simp [scan] at h
  | cons f fs ih =>
    intro h
    rw [scan] at h
    split at h
    · simp at h
    · rename_i n hn
      split at h
      · rename_i hal
        split at h
        · rename_i a b hab
          exact ⟨f, by simp, n, hn, hal, a, b, hab, by simpa [eq_comm] using h⟩
        · split at h
          · simp at h
          · split at h <;> simp at h
      · obtain ⟨f', hf', r⟩ := ih h
        exact ⟨f', List.mem_cons_of_mem _ hf', r⟩

theorem count_lt {up : Nat → ℝ} {c c' : Nat} (h2 : up c < up c') : ∀ {cells : List Nat}, c' ∈ cells →
    (cells.countP fun k => decide (up c' < up k)) < cells.countP fun k => decide (up c < up k) := by
  intro cells
  induction cells with
  | nil => intro h1; simp at h1
  | cons k ks ih =>
    intro h1
    have mono : (ks.countP fun k => decide (up c' < up k)) ≤ ks.countP fun k => decide (up c < up k) :=
      List.countP_mono_left fun k _ hk => by
        simp only [decide_eq_true_eq] at hk ⊢
        exact h2.trans hk
    rw [List.countP_cons, List.countP_cons]
    by_cases e : c' = k
    · subst e
      rw [if_neg (by simp), if_pos (by simpa using h2)]
      omega
    · have h1 : c' ∈ ks := by simpa [e] using h1
      have := ih h1
      by_cases h3 : up c' < up k
      · rw [if_pos (by simpa using h3), if_pos (by simpa using h2.trans h3)]; omega
      · rw [if_neg (by simpa using h3)]; omega

theorem walk_ends {m : GMesh} {cells : List Nat} {owned : Nat → Bool} {d : Nat} {up : Nat → ℝ} (h : Upward m cells owned d up) {hi : ℝ} :
    ∀ fuel c n, c ∈ cells → (cells.countP fun c' => decide (up c < up c')) < fuel → walk m owned hi d fuel c n ≠ .endless := by
  intro fuel
  induction fuel with
  | zero => intro c n _ hf; omega
  | succ fuel ih =>
    intro c n hc hf
    rw [walk]
    split
    · simp
    · rename_i c' hc'
      obtain ⟨f, hfm, nn, hn, hal, a, b, hab, e⟩ := scan_next _ hc'
      obtain ⟨h1, h2⟩ := h c hc f hfm nn hn hal a b hab
      rw [← e] at h1 h2
      refine ih c' (n + 1) h1 ?_
      have := count_lt (up := up) h2 h1
      omega
    · simp
    · simp

theorem walks_ends {m : GMesh} {cells : List Nat} {owned : Nat → Bool} {hi : Nat → ℝ} {fuel c0 : Nat} (hc : c0 ∈ cells) (hf : cells.length < fuel) :
    ∀ ds : List Nat, (∀ d ∈ ds, ∃ up, Upward m cells owned d up) → walks m owned hi fuel c0 ds ≠ .endless := by
  intro ds
  induction ds with
  | nil => intro _; simp [walks]
  | cons d ds ih =>
    intro h
    obtain ⟨up, hup⟩ := h d (by simp)
    rw [walks]
    split
    · simp
    · rename_i he
      exact absurd he (walk_ends hup fuel c0 1 hc (lt_of_le_of_lt List.countP_le_length hf))
    · simp
    · have := ih fun d hd => h d (List.mem_cons_of_mem _ hd)
      split
      · simp
      · exact this

/-- **C161, partial: when the partitioner ends.** If crossing a face that points along an axis always leads to a cell further up that axis, as
between convex cells, the BLOCK partitioner never runs for ever: its search ends after at most as many steps in each direction as there are
cells. Missing: meshes with other cells, for which it is false (`search_runs_for_ever`). -/
theorem search_ends_partial (m : GMesh) (cells : List Nat) (owned : Nat → Bool) (h : ∀ d < m.spaceDim, ∃ up, Upward m cells owned d up)
    (fuel : Nat) (hf : cells.length < fuel) (numParts : Nat) :
    search fuel m cells owned ≠ .endless ∧ partition fuel m cells owned numParts ≠ .endless := by
  have key : search fuel m cells owned ≠ .endless := by
    unfold search
    split
    · simp
    · rename_i c0 hc0
      exact walks_ends (List.mem_of_find?_eq_some hc0) hf _ fun d hd => h d (List.mem_range.mp hd)
  refine ⟨key, ?_⟩
  unfold partition
  cases hs : search fuel m cells owned with
  | endless => exact absurd hs key
  | asserts => simp
  | gives => dsimp only; split <;> simp
  | regular n => dsimp only; split <;> simp

/-- The partitioner asserts or runs on exactly if its search does (or, for asserting, what follows the search does). -/
theorem partition_endless (m : GMesh) (cells : List Nat) (owned : Nat → Bool) (fuel numParts : Nat) :
    (partition fuel m cells owned numParts = .endless ↔ search fuel m cells owned = .endless) ∧
    (search fuel m cells owned = .asserts → partition fuel m cells owned numParts = .asserts) := by
  unfold partition
  cases hs : search fuel m cells owned with
  | endless => simp
  | asserts => simp
  | gives => dsimp only; refine ⟨?_, by simp⟩; split <;> simp
  | regular n => dsimp only; refine ⟨?_, by simp⟩; split <;> simp

/-- the hypotheses are met by every one-dimensional mesh -/
example (nx : Nat) (x : Nat → ℝ) (g : GeomType) (h : Line nx x g) (d : Nat) (hd : d < (lineMesh nx x g).spaceDim) :
    Upward (lineMesh nx x g) (List.range nx) (fun _ => true) d (fun c => c) := by
  have hd0 : d = 0 := by have : d < 1 := hd; omega
  subst hd0
  intro c hc f hf n hn hal a b hab
  have hc := List.mem_range.mp hc
  rw [line_faces hc] at hf
  simp only [List.map_cons, List.map_nil, List.mem_cons, List.not_mem_nil, or_false] at hf
  rcases hf with rfl | rfl
  · exfalso
    obtain ⟨a', ha, _, ea⟩ := line_area (g := g) h (show f < nx + 1 by omega)
    have m1 : f ∈ (lineMesh nx x g).faceCells f := by rw [line_cells (by omega)]; simp [hc]
    have n1 := (face_normal_1d (lineMesh nx x g) f f a' rfl rfl (line_listed (by omega)) m1 ea).2.1 (by rw [faceDir, line_faces hc]; simp)
    rw [n1] at hn
    obtain rfl := Option.some.inj hn
    have hal : |dot (divAssign (mk1 (-a')) (Point.norm (mk1 (-a')))) (refdir 1 0) - 1| < 1e-12 := hal
    rw [unit1, abs_neg, abs_of_nonneg ha] at hal
    have : -a' / a' ≤ 0 := div_nonpos_of_nonpos_of_nonneg (by linarith) ha
    rw [abs_of_nonpos (by linarith)] at hal
    norm_num at hal
    linarith
  · rw [line_cells (by omega)] at hab
    by_cases hl : c + 1 < nx
    · simp [hl] at hab
      obtain ⟨rfl, rfl⟩ := hab
      simp [hl]
    · simp [hl] at hab

/-! ### A mesh of two cells on which it runs for ever -/

/-- corners -/
noncomputable def hookNode (n : Nat) : Point :=
  ([mk2 0 0, mk2 1 0, mk2 1 2, mk2 2 2, mk2 2 1, mk2 3 1, mk2 3 3, mk2 0 3, mk2 4 0, mk2 4 3] : List Point).getD n (mk2 0 0)

/-- the ends of the edges -/
def hookEdge (f : Nat) : Nat × Nat :=
  [(1, 2), (4, 3), (2, 3), (4, 5), (5, 6), (0, 1), (6, 7), (7, 0), (1, 8), (8, 9), (9, 6)].getD f (0, 0)

/-- two hooks that fill the rectangle [0,4]×[0,3]: the line between them goes up, right, down, right and up -/
noncomputable def hooks : GMesh where
  manifoldDim := 2
  spaceDim := 2
  geomType := .CARTESIAN
  cellFaces c := if c = 0 then [(0, 1), (2, 1), (1, -1), (3, 1), (4, 1), (6, 1), (7, 1), (5, 1)]
    else [(1, 1), (2, -1), (0, -1), (8, 1), (9, 1), (10, 1), (4, -1), (3, -1)]
  faceCells f := if f < 5 then [0, 1] else if f < 8 then [0] else [1]
  faceCoords f := [hookNode (hookEdge f).1, hookNode (hookEdge f).2]
  cellCoords c := (if c = 0 then [1, 2, 3, 4, 5, 6, 7, 0] else [4, 3, 2, 1, 8, 9, 6, 5]).map hookNode
  edgeNodes f := hookEdge f
  nodeCoord := hookNode

/-- the ends of the edges of a cell of `hooks` in the direction of the cell -/
def hookWalk (l : List (Nat × Int)) : List (Nat × Nat) :=
  l.map fun fd => if fd.2 = 1 then hookEdge fd.1 else ((hookEdge fd.1).2, (hookEdge fd.1).1)

/-- It is a mesh of two polygons: the edges of each cell run around its corners, the cells of an edge are the cells that have it, in opposite
directions, and the two areas (by the shoelace formula) are 6 and 6, together the area of the rectangle. -/
theorem hooks_valid :
    hookWalk (hooks.cellFaces 0) = [1, 2, 3, 4, 5, 6, 7, 0].zip [2, 3, 4, 5, 6, 7, 0, 1] ∧
    hookWalk (hooks.cellFaces 1) = [4, 3, 2, 1, 8, 9, 6, 5].zip [3, 2, 1, 8, 9, 6, 5, 4] ∧
    (∀ c < 2, ∀ f < 11, c ∈ hooks.faceCells f ↔ f ∈ (hooks.cellFaces c).map Prod.fst) ∧
    (∀ f < 5, ∃ dir : Int, faceDir hooks f 0 = some dir ∧ faceDir hooks f 1 = some (-dir)) ∧
    (∀ c < 2, ((hookWalk (hooks.cellFaces c)).map fun e => ((hookNode e.1).x * (hookNode e.2).y - (hookNode e.2).x * (hookNode e.1).y) / 2).sum = 6) := by
  refine ⟨rfl, rfl, ?_, ?_, ?_⟩
  · show ∀ c < 2, ∀ f < 11, c ∈ (if f < 5 then [0, 1] else if f < 8 then [0] else [1]) ↔
      f ∈ (if c = 0 then [(0, 1), (2, 1), (1, -1), (3, 1), (4, 1), (6, 1), (7, 1), (5, 1)]
        else [(1, (1 : Int)), (2, -1), (0, -1), (8, 1), (9, 1), (10, 1), (4, -1), (3, -1)]).map Prod.fst
    decide
  · intro f hf
    have : f = 0 ∨ f = 1 ∨ f = 2 ∨ f = 3 ∨ f = 4 := by omega
    rcases this with rfl | rfl | rfl | rfl | rfl <;> simp [faceDir, hooks]
  · intro c hc
    have : c = 0 ∨ c = 1 := by omega
    rcases this with rfl | rfl <;> norm_num [hooks, hookWalk, hookEdge, hookNode, mk2]

theorem hooks_normal0 : faceNormal hooks 0 (some 0) = some (mk2 2 0) := by
  simp [faceNormal, computeFaceGeometry, hooks, storeNormals, faceDir, hookEdge, hookNode, pt, mk2]
  norm_num [HSub.hSub, Sub.sub, Point.sub, mk2]

theorem hooks_normal1 : faceNormal hooks 1 (some 1) = some (mk2 1 0) := by
  simp [faceNormal, computeFaceGeometry, hooks, storeNormals, faceDir, hookEdge, hookNode, pt, mk2]
  norm_num [HSub.hSub, Sub.sub, Point.sub, mk2]

theorem hooks_aligned {a : ℝ} (ha : 0 < a) : Aligned hooks.spaceDim 0 (mk2 a 0) := by
  show |dot (divAssign (mk2 a 0) (Point.norm (mk2 a 0))) (refdir 2 0) - 1| < 1e-12
  have : Point.norm (mk2 a 0) = a := by
    simp [Point.norm, dot, mk2, Real.sqrt_mul_self ha.le]
  rw [this]
  simp [dot, divAssign, mk2, refdir, ha.ne']
  norm_num

/-- **C161 is false of the code.** Two cells fill a rectangle; asked for a BLOCK partitioning of this mesh, the program never returns. -/
theorem search_runs_for_ever (fuel numParts : Nat) : partition fuel hooks [0, 1] (fun _ => true) numParts = .endless := by
  have step0 : ∀ hi, scan hooks (fun _ => true) hi 0 0 ((hooks.cellFaces 0).map Prod.fst) = .next 1 := by
    intro hi
    show scan hooks _ _ _ _ (0 :: _) = _
    rw [scan_pair hooks_normal0 (hooks_aligned (by norm_num)) (show _ = [0, 1] from rfl)]
    rfl
  have step1 : ∀ hi, scan hooks (fun _ => true) hi 0 1 ((hooks.cellFaces 1).map Prod.fst) = .next 0 := by
    intro hi
    show scan hooks _ _ _ _ (1 :: _) = _
    rw [scan_pair hooks_normal1 (hooks_aligned (by norm_num)) (show _ = [0, 1] from rfl)]
    rfl
  have hwalk : ∀ fuel hi n c, c < 2 → walk hooks (fun _ => true) hi 0 fuel c n = .endless := by
    intro fuel
    induction fuel with
    | zero => intro hi n c _; rfl
    | succ fuel ih =>
      intro hi n c hc
      have : c = 0 ∨ c = 1 := by omega
      rcases this with rfl | rfl
      · rw [walk, step0]; exact ih _ _ _ (by omega)
      · rw [walk, step1]; exact ih _ _ _ (by omega)
  rw [(partition_endless _ _ _ _ _).1]
  have hlo : ∀ d < 2, (limits hooks [0, 1] d).1 = 0 := by
    intro d hd
    have hd' : d = 0 ∨ d = 1 := by omega
    have : limits hooks [0, 1] d = (0, if d = 0 then 4 else 3) := by
      refine limits_eq (by norm_num) (by split <;> norm_num) ?_ ⟨0, by simp, mk2 0 0, by simp [hooks, hookNode], ?_⟩
        ⟨1, by simp, mk2 4 3, by simp [hooks, hookNode], ?_⟩
      · intro c hc p hp
        have hp : p ∈ ([mk2 0 0, mk2 1 0, mk2 1 2, mk2 2 2, mk2 2 1, mk2 3 1, mk2 3 3, mk2 0 3, mk2 4 0, mk2 4 3] : List Point) := by
          simp only [List.mem_cons, List.not_mem_nil, or_false] at hc
          rcases hc with rfl | rfl
          · simp [hooks, hookNode] at hp
            rcases hp with rfl | rfl | rfl | rfl | rfl | rfl | rfl | rfl <;> simp
          · simp [hooks, hookNode] at hp
            rcases hp with rfl | rfl | rfl | rfl | rfl | rfl | rfl | rfl <;> simp
        simp only [List.mem_cons, List.not_mem_nil, or_false] at hp
        rcases hd' with rfl | rfl <;> rcases hp with rfl | rfl | rfl | rfl | rfl | rfl | rfl | rfl | rfl | rfl <;> norm_num [coord, mk2]
      · rcases hd' with rfl | rfl <;> simp [coord, mk2]
      · rcases hd' with rfl | rfl <;> simp [coord, mk2]
    rw [this]
  unfold search
  split
  · rename_i hn
    unfold corner at hn
    rw [List.find?_eq_none] at hn
    have := hn 0 (by simp)
    refine absurd (List.any_eq_true.mpr ⟨mk2 0 0, by simp [hooks, hookNode], ?_⟩) this
    have h0 := hlo 0 (by decide)
    have h1 := hlo 1 (by decide)
    have : dist2 2 (fun d => (limits hooks [0, 1] d).1) (mk2 0 0) = 0 := by
      simp [dist2, List.range_succ, h0, h1, coord, mk2]
    rw [decide_eq_true_eq]
    show dist2 2 _ _ < _
    rw [this]; norm_num
  · rename_i c0 hc0
    have hm := List.mem_of_find?_eq_some hc0
    have hc : c0 < 2 := by simp at hm; omega
    show walks _ _ _ _ _ [0, 1] = _
    rw [walks, hwalk _ _ _ _ hc]

end Jali.BlockSearch
