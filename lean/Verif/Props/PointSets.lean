import Verif.Props.SetInit
/-!
C74: when the set of cells of a point region is exact: the point has a node within 1e8, and every cell that contains the point has every
node that is nearest to the point (or within 1e-16 of it) as a corner.
-/
namespace Jali.Reg
open Jali.MSet

variable {P K : Type} [Field K] [LinearOrder K]

theorem nearestNode_isSome (g : Geo P K) (p : P) : ∀ (ns : List Nat) (m : K) (best : Option Nat),
    (best.isSome = true ∨ ∃ k ∈ ns, g.dist2 (g.nodeCoord k) p < m) → (nearestNode g p ns m best).isSome = true := by
  intro ns
  induction ns with
  | nil =>
    intro m best h
    rcases h with h | ⟨k, hk, _⟩
    · exact h
    · cases hk
  | cons x xs ih =>
    intro m best h
    simp only [nearestNode]
    split
    · split
      · rfl
      · exact ih _ _ (.inl rfl)
    · rename_i hge
      refine ih _ _ ?_
      rcases h with h | ⟨k, hk, hlt⟩
      · exact .inl h
      · rcases List.mem_cons.1 hk with rfl | hk
        · exact absurd hlt hge
        · exact .inr ⟨k, hk, hlt⟩

/-- a node the search of the set construction may end at: within 1e-16 of the point, or none is nearer -/
def Nearest (g : Geo P K) (w : World) (p : P) (n : Nat) : Prop :=
  n < (w.view .NODE).nAll ∧ (g.dist2 (g.nodeCoord n) p ≤ 1 / 10 ^ 32 ∨
    ∀ k, k < (w.view .NODE).nAll → g.dist2 (g.nodeCoord n) p ≤ g.dist2 (g.nodeCoord k) p)

/-- **C74** Where every cell that contains the point has the nearest node as a corner, and a node is nearer than 1e8, the set of cells of
a point region is made, and holds exactly the cells that contain the point, each once; it is registered and nothing else changes. -/
theorem point_region_exact {g : Geo P K} {gm : List (Region P)} {w : World} {r : Region P}
    (hf : Fits g gm w .CELL) (name : String) (hr : findRegion gm name = some r) (ht : r.type = .POINT) (p : P)
    (hp : r.point = some p) (hnear : ∃ k, k < (w.view .NODE).nAll ∧ g.dist2 (g.nodeCoord k) p < 10 ^ 16)
    (hall : ∀ n, Nearest g w p n → ∀ c, c < (w.view .CELL).nAll → g.pointInCell p c = true → c ∈ g.nodeCells n) (d : Nat) (b : Bool) :
    ∃ w' s, build g gm d w name .CELL b = .ok (some w.heap.length, w') ∧ w'.heap = w.heap ++ [s] ∧
      w'.reg = w.reg ++ [w.heap.length] ∧ s.name = name ∧
      (∀ c, c ∈ entities s .ALL ↔ c < (w.view .CELL).nAll ∧ g.pointInCell p c = true) ∧ (entities s .ALL).Nodup := by
  obtain ⟨k, hk, hlt⟩ := hnear
  obtain ⟨n, hn⟩ := Option.isSome_iff_exists.1 (nearestNode_isSome g p (List.range (w.view .NODE).nAll) (10 ^ 16) none
    (.inr ⟨k, List.mem_range.2 hk, hlt⟩))
  have hl : ∃ o gh, regionLists g w .CELL r = .ok (some (o, gh)) := by
    simp only [regionLists, cellLists, ht, hp, pointCells, hn]
    exact ⟨_, _, rfl⟩
  obtain ⟨o, gh, hl⟩ := hl
  obtain ⟨g1, g2, g3, g4⟩ := regionLists_good hf (findRegion_mem hr).1 hl
  obtain ⟨s, hmk, -⟩ := makeMeshset_ok (n := name) (b := b) g1 g2 g3 g4
  have hb : build g gm d w name .CELL b = .ok (some w.heap.length, withSet w s false) := by
    cases d <;> rw [build] <;> simp only [hr, hl, hmk]
  obtain ⟨n', s', h1, h2, h3, h4, -, h5, h6, h7⟩ := point_region_cells_partial hf name hr ht p hp d b _ _ hb
  refine ⟨_, s', hb, h3, h4, h5, fun c => ?_, h7⟩
  rw [h6]
  constructor
  · rintro ⟨h, hc⟩; exact ⟨(hf.nodeCells rfl n').2 c h, hc⟩
  · rintro ⟨h, hc⟩; exact ⟨hall n' ⟨h1, h2⟩ c h hc, hc⟩

/-- the point (6, 9) in the square of the mesh `sqG` is nearest to the corner (10, 10) -/
example : (∃ k, k < (sqW.view .NODE).nAll ∧ sqG.dist2 (sqG.nodeCoord k) (6, 9) < 10 ^ 16) ∧
    ∀ n, Nearest sqG sqW (6, 9) n → ∀ c, c < (sqW.view .CELL).nAll → sqG.pointInCell (6, 9) c = true → c ∈ sqG.nodeCells n := by
  refine ⟨⟨0, by decide, by decide +kernel⟩, ?_⟩
  have far : ∀ n < 5, ¬ sqG.dist2 (sqG.nodeCoord n) (6, 9) ≤ 1 / 10 ^ 32 := by decide +kernel
  have near : ∀ n < 5, sqG.dist2 (sqG.nodeCoord n) (6, 9) ≤ sqG.dist2 (sqG.nodeCoord 2) (6, 9) → n = 2 := by decide +kernel
  have key : ∀ c < 2, sqG.pointInCell (6, 9) c = true → c ∈ sqG.nodeCells 2 := by decide +kernel
  rintro n ⟨h1, h2⟩ c h3 h4
  have e : n = 2 := near n h1 (h2.resolve_left (far n h1) 2 (by decide))
  subst e
  exact key c h3 h4

end Jali.Reg
