import Verif.Spec.SameRegions
import Verif.Props.SetRegistry
/-! Property theorems C168: region sets do not depend on the numbers of the entities. -/
namespace Jali.Reg
open Jali.MSet Jali.MeshGeom.Spec

variable {P K : Type} [Field K] [LinearOrder K]

theorem positional_not_logical {kind : EntityKind} {t : RegionType} (h : Positional kind t = true) : t ≠ .LOGICAL := by
  rintro rfl
  cases kind <;> simp [Positional] at h

theorem placed_ready {g : Geo P K} {gm : List (Region P)} {w : World} {kind : EntityKind} (hf : Fits g gm w kind) {d : Nat} {n : String}
    (h : Placed gm kind d n) : Ready g gm w kind d n := by
  induction h with
  | prim d n r h1 h2 =>
    obtain ⟨o, l, h3, -⟩ := inRegion_lists (r := r) hf h2
    exact .prim d n r (o, l) h1 (positional_not_logical h2) h3
  | logical d n r h1 h2 h3 h4 h5 _ ih => exact .logical d n r h1 h2 h3 h4 h5 ih

theorem member_prim {g : Geo P K} {gm : List (Region P)} {w : World} {kind : EntityKind} {d : Nat} {n : String} {r : Region P}
    (h : findRegion gm n = some r) (ht : r.type ≠ .LOGICAL) (e : Nat) : member g gm w kind d n e ↔ InRegion g w kind r e := by
  rw [member]
  simp only [h, if_neg ht]

/-- deeper levels do not matter -/
theorem member_deeper {g : Geo P K} {gm : List (Region P)} {w : World} {kind : EntityKind} {d : Nat} {n : String} (h : Placed gm kind d n) :
    ∀ e, member g gm w kind (d + 1) n e ↔ member g gm w kind d n e := by
  induction h with
  | prim d n r h1 h2 => intro e; rw [member_prim h1 (positional_not_logical h2), member_prim h1 (positional_not_logical h2)]
  | logical d n r h1 h2 h3 h4 h5 _ ih =>
    intro e
    rw [member, member]
    simp only [h1, if_pos h2]
    cases hop : r.op <;> simp only
    · exact and_congr_right fun _ => forall₂_congr fun c hc => not_congr (ih c hc e)
    · exact exists_congr fun c => and_congr_right fun hc => ih c hc e
    · exact forall₂_congr fun c hc => ih c hc e
    · cases hc : r.comps with
      | nil => rfl
      | cons c cs =>
        simp only
        rw [hc] at ih
        exact and_congr (ih c (by simp) e) (forall₂_congr fun c' hc' => not_congr (ih c' (by simp [hc']) e))

/-- the explicit membership is a meaning of the geometric model -/
theorem member_meaning {g : Geo P K} {gm : List (Region P)} {w : World} {kind : EntityKind} (hf : Fits g gm w kind) (d : Nat)
    (hp : ∀ n r, findRegion gm n = some r → Placed gm kind d n) : Meaning g gm w kind (member g gm w kind d) := by
  have hlog : ∀ n r, findRegion gm n = some r → r.type = .LOGICAL → ∃ d', d = d' + 1 ∧ ∀ c ∈ r.comps, ∀ e,
      member g gm w kind (d' + 1) c e ↔ member g gm w kind d' c e := by
    intro n r h1 h2
    generalize hk : d = k at *
    cases hp n r h1 with
    | prim _ _ r' h3 h4 => rw [h1] at h3; cases h3; exact absurd h2 (positional_not_logical h4)
    | logical d' _ r' h3 _ _ _ _ h4 =>
      rw [h1] at h3; cases h3
      exact ⟨d', rfl, fun c hc e => member_deeper (h4 c hc) e⟩
  refine ⟨?_, ?_, ?_, ?_, ?_⟩
  · intro n r h1 h2 h3 e
    obtain ⟨d', rfl, h4⟩ := hlog n r h1 h2
    conv => lhs; rw [member]
    simp only [h1, if_pos h2, h3]
    exact exists_congr fun c => and_congr_right fun hc => (h4 c hc e).symm
  · intro n r h1 h2 h3 e
    obtain ⟨d', rfl, h4⟩ := hlog n r h1 h2
    conv => lhs; rw [member]
    simp only [h1, if_pos h2, h3]
    exact forall₂_congr fun c hc => (h4 c hc e).symm
  · intro n r c cs h1 h2 h3 hc e
    obtain ⟨d', rfl, h4⟩ := hlog n r h1 h2
    conv => lhs; rw [member]
    simp only [h1, if_pos h2, h3, hc]
    rw [hc] at h4
    exact and_congr (h4 c (by simp) e).symm (forall₂_congr fun c' hc' => not_congr (h4 c' (by simp [hc']) e).symm)
  · intro n r h1 h2 h3 e
    obtain ⟨d', rfl, h4⟩ := hlog n r h1 h2
    conv => lhs; rw [member]
    simp only [h1, if_pos h2, h3]
    exact and_congr_right fun _ => forall₂_congr fun c hc => not_congr (h4 c hc e).symm
  · intro n r o h h1 h2 h3 e
    rw [member_prim h1 h2]
    cases hp n r h1 with
    | prim _ _ r' h4 h5 =>
      rw [h1] at h4; cases h4
      obtain ⟨o', l', h6, h7⟩ := inRegion_lists (r := r) hf h5
      rw [h3] at h6; cases h6
      exact (h7 e).symm
    | logical d' _ r' h4 h5 => rw [h1] at h4; cases h4; exact absurd h5 h2

theorem all_perm {P : Type} {l l' : List P} (h : l.Perm l') (f : P → Prop) : (∀ x ∈ l, f x) ↔ ∀ x ∈ l', f x :=
  ⟨fun k x hx => k x (h.mem_iff.2 hx), fun k x hx => k x (h.mem_iff.1 hx)⟩

theorem inRegion_alike {g g' : Geo P K} {w w' : World} {kind : EntityKind} {ren : Nat → Nat} {n : Nat} (ha : Alike g g' kind n ren)
    (hn : (w.view kind).nAll = n) (hn' : (w'.view kind).nAll = n) (r : Region P) {e : Nat} (he : e < n) :
    InRegion g w kind r e ↔ InRegion g' w' kind r (ren e) := by
  unfold InRegion
  rw [hn, hn']
  refine and_congr ⟨fun _ => ha.renumbers.into e he, fun _ => he⟩ ?_
  split
  · rw [ha.cellCentroid rfl e he]
  · rw [ha.dim, all_perm (ha.cellCoords rfl e he)]
  · rw [ha.faceCentroid rfl e he]
  · rw [all_perm (ha.faceCoords rfl e he)]
  · rw [all_perm (ha.faceCoords rfl e he)]
  · rw [ha.nodeCoord rfl e he]
  · rw [ha.nodeCoord rfl e he]
  · rw [ha.nodeCoord rfl e he]
  · rfl

theorem member_alike {g g' : Geo P K} {gm : List (Region P)} {w w' : World} {kind : EntityKind} {ren : Nat → Nat} {N : Nat}
    (ha : Alike g g' kind N ren) (hn : (w.view kind).nAll = N) (hn' : (w'.view kind).nAll = N) {e : Nat} (he : e < N) :
    ∀ (d : Nat) (n : String), member g gm w kind d n e ↔ member g' gm w' kind d n (ren e) := by
  intro d
  induction d with
  | zero =>
    intro n
    rw [member, member]
    cases hr : findRegion gm n with
    | none => rfl
    | some r =>
      simp only
      split
      · rfl
      · exact inRegion_alike ha hn hn' r he
  | succ d ih =>
    intro n
    rw [member, member]
    cases hr : findRegion gm n with
    | none => rfl
    | some r =>
      simp only
      split
      · cases hop : r.op <;> simp only
        · rw [hn, hn']
          exact and_congr ⟨fun _ => ha.renumbers.into e he, fun _ => he⟩ (forall₂_congr fun c _ => not_congr (ih c))
        · exact exists_congr fun c => and_congr_right fun _ => ih c
        · exact forall₂_congr fun c _ => ih c
        · cases r.comps with
          | nil => rfl
          | cons c cs => exact and_congr (ih c) (forall₂_congr fun c' _ => not_congr (ih c'))
      · exact inRegion_alike ha hn hn' r he

theorem member_lt {g : Geo P K} {gm : List (Region P)} {w : World} {kind : EntityKind} {d : Nat} {n : String} (h : Placed gm kind d n) :
    ∀ e, member g gm w kind d n e → e < (w.view kind).nAll := by
  induction h with
  | prim d n r h1 h2 => intro e; rw [member_prim h1 (positional_not_logical h2)]; exact fun h => h.1
  | logical d n r h1 h2 h3 h4 h5 _ ih =>
    intro e
    rw [member]
    simp only [h1, if_pos h2]
    cases hop : r.op <;> simp only
    · exact fun h => h.elim
    · exact fun h => h.1
    · exact fun ⟨c, hc, h⟩ => ih c hc e h
    · obtain ⟨c, hc⟩ := List.exists_mem_of_ne_nil _ h4
      exact fun h => ih c hc e (h c hc)
    · cases hc : r.comps with
      | nil => exact fun h => h.elim
      | cons c cs => rw [hc] at ih; exact fun h => ih c (by simp) e h.1

/-- **C168** Two meshes whose entities of a kind are the same up to their numbers, and the same geometric model made of boxes, planes, polygons
and logical regions: building the set of a region succeeds on both, and one set is the other with the entities renumbered; in particular they
are of the same size. -/
theorem region_sets_correspond {g g' : Geo P K} {gm : List (Region P)} {w w' : World} {kind : EntityKind} {ren : Nat → Nat} {N d : Nat}
    (ha : Alike g g' kind N ren) (hn : (w.view kind).nAll = N) (hn' : (w'.view kind).nAll = N)
    (hf : Fits g gm w kind) (hf' : Fits g' gm w' kind) (hs : Sane gm w kind) (hs' : Sane gm w' kind)
    (hp : ∀ n r, findRegion gm n = some r → Placed gm kind d n)
    (hi : InOrder gm w kind (member g gm w kind d)) (hi' : InOrder gm w' kind (member g' gm w' kind d))
    (n : String) (r : Region P) (hr : findRegion gm n = some r) (b b' : Bool) :
    ∃ a w1 s a' w1' s', build g gm d w n kind b = .ok (some a, w1) ∧ w1.heap[a]? = some s ∧
      build g' gm d w' n kind b' = .ok (some a', w1') ∧ w1'.heap[a']? = some s' ∧
      ((entities s .ALL).map ren).Perm (entities s' .ALL) ∧ (∀ e, e ∈ entities s .ALL ↔ member g gm w kind d n e) := by
  have h1 := member_meaning hf d hp
  have h2 := member_meaning hf' d hp
  obtain ⟨a, w1, s, _, e1, e2, -, -, e3, e4, -⟩ := region_set_partial hf hs h1 hi d n (placed_ready hf (hp n r hr)) b
  obtain ⟨a', w1', s', _, f1, f2, -, -, f3, f4, -⟩ := region_set_partial hf' hs' h2 hi' d n (placed_ready hf' (hp n r hr)) b'
  have hlt : ∀ e ∈ entities s .ALL, e < N := fun e he => hn ▸ member_lt (hp n r hr) e ((e3 e).1 he)
  refine ⟨a, w1, s, a', w1', s', e1, e2, f1, f2, ?_, e3⟩
  rw [List.perm_ext_iff_of_nodup _ f4]
  · intro k
    rw [List.mem_map, f3]
    constructor
    · rintro ⟨e, he, rfl⟩
      exact (member_alike ha hn hn' (hlt e he) d n).1 ((e3 e).1 he)
    · intro hk
      obtain ⟨e, he, rfl⟩ := ha.renumbers.onto k (hn' ▸ member_lt (hp n r hr) k hk)
      exact ⟨e, (e3 e).2 ((member_alike ha hn hn' he d n).2 hk), rfl⟩
  · exact e4.map_on fun x hx y hy hxy => ha.renumbers.inj x (hlt x hx) y (hlt y hy) hxy

/-- an empty registry is in order -/
theorem inOrder_fresh {gm : List (Region P)} {w : World} {kind : EntityKind} {D : String → Nat → Prop} (h : w.heap = []) (h' : w.reg = []) :
    InOrder gm w kind D := by
  refine ⟨?_, ?_, ?_⟩ <;> simp [h, h']

/-- nodes 0 and 1 at the places 0 and 2, or the other way around; cell 0 at node 0, cell 1 at node 2; the place 1 is in cell 0 -/
def tieG (swap : Bool) : Geo Nat where
  celldim := 2
  facesRequested := true
  cellCentroid c := c
  faceCentroid f := f
  nodeCoord n := if swap then 2 - 2 * n else 2 * n
  cellCoords c := [c, 1]
  faceCoords f := [f]
  nodeCells n := if swap then [1 - n] else [n]
  pointInCell p c := p = 1 && c = 0
  dist2 p q := ((p : Rat) - q) * (p - q)

def tieRegion : Region Nat := ⟨"P", .POINT, 0, false, fun p => p = 1, some 1, .NOBOOLEAN, [], "", ([], [])⟩

def tieW : World := ⟨fun _ => ⟨fun e => if e < 2 then .PARALLEL_OWNED else .TYPE_UNKNOWN, 2, 0⟩, [], []⟩

theorem tie_build (sw : Bool) (n : Nat) (l : List Nat) (h : nearestNode (tieG sw) 1 (List.range 2) (10 ^ 16) none = some n)
    (h2 : splitByType (tieW.view .CELL) (((tieG sw).nodeCells n).filter fun c => (tieG sw).pointInCell 1 c) = (l, [])) (hn : l.Nodup)
    (hl : ∀ c ∈ l, c < 2) :
    ∃ a w1 s, build (tieG sw) [tieRegion] 0 tieW "P" .CELL true = .ok (some a, w1) ∧ w1.heap[a]? = some s ∧ entities s .ALL = l := by
  have e : regionLists (tieG sw) tieW .CELL tieRegion = .ok (some (l, [])) := by
    simp only [regionLists, cellLists, tieRegion, pointCells]
    rw [show (tieW.view .NODE).nAll = 2 from rfl, h]
    simp only [h2]
  obtain ⟨s, hmk, -, -, -, ho, hg, hp, -⟩ := makeMeshset_ok (w := tieW) (n := "P") (k := .CELL) (o := l) (g := [])
    (b := true) hn (by simp) (fun c hc => ⟨hl c hc, if_pos (hl c hc)⟩) (by simp)
  refine ⟨0, withSet tieW s false, s, ?_, withSet_get _ _ _, ?_⟩
  · rw [build]
    simp only [show findRegion [tieRegion] "P" = some tieRegion from rfl, e, hmk]
    rfl
  · show s.all = l
    rw [hp.all_eq, ho, hg, List.append_nil]

/-- **C168 (what is false)** The cells of a point region depend on the numbers of the nodes: with the nearest nodes at equal distance, the
one with the smaller number decides which cells are looked at. The two meshes differ in the numbers of their nodes only. -/
theorem point_region_depends_on_numbers : Alike (tieG false) (tieG true) .CELL 2 id ∧ Alike (tieG false) (tieG true) .NODE 2 (1 - ·) ∧
    (∀ n < 2, (tieG true).nodeCells (1 - n) = (tieG false).nodeCells n) ∧ (tieG true).dist2 = (tieG false).dist2 ∧
    (tieG true).pointInCell = (tieG false).pointInCell ∧
    (∃ a w1 s, build (tieG false) [tieRegion] 0 tieW "P" .CELL true = .ok (some a, w1) ∧ w1.heap[a]? = some s ∧ entities s .ALL = [0]) ∧
    (∃ a w1 s, build (tieG true) [tieRegion] 0 tieW "P" .CELL true = .ok (some a, w1) ∧ w1.heap[a]? = some s ∧ entities s .ALL = []) := by
  refine ⟨⟨⟨by simp, by simp, fun k hk => ⟨k, hk, rfl⟩⟩, rfl, fun _ _ _ => rfl, fun _ _ _ => .refl _, fun _ _ _ => rfl, fun _ _ _ => .refl _,
    fun k => (by cases k)⟩, ⟨⟨by omega, by omega, fun k hk => ⟨1 - k, by omega, by omega⟩⟩, rfl, fun k => (by cases k), fun k => (by cases k),
    fun k => (by cases k), fun k => (by cases k), fun _ e he => ?_⟩, ?_, rfl, rfl, tie_build false 0 [0] (by decide +kernel) (by decide +kernel) (by decide) (by decide),
    tie_build true 0 [] (by decide +kernel) (by decide +kernel) (by decide) (by decide)⟩
  · simp only [tieG, if_true]; simp; omega
  · intro n hn; simp only [tieG, if_true]; simp; omega

end Jali.Reg
