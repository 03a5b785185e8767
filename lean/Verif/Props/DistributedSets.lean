import Verif.Spec.DistributedSets
import Verif.Props.SameRegions
/-! Property theorems C184: region sets on a distributed mesh. -/
namespace Jali.Reg
open Jali.MSet

variable {P K : Type} [Field K] [LinearOrder K]

theorem inRegion_part {g g' : Geo P K} {w w' : World} {kind : EntityKind} {ren : Nat → Nat} (ha : PartOf g w g' w' kind ren) (r : Region P) {e : Nat}
    (he : e < (w'.view kind).nAll) : InRegion g' w' kind r e ↔ InRegion g w kind r (ren e) := by
  unfold InRegion
  refine and_congr ⟨fun _ => ha.into e he, fun _ => he⟩ ?_
  split
  · rw [ha.cellCentroid rfl e he]
  · rw [ha.dim, all_perm (ha.cellCoords rfl e he)]
  · rw [ha.faceCentroid rfl e he]
  · rw [all_perm (ha.faceCoords rfl e he)]
  · rw [all_perm (ha.faceCoords rfl e he)]
  · rw [ha.nodeCoord rfl e he]
  · rw [ha.nodeCoord rfl e he]
  · rw [ha.nodeCoord rfl e he]
  · rfl

theorem member_part {g g' : Geo P K} {gm : List (Region P)} {w w' : World} {kind : EntityKind} {ren : Nat → Nat}
    (ha : PartOf g w g' w' kind ren) {e : Nat} (he : e < (w'.view kind).nAll) :
    ∀ (d : Nat) (n : String), member g' gm w' kind d n e ↔ member g gm w kind d n (ren e) := by
  intro d
  induction d with
  | zero =>
    intro n
    rw [member, member]
    cases hr : findRegion gm n with
    | none => rfl
    | some r =>
      simp only
      split
      · rfl
      · exact inRegion_part ha r he
  | succ d ih =>
    intro n
    rw [member, member]
    cases hr : findRegion gm n with
    | none => rfl
    | some r =>
      simp only
      split
      · cases hop : r.op <;> simp only
        · exact and_congr ⟨fun _ => ha.into e he, fun _ => he⟩ (forall₂_congr fun c _ => not_congr (ih c))
        · exact exists_congr fun c => and_congr_right fun _ => ih c
        · exact forall₂_congr fun c _ => ih c
        · cases r.comps with
          | nil => rfl
          | cons c cs => exact and_congr (ih c) (forall₂_congr fun c' _ => not_congr (ih c'))
      · exact inRegion_part ha r he

/-- what the sets of the whole mesh and of a rank need to be built: see C36 -/
structure Buildable (g : Geo P K) (gm : List (Region P)) (w : World) (kind : EntityKind) (d : Nat) : Prop where
  fits : Fits g gm w kind
  sane : Sane gm w kind
  inOrder : InOrder gm w kind (member g gm w kind d)

/-- the set that a mesh makes of a region: the result of `build_set_from_region`, with the entities -/
def SetOf (g : Geo P K) (gm : List (Region P)) (d : Nat) (w : World) (n : String) (kind : EntityKind) (s : Obj) : Prop :=
  ∃ a w', build g gm d w n kind true = .ok (some a, w') ∧ w'.heap[a]? = some s

theorem setOf_unique {g : Geo P K} {gm : List (Region P)} {d : Nat} {w : World} {n : String} {kind : EntityKind} {s t : Obj}
    (h : SetOf g gm d w n kind s) (h' : SetOf g gm d w n kind t) : s = t := by
  obtain ⟨a, w1, e1, e2⟩ := h
  obtain ⟨a', w2, f1, f2⟩ := h'
  rw [e1] at f1; cases f1
  rw [e2] at f2; cases f2; rfl

theorem setOf_exists {g : Geo P K} {gm : List (Region P)} {d : Nat} {w : World} {n : String} {kind : EntityKind} (hb : Buildable g gm w kind d)
    (hp : ∀ n r, findRegion gm n = some r → Placed gm kind d n) {r : Region P} (hr : findRegion gm n = some r) :
    ∃ s, SetOf g gm d w n kind s ∧ (entities s .ALL).Nodup ∧ (∀ e, e ∈ entities s .ALL ↔ member g gm w kind d n e) ∧
      (∀ e, e ∈ entities s .PARALLEL_OWNED ↔ member g gm w kind d n e ∧ e < (w.view kind).nOwned) ∧
      (∀ e, e ∈ entities s .PARALLEL_GHOST ↔ member g gm w kind d n e ∧ (w.view kind).nOwned ≤ e ∧ e < (w.view kind).nAll) := by
  obtain ⟨a, w', s, _, e1, e2, -, -, e3, e4, e5, e6, -⟩ := region_set_partial hb.fits hb.sane (member_meaning hb.fits d hp) hb.inOrder d n
    (placed_ready hb.fits (hp n r hr)) true
  exact ⟨s, ⟨a, w', e1, e2⟩, e4, e3, fun e => (e5 e).trans (and_congr_right fun _ => hb.fits.ownedFirst.1 e),
    fun e => (e6 e).trans (and_congr_right fun _ => hb.fits.ownedFirst.2 e)⟩

/-- **C184 (part that holds).** A mesh in one piece and the same mesh distributed to ranks, and a geometric model of boxes, planes, polygons and
logical regions: the set of a region can be made in one piece and on every rank. An entity is in the set of the whole mesh if and only if it is
in the OWNED list of the set of the rank that owns it, and of no other rank; so each entity of the set is owned once over all ranks. The GHOST
list of a rank holds exactly its ghosts that are in the set of the whole mesh. Missing: complements where there are ghosts (`Sane`), see below. -/
theorem distributed_sets_partial {ι : Type} {g : Geo P K} {w : World} {kind : EntityKind} {gm : List (Region P)} {d : Nat} {ranks : ι → Rank P K}
    (hw : Buildable g gm w kind d) (hr : ∀ i, Buildable (ranks i).geo gm (ranks i).world kind d)
    (hpart : ∀ i, PartOf g w (ranks i).geo (ranks i).world kind (ranks i).ren) (hone : OwnedOnce w kind ranks)
    (hp : ∀ n r, findRegion gm n = some r → Placed gm kind d n) {n : String} {r : Region P} (hn : findRegion gm n = some r) :
    ∃ (s : Obj) (t : ι → Obj), SetOf g gm d w n kind s ∧ (∀ i, SetOf (ranks i).geo gm d (ranks i).world n kind (t i)) ∧
      (∀ E, E ∈ entities s .ALL ↔ ∃ i, ∃ e ∈ entities (t i) .PARALLEL_OWNED, (ranks i).ren e = E) ∧
      (∀ E ∈ entities s .ALL, ∃ i e, (e ∈ entities (t i) .PARALLEL_OWNED ∧ (ranks i).ren e = E) ∧
        ∀ j f, f ∈ entities (t j) .PARALLEL_OWNED ∧ (ranks j).ren f = E → j = i ∧ f = e) ∧
      (∀ i e, e ∈ entities (t i) .PARALLEL_GHOST ↔
        ((ranks i).world.view kind).nOwned ≤ e ∧ e < ((ranks i).world.view kind).nAll ∧ (ranks i).ren e ∈ entities s .ALL) ∧
      (∀ i e, e ∈ entities (t i) .ALL ↔ e < ((ranks i).world.view kind).nAll ∧ (ranks i).ren e ∈ entities s .ALL) := by
  obtain ⟨s, h1, -, h2, -⟩ := setOf_exists hw hp hn
  have hall : ∀ i, ∃ t, _ := fun i => setOf_exists (hr i) hp hn
  choose t t1 t2 t3 t4 t5 using hall
  have lt : ∀ i {e : Nat}, e < ((ranks i).world.view kind).nOwned → e < ((ranks i).world.view kind).nAll := fun i e h => by
    simp only [MeshView.nAll]; omega
  have key : ∀ i {e : Nat}, e < ((ranks i).world.view kind).nAll → (member (ranks i).geo gm (ranks i).world kind d n e ↔ (ranks i).ren e ∈ entities s .ALL) :=
    fun i e he => (member_part (hpart i) he d n).trans (h2 _).symm
  have own : ∀ i e, e ∈ entities (t i) .PARALLEL_OWNED ↔ e < ((ranks i).world.view kind).nOwned ∧ (ranks i).ren e ∈ entities s .ALL := fun i e => by
    rw [t4]
    constructor
    · rintro ⟨a, b⟩; exact ⟨b, (key i (lt i b)).1 a⟩
    · rintro ⟨a, b⟩; exact ⟨(key i (lt i a)).2 b, a⟩
  refine ⟨s, t, h1, t1, fun E => ⟨fun hE => ?_, ?_⟩, fun E hE => ?_, fun i e => ?_, fun i e => ?_⟩
  · obtain ⟨i, e, ⟨a, b⟩, -⟩ := hone E (member_lt (hp n r hn) E ((h2 E).1 hE))
    exact ⟨i, e, (own i e).2 ⟨a, by rw [b]; exact hE⟩, b⟩
  · rintro ⟨i, e, he, rfl⟩
    exact ((own i e).1 he).2
  · obtain ⟨i, e, ⟨a, b⟩, u⟩ := hone E (member_lt (hp n r hn) E ((h2 E).1 hE))
    exact ⟨i, e, ⟨(own i e).2 ⟨a, by rw [b]; exact hE⟩, b⟩, fun j f ⟨k1, k2⟩ => u j f ⟨((own j f).1 k1).1, k2⟩⟩
  · rw [t5]
    constructor
    · rintro ⟨a, b, c⟩; exact ⟨b, c, (key i c).1 a⟩
    · rintro ⟨b, c, a⟩; exact ⟨(key i c).2 a, b, c⟩
  · rw [t3]
    constructor
    · intro a
      have c := member_lt (hp n r hn) e a
      exact ⟨c, (key i c).1 a⟩
    · rintro ⟨c, a⟩; exact (key i c).2 a

/-! the mesh of four cells of the examples on two ranks: cells 0 and 1 with ghost 2, cells 2 and 3 with ghost 1 -/

def halfView : MeshView := ⟨fun e => if e < 2 then .PARALLEL_OWNED else if e < 3 then .PARALLEL_GHOST else .TYPE_UNKNOWN, 2, 1⟩
def halfRen (i : Fin 2) (e : Nat) : Nat := if i = 0 then e else if e < 2 then e + 2 else 1
def halfRank (i : Fin 2) : Rank Nat Rat :=
  ⟨{ exG with cellCentroid := halfRen i, cellCoords := fun c => [halfRen i c], nodeCells := fun _ => [] }, ⟨fun _ => halfView, [], []⟩, halfRen i⟩

theorem exGm_placed : ∀ n r, findRegion exGm n = some r → Placed exGm .CELL 2 n := by
  have hA : ∀ d, Placed exGm .CELL d "A" := fun d => .prim d "A" (exBox "A" 0 1) rfl rfl
  have hB : ∀ d, Placed exGm .CELL d "B" := fun d => .prim d "B" (exBox "B" 1 2) rfl rfl
  have hU : ∀ d, Placed exGm .CELL (d + 1) "U" := fun d =>
    .logical d "U" (exLog "U" .UNION ["A", "B"]) rfl rfl (by simp [exLog]) (by simp [exLog]) (by simp [exLog]) (by simp [exLog, hA, hB])
  intro n r hr
  rcases exGm_cases hr with ⟨rfl, rfl⟩ | ⟨rfl, rfl⟩ | ⟨rfl, rfl⟩ | ⟨rfl, rfl⟩
  · exact .logical 1 "S" (exLog "S" .SUBTRACT ["U", "B"]) rfl rfl (by simp [exLog]) (by simp [exLog]) (by simp [exLog]) (by simp [exLog, hU, hB])
  exacts [hA 2, hB 2, hU 1]

theorem exGm_whole : Buildable exG exGm exW .CELL 2 := ⟨exGm_fits, exGm_sane, inOrder_fresh rfl rfl⟩

theorem exGm_half (i : Fin 2) : Buildable (halfRank i).geo exGm (halfRank i).world .CELL 2 := by
  refine ⟨⟨⟨fun e => ?_, fun e => ?_⟩, fun _ n => by simp [halfRank], fun r hr ht => ?_⟩, ⟨exGm_sane.union, exGm_sane.diff, fun r hr _ ho => ?_⟩, inOrder_fresh rfl rfl⟩
  · simp only [halfRank, halfView]; split
    · simp_all
    · split <;> simp <;> omega
  · simp only [halfRank, halfView, MeshView.nAll]; split
    · simp; omega
    · split <;> simp <;> omega
  · simp only [exGm, List.mem_cons, List.not_mem_nil, or_false] at hr
    rcases hr with rfl | rfl | rfl | rfl <;> simp [exLog, exBox] at ht
  · simp only [exGm, List.mem_cons, List.not_mem_nil, or_false] at hr
    rcases hr with rfl | rfl | rfl | rfl <;> simp [exLog, exBox] at ho

theorem half_part (i : Fin 2) : PartOf exG exW (halfRank i).geo (halfRank i).world .CELL (halfRank i).ren := by
  refine ⟨fun e he => ?_, rfl, fun _ e _ => rfl, fun _ e _ => .refl _, fun k => (by cases k), fun k => (by cases k), fun k => (by cases k)⟩
  have he : e < 3 := he
  show halfRen i e < 4
  unfold halfRen
  split
  · omega
  · split <;> omega

theorem half_once : OwnedOnce exW .CELL halfRank := by
  intro E hE
  have hE : E < 4 := hE
  by_cases h : E < 2
  · refine ⟨0, E, ⟨h, rfl⟩, fun j f ⟨hf, e⟩ => ?_⟩
    have hf : f < 2 := hf
    have e : halfRen j f = E := e
    unfold halfRen at e
    split at e
    · exact ⟨by assumption, e⟩
    · omega
  · refine ⟨1, E - 2, ⟨show E - 2 < 2 by omega, ?_⟩, fun j f ⟨hf, e⟩ => ?_⟩
    · show halfRen 1 (E - 2) = E
      unfold halfRen
      rw [if_neg (by decide), if_pos (by omega)]; omega
    · have hf : f < 2 := hf
      have e : halfRen j f = E := e
      unfold halfRen at e
      split at e
      · omega
      · next hj =>
        exact ⟨by omega, by omega⟩

/-- the region "U", cells 0, 1, 2: ghosts on both ranks, and cell 2 owned by the second -/
example : ∃ (s : Obj) (t : Fin 2 → Obj), SetOf exG exGm 2 exW "U" .CELL s ∧ (∀ i, SetOf (halfRank i).geo exGm 2 (halfRank i).world "U" .CELL (t i)) ∧
    (∀ E, E ∈ entities s .ALL ↔ ∃ i, ∃ e ∈ entities (t i) .PARALLEL_OWNED, (halfRank i).ren e = E) := by
  obtain ⟨s, t, h1, h2, h3, -⟩ := distributed_sets_partial exGm_whole exGm_half half_part half_once exGm_placed (n := "U") rfl
  exact ⟨s, t, h1, h2, h3⟩

example : ∃ t, SetOf (halfRank 1).geo exGm 2 (halfRank 1).world "U" .CELL t ∧ entities t .PARALLEL_OWNED = [0] ∧ entities t .PARALLEL_GHOST = [2] :=
  ⟨_, ⟨_, _, rfl, rfl⟩, by decide +kernel, by decide +kernel⟩

/-- box 0–1 and everything else -/
def restGm : List (Region Nat) := [exBox "A" 0 1, exLog "N" .COMPLEMENT ["A"]]

/-- **C184 is false of the code** for complements: the complement of the box 0–1 is cells 2 and 3 of the whole mesh; on the first rank its GHOST list
has cell 0, which is owned and in the box, and not the ghost 2. -/
theorem distributed_complement_false :
    (∃ s, SetOf exG restGm 1 exW "N" .CELL s ∧ entities s .ALL = [2, 3]) ∧
    (∃ t, SetOf (halfRank 0).geo restGm 1 (halfRank 0).world "N" .CELL t ∧ entities t .PARALLEL_OWNED = [] ∧ entities t .PARALLEL_GHOST = [0]) :=
  ⟨⟨_, ⟨_, _, rfl, rfl⟩, by decide +kernel⟩, ⟨_, ⟨_, _, rfl, rfl⟩, by decide +kernel, by decide +kernel⟩⟩

end Jali.Reg
