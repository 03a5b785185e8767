import Verif.Props.MstkGenerate
/-! Property theorems C96, C97, C98: classification, closure and distribution of generated meshes. -/
namespace Jali.MstkGen
open Spec

section
variable {K : Type} [Field K] [LinearOrder K] [IsStrictOrderedRing K]

/-- the side numbers of the templates as positions -/
def posOf : Fin 3 → Pos := ![.lo, .mid, .hi]

theorem onAxis_side {a b : K} (h : a < b) {n : Nat} (hn : 0 < n) {i : Nat} (hi : i ≤ n) :
    OnAxis a b (gridCoord a b n i) (posOf (side i n)) := by
  rw [gridCoord_eq a b hn]
  unfold side
  by_cases h0 : i = 0
  · subst h0
    rw [if_neg (by simp), if_neg (by simp)]
    exact gridPt_zero a b n
  · by_cases h1 : i = n
    · subst h1
      rw [if_neg (by simp), if_pos h0]
      exact gridPt_last a b hn
    · rw [if_pos (by rw [Nat.mod_eq_of_lt (by omega)]; exact h0)]
      refine ⟨?_, ?_⟩
      · have := gridPt_lt h hn (show 0 < i by omega)
        rwa [gridPt_zero] at this
      · have := gridPt_lt h hn (show i < n by omega)
        rwa [gridPt_last a b hn] at this

theorem onAxis_mid {a b : K} (h : a < b) {n : Nat} (hn : 0 < n) {i : Nat} (hi : i < n) :
    OnAxis a b ((gridCoord a b n i + gridCoord a b n (i + 1)) / 2) .mid := by
  rw [gridCoord_eq a b hn, gridCoord_eq a b hn]
  have h1 := gridPt_lt h hn (show i < i + 1 by omega)
  have h2 : a ≤ gridPt a b n i := by
    rcases Nat.eq_zero_or_pos i with rfl | h'
    · rw [gridPt_zero]
    · have := gridPt_lt h hn h'
      rw [gridPt_zero] at this
      exact this.le
  have h3 : gridPt a b n (i + 1) ≤ b := by
    rcases Nat.lt_or_ge (i + 1) n with h' | h'
    · have := gridPt_lt h hn h'
      rw [gridPt_last a b hn] at this
      exact this.le
    · have : i + 1 = n := by omega
      rw [this, gridPt_last a b hn]
  constructor <;> linarith

theorem vtmpl : ∀ i j k : Fin 3, modelEnt (vgdim i j k) (vgid i j k) = some (posOf i, posOf j, posOf k) := by decide
theorem etmplZ : ∀ i j : Fin 3, modelEnt (egdim i j) (egid2 i j) = some (posOf i, posOf j, .mid) := by decide
theorem etmplY : ∀ i k : Fin 3, modelEnt (egdim i k) (egid1 i k) = some (posOf i, .mid, posOf k) := by decide
theorem etmplX : ∀ j k : Fin 3, modelEnt (egdim j k) (egid0 j k) = some (.mid, posOf j, posOf k) := by decide
theorem ftmplX : ∀ i : Fin 3, modelEnt (fgdim i) (fgid0 i) = some (posOf i, .mid, .mid) := by decide
theorem ftmplY : ∀ i : Fin 3, modelEnt (fgdim i) (fgid1 i) = some (.mid, posOf i, .mid) := by decide
theorem ftmplZ : ∀ i : Fin 3, modelEnt (fgdim i) (fgid2 i) = some (.mid, .mid, posOf i) := by decide

theorem half2 (x : K) : (x + x) / 2 = x := by ring
theorem avg4a (x : K) : (x + (x + (x + x))) / 4 = x := by ring
theorem avg4b (x y : K) : (x + (y + (y + x))) / 4 = (x + y) / 2 := by ring
theorem avg4c (x y : K) : (x + (x + (y + y))) / 4 = (x + y) / 2 := by ring

/-- **C96.** Every generated entity is classified on the model entity that contains it: a vertex on the corner, edge, face or
interior of the domain it lies in, an edge or a face on the model entity its midpoint lies in; every cell on the only
model region. -/
theorem classification (d : Dom K) (hd : GoodDom d) (b : Blk) (hb : GoodBlk d b) (m : RegMesh K)
    (hm : generate d b = some m) :
    (∀ v ∈ m.verts, OnModel d v.gdim v.gent v.x v.y v.z) ∧
    (∀ e ∈ m.edges, OnModel d e.gdim e.gent (center [e.v0, e.v1]).1 (center [e.v0, e.v1]).2.1 (center [e.v0, e.v1]).2.2) ∧
    (∀ f ∈ m.faces, OnModel d f.gdim f.gent (center f.vs).1 (center f.vs).2.1 (center f.vs).2.2) ∧
    (∀ r ∈ m.regions, r.gent = 1) := by
  rw [generate_eq d hd.nx hd.ny hd.nz hb.nx hb.ny hb.nz] at hm
  cases hm
  have ix := hb.ix
  have iy := hb.iy
  have iz := hb.iz
  refine ⟨?_, ?_, ?_, ?_⟩
  · intro v hv
    obtain ⟨I, J, L, _, _, _, _, _, _, rfl⟩ := (mem_verts d b).1 hv
    exact ⟨_, vtmpl _ _ _, onAxis_side hd.x hd.nx (by omega), onAxis_side hd.y hd.ny (by omega),
      onAxis_side hd.z hd.nz (by omega)⟩
  · intro e he
    simp only [center, List.map_cons, List.map_nil, List.sum_cons, List.sum_nil, add_zero, List.length_cons,
      List.length_nil, Nat.zero_add, Nat.reduceAdd, Nat.cast_ofNat]
    rcases (mem_edges d b).1 he with @⟨I, J, L, _, _, _, _, _, _⟩ | @⟨I, J, L, _, _, _, _, _, _⟩ |
        @⟨I, J, L, _, _, _, _, _, _⟩
    · refine ⟨_, etmplZ _ _, ?_, ?_, ?_⟩
      · simp only [EZ, V, half2]; exact onAxis_side hd.x hd.nx (by omega)
      · simp only [EZ, V, half2]; exact onAxis_side hd.y hd.ny (by omega)
      · exact onAxis_mid hd.z hd.nz (by omega)
    · refine ⟨_, etmplY _ _, ?_, ?_, ?_⟩
      · simp only [EY, V, half2]; exact onAxis_side hd.x hd.nx (by omega)
      · exact onAxis_mid hd.y hd.ny (by omega)
      · simp only [EY, V, half2]; exact onAxis_side hd.z hd.nz (by omega)
    · refine ⟨_, etmplX _ _, ?_, ?_, ?_⟩
      · exact onAxis_mid hd.x hd.nx (by omega)
      · simp only [EX, V, half2]; exact onAxis_side hd.y hd.ny (by omega)
      · simp only [EX, V, half2]; exact onAxis_side hd.z hd.nz (by omega)
  · intro f hf
    rcases (mem_faces d b).1 hf with @⟨I, J, L, _, _, _, _, _, _⟩ | @⟨I, J, L, _, _, _, _, _, _⟩ |
        @⟨I, J, L, _, _, _, _, _, _⟩
    · refine ⟨_, ftmplX _, ?_, ?_, ?_⟩ <;>
      simp only [center, FX, V, List.map_cons, List.map_nil, List.sum_cons, List.sum_nil, add_zero, List.length_cons,
        List.length_nil, Nat.zero_add, Nat.reduceAdd, Nat.cast_ofNat, avg4a, avg4b, avg4c]
      · exact onAxis_side hd.x hd.nx (by omega)
      · exact onAxis_mid hd.y hd.ny (by omega)
      · exact onAxis_mid hd.z hd.nz (by omega)
    · refine ⟨_, ftmplY _, ?_, ?_, ?_⟩ <;>
      simp only [center, FY, V, List.map_cons, List.map_nil, List.sum_cons, List.sum_nil, add_zero, List.length_cons,
        List.length_nil, Nat.zero_add, Nat.reduceAdd, Nat.cast_ofNat, avg4a, avg4b, avg4c]
      · exact onAxis_mid hd.x hd.nx (by omega)
      · exact onAxis_side hd.y hd.ny (by omega)
      · exact onAxis_mid hd.z hd.nz (by omega)
    · refine ⟨_, ftmplZ _, ?_, ?_, ?_⟩ <;>
      simp only [center, FZ, V, List.map_cons, List.map_nil, List.sum_cons, List.sum_nil, add_zero, List.length_cons,
        List.length_nil, Nat.zero_add, Nat.reduceAdd, Nat.cast_ofNat, avg4a, avg4b, avg4c]
      · exact onAxis_mid hd.x hd.nx (by omega)
      · exact onAxis_mid hd.y hd.ny (by omega)
      · exact onAxis_side hd.z hd.nz (by omega)
  · intro r hr
    obtain ⟨I, J, L, _, _, _, _, _, _, rfl⟩ := (mem_regions d b).1 hr
    rfl

example : ∃ m, generate exDom exBlk = some m ∧ ∀ v ∈ m.verts, OnModel exDom v.gdim v.gent v.x v.y v.z := by
  obtain ⟨m, hm⟩ := ((generate_defined exDom).1 exDom_good).1 exBlk exBlk_good
  exact ⟨m, hm, (classification exDom exDom_good exBlk exBlk_good m hm).1⟩

/-- the faces of a hexahedron with corners 0..3 below and 4..7 above, as positions in the list of corners -/
def hexFaces : List (List Nat) := [[0, 1, 2, 3], [4, 5, 6, 7], [0, 1, 5, 4], [1, 2, 6, 5], [2, 3, 7, 6], [3, 0, 4, 7]]

/-- the vertices of the cell at the given positions -/
def pick (vs : List (Vert K)) (l : List Nat) : List (Vert K) := l.filterMap fun n => vs[n]?

/-- **C97 (closure).** The six quadrilaterals bounding a generated cell are faces of the mesh, each exactly one; the sides of
every face (between consecutive vertices) are edges of the mesh, each exactly one. -/
theorem closure (d : Dom K) (hd : GoodDom d) (b : Blk) (hb : GoodBlk d b) (m : RegMesh K)
    (hm : generate d b = some m) :
    (∀ r ∈ m.regions, r.vs.length = 8 ∧ ∀ l ∈ hexFaces,
      ∃ f ∈ m.faces, f.vs.Perm (pick r.vs l) ∧ ∀ f' ∈ m.faces, f'.vs.Perm (pick r.vs l) → f' = f) ∧
    (∀ f ∈ m.faces, f.vs.length = 4 ∧ ∀ n < 4, ∃ v w, f.vs[n]? = some v ∧ f.vs[(n + 1) % 4]? = some w ∧
      ∃ e ∈ m.edges, ((e.v0 = v ∧ e.v1 = w) ∨ (e.v0 = w ∧ e.v1 = v)) ∧
        ∀ e' ∈ m.edges, ((e'.v0 = v ∧ e'.v1 = w) ∨ (e'.v0 = w ∧ e'.v1 = v)) → e' = e) := by
  have agree := ids_agree d hd b b hb hb m m hm hm
  have ef : ∀ f ∈ m.faces, ∀ f' ∈ m.faces, f'.vs.Perm f.vs → f' = f := by
    intro f hf f' hf' h
    have := agree.2.2.1 f' hf' f hf
    exact this.2 (this.1.2 fun p => (h.map pos).mem_iff)
  have ee : ∀ e ∈ m.edges, ∀ e' ∈ m.edges, ((e'.v0 = e.v0 ∧ e'.v1 = e.v1) ∨ (e'.v0 = e.v1 ∧ e'.v1 = e.v0)) → e' = e := by
    intro e he e' he' h
    have := agree.2.1 e' he' e he
    refine this.2 (this.1.2 ?_)
    rcases h with ⟨h1, h2⟩ | ⟨h1, h2⟩
    · exact .inl ⟨by rw [h1], by rw [h2]⟩
    · exact .inr ⟨by rw [h1], by rw [h2]⟩
  rw [generate_eq d hd.nx hd.ny hd.nz hb.nx hb.ny hb.nz] at hm
  cases hm
  constructor
  · intro r hr
    obtain ⟨I, J, L, h1, h2, h3, h4, h5, h6, rfl⟩ := (mem_regions d b).1 hr
    refine ⟨rfl, fun l hl => ?_⟩
    have key : ∃ f ∈ (genOf d b).faces, f.vs.Perm (pick (RG d I J L).vs l) := by
      simp only [hexFaces, List.mem_cons, List.not_mem_nil, or_false] at hl
      rcases hl with rfl | rfl | rfl | rfl | rfl | rfl
      · exact ⟨FZ d I J L, (mem_faces d b).2 (.z h1 h2 h3 h4 h5 (by omega)), List.Perm.refl _⟩
      · exact ⟨FZ d I J (L + 1), (mem_faces d b).2 (.z h1 h2 h3 h4 (by omega) (by omega)), List.Perm.refl _⟩
      · exact ⟨FY d I J L, (mem_faces d b).2 (.y h1 h2 h3 (by omega) h5 h6), List.Perm.refl _⟩
      · exact ⟨FX d (I + 1) J L, (mem_faces d b).2 (.x (by omega) (by omega) h3 h4 h5 h6), List.Perm.refl _⟩
      · exact ⟨FY d I (J + 1) L, (mem_faces d b).2 (.y h1 h2 (by omega) (by omega) h5 h6),
          (List.Perm.swap _ _ _).trans (((List.Perm.swap _ _ []).cons _).cons _)⟩
      · refine ⟨FX d I J L, (mem_faces d b).2 (.x h1 (by omega) h3 h4 h5 h6),
          (List.Perm.swap _ _ _).trans (((List.Perm.swap _ _ []).cons _).cons _)⟩
    obtain ⟨f, hf, hp⟩ := key
    exact ⟨f, hf, hp, fun f' hf' hp' => ef f hf f' hf' (hp'.trans hp.symm)⟩
  · intro f hf
    have key : f.vs.length = 4 ∧ ∀ n < 4, ∃ v w, f.vs[n]? = some v ∧ f.vs[(n + 1) % 4]? = some w ∧
        ∃ e ∈ (genOf d b).edges, ((e.v0 = v ∧ e.v1 = w) ∨ (e.v0 = w ∧ e.v1 = v)) := by
      rcases (mem_faces d b).1 hf with @⟨I, J, L, h1, h2, h3, h4, h5, h6⟩ | @⟨I, J, L, h1, h2, h3, h4, h5, h6⟩ |
        @⟨I, J, L, h1, h2, h3, h4, h5, h6⟩
      · refine ⟨rfl, fun n hn => ?_⟩
        rcases (by omega : n = 0 ∨ n = 1 ∨ n = 2 ∨ n = 3) with rfl | rfl | rfl | rfl
        · exact ⟨_, _, rfl, rfl, EY d I J L, (mem_edges d b).2 (.y h1 h2 h3 h4 h5 (by omega)), .inl ⟨rfl, rfl⟩⟩
        · exact ⟨_, _, rfl, rfl, EZ d I (J + 1) L, (mem_edges d b).2 (.z h1 h2 (by omega) (by omega) h5 h6), .inl ⟨rfl, rfl⟩⟩
        · exact ⟨_, _, rfl, rfl, EY d I J (L + 1), (mem_edges d b).2 (.y h1 h2 h3 h4 (by omega) (by omega)), .inr ⟨rfl, rfl⟩⟩
        · exact ⟨_, _, rfl, rfl, EZ d I J L, (mem_edges d b).2 (.z h1 h2 h3 (by omega) h5 h6), .inr ⟨rfl, rfl⟩⟩
      · refine ⟨rfl, fun n hn => ?_⟩
        rcases (by omega : n = 0 ∨ n = 1 ∨ n = 2 ∨ n = 3) with rfl | rfl | rfl | rfl
        · exact ⟨_, _, rfl, rfl, EX d I J L, (mem_edges d b).2 (.x h1 h2 h3 h4 h5 (by omega)), .inl ⟨rfl, rfl⟩⟩
        · exact ⟨_, _, rfl, rfl, EZ d (I + 1) J L, (mem_edges d b).2 (.z (by omega) (by omega) h3 h4 h5 h6), .inl ⟨rfl, rfl⟩⟩
        · exact ⟨_, _, rfl, rfl, EX d I J (L + 1), (mem_edges d b).2 (.x h1 h2 h3 h4 (by omega) (by omega)), .inr ⟨rfl, rfl⟩⟩
        · exact ⟨_, _, rfl, rfl, EZ d I J L, (mem_edges d b).2 (.z h1 (by omega) h3 h4 h5 h6), .inr ⟨rfl, rfl⟩⟩
      · refine ⟨rfl, fun n hn => ?_⟩
        rcases (by omega : n = 0 ∨ n = 1 ∨ n = 2 ∨ n = 3) with rfl | rfl | rfl | rfl
        · exact ⟨_, _, rfl, rfl, EX d I J L, (mem_edges d b).2 (.x h1 h2 h3 (by omega) h5 h6), .inl ⟨rfl, rfl⟩⟩
        · exact ⟨_, _, rfl, rfl, EY d (I + 1) J L, (mem_edges d b).2 (.y (by omega) (by omega) h3 h4 h5 h6), .inl ⟨rfl, rfl⟩⟩
        · exact ⟨_, _, rfl, rfl, EX d I (J + 1) L, (mem_edges d b).2 (.x h1 h2 (by omega) (by omega) h5 h6), .inr ⟨rfl, rfl⟩⟩
        · exact ⟨_, _, rfl, rfl, EY d I J L, (mem_edges d b).2 (.y h1 (by omega) h3 h4 h5 h6), .inr ⟨rfl, rfl⟩⟩
    refine ⟨key.1, fun n hn => ?_⟩
    obtain ⟨v, w, hv, hw, e, he, h⟩ := key.2 n hn
    refine ⟨v, w, hv, hw, e, he, h, fun e' he' h' => ee e he e' he' ?_⟩
    rcases h with ⟨rfl, rfl⟩ | ⟨rfl, rfl⟩
    · exact h'
    · exact h'.symm.imp And.symm And.symm |>.imp (fun ⟨a, b⟩ => ⟨b, a⟩) (fun ⟨a, b⟩ => ⟨b, a⟩)

example : ∃ m, generate exDom exBlk = some m ∧ m.regions ≠ [] ∧ ∀ r ∈ m.regions, ∀ l ∈ hexFaces,
    ∃ f ∈ m.faces, f.vs.Perm (pick r.vs l) := by
  obtain ⟨m, hm⟩ := ((generate_defined exDom).1 exDom_good).1 exBlk exBlk_good
  refine ⟨m, hm, ?_, fun r hr l hl => ?_⟩
  · rw [generate_eq exDom (by decide) (by decide) (by decide) (by decide) (by decide) (by decide)] at hm
    cases hm
    decide +kernel
  · obtain ⟨f, hf, hp, _⟩ := ((closure exDom exDom_good exBlk exBlk_good m hm).1 r hr).2 l hl
    exact ⟨f, hf, hp⟩

/-- difference of two positions -/
def sub3 (a b : Vert K) : K × K × K := (a.x - b.x, a.y - b.y, a.z - b.z)
/-- cross product -/
def cross3 (a b : K × K × K) : K × K × K :=
  (a.2.1 * b.2.2 - a.2.2 * b.2.1, a.2.2 * b.1 - a.1 * b.2.2, a.1 * b.2.1 - a.2.1 * b.1)
/-- scalar product -/
def dot3 (a b : K × K × K) : K := a.1 * b.1 + a.2.1 * b.2.1 + a.2.2 * b.2.2

theorem gridCoord_lt {a b : K} (h : a < b) {n : Nat} (hn : 0 < n) (i : Nat) : gridCoord a b n i < gridCoord a b n (i + 1) := by
  rw [gridCoord_eq a b hn, gridCoord_eq a b hn]
  exact gridPt_lt h hn (by omega)

/-- **C97 (orientation).** The corners of every cell are listed counterclockwise below, then above: at each corner of the bottom the
edges to the next corner, to the previous corner and to the corner above form a right-handed frame of positive volume. -/
theorem cells_right_handed (d : Dom K) (hd : GoodDom d) (b : Blk) (hb : GoodBlk d b) (m : RegMesh K)
    (hm : generate d b = some m) :
    ∀ r ∈ m.regions, ∀ n < 4, ∃ v nxt prv up, r.vs[n]? = some v ∧ r.vs[(n + 1) % 4]? = some nxt ∧
      r.vs[(n + 3) % 4]? = some prv ∧ r.vs[n + 4]? = some up ∧
      0 < dot3 (cross3 (sub3 nxt v) (sub3 prv v)) (sub3 up v) := by
  rw [generate_eq d hd.nx hd.ny hd.nz hb.nx hb.ny hb.nz] at hm
  cases hm
  intro r hr n hn
  obtain ⟨I, J, L, _, _, _, _, _, _, rfl⟩ := (mem_regions d b).1 hr
  have hx := gridCoord_lt hd.x hd.nx I
  have hy := gridCoord_lt hd.y hd.ny J
  have hz := gridCoord_lt hd.z hd.nz L
  have key := mul_pos (mul_pos (sub_pos.2 hx) (sub_pos.2 hy)) (sub_pos.2 hz)
  rcases (by omega : n = 0 ∨ n = 1 ∨ n = 2 ∨ n = 3) with rfl | rfl | rfl | rfl <;>
  · refine ⟨_, _, _, _, rfl, rfl, rfl, rfl, lt_of_lt_of_eq key ?_⟩
    simp only [dot3, cross3, sub3, V]
    ring

example : ∃ m, generate exDom exBlk = some m ∧ ∃ r ∈ m.regions, ∃ v nxt prv up, r.vs[2]? = some v ∧ r.vs[3]? = some nxt ∧
    r.vs[1]? = some prv ∧ r.vs[6]? = some up ∧ dot3 (cross3 (sub3 nxt v) (sub3 prv v)) (sub3 up v) = 1 / 2 := by
  obtain ⟨m, hm⟩ := ((generate_defined exDom).1 exDom_good).1 exBlk exBlk_good
  refine ⟨m, hm, ?_⟩
  rw [generate_eq exDom (by decide) (by decide) (by decide) (by decide) (by decide) (by decide)] at hm
  cases hm
  refine ⟨RG exDom 1 0 1, (mem_regions _ _).2 ⟨1, 0, 1, by decide, by decide, by decide, by decide, by decide, by decide, rfl⟩,
    _, _, _, _, rfl, rfl, rfl, rfl, ?_⟩
  decide +kernel

/-! ### Distribution -/

/-- **C98.** When the mesh is generated on `np` ranks, every rank succeeds, and the ranks together have exactly the
entities of the mesh that one rank would generate, with the same ids, coordinates, orientation and classification; every
cell is on exactly one rank. -/
theorem distributed (d : Dom K) (hd : GoodDom d) (np : Nat) (h1 : 1 ≤ np) (hnp : np ≤ nCells d) (fuel : Nat)
    (hf : np ≤ fuel) :
    ∃ (whole : RegMesh K) (ms : List (RegMesh K)), generateSerial d = some whole ∧ ms.length = np ∧
      (∀ r < np, rankMesh fuel d np r = ms[r]?) ∧
      (∀ v, v ∈ whole.verts ↔ ∃ m ∈ ms, v ∈ m.verts) ∧
      (∀ e, e ∈ whole.edges ↔ ∃ m ∈ ms, e ∈ m.edges) ∧
      (∀ f, f ∈ whole.faces ↔ ∃ m ∈ ms, f ∈ m.faces) ∧
      (∀ c, c ∈ whole.regions ↔ ∃ m ∈ ms, c ∈ m.regions) ∧
      (∀ (r r' : Nat) (m m' : RegMesh K) (c : Region K), ms[r]? = some m → ms[r']? = some m' → c ∈ m.regions → c ∈ m'.regions → r = r') := by
  refine ⟨genOf d (whole d), ?_⟩
  by_cases hone : np = 1
  · subst hone
    refine ⟨[genOf d (whole d)], generateSerial_eq d hd.nx hd.ny hd.nz, rfl, ?_, ?_, ?_, ?_, ?_, ?_⟩
    · intro r hr
      have : r = 0 := by omega
      subst this
      unfold rankMesh
      rw [if_pos rfl]
      exact generateSerial_eq d hd.nx hd.ny hd.nz
    iterate 4 intro x; simp
    intro r r' m m' c hr hr' _ _
    rw [List.getElem?_eq_some_iff] at hr hr'
    obtain ⟨a, _⟩ := hr
    obtain ⟨a', _⟩ := hr'
    simp only [List.length_cons, List.length_nil] at a a'
    omega
  · have hn : ∀ e : Fin 3, e.val < 3 → 0 < numCellsInDir d e := by
      have := hd.nx
      have := hd.ny
      have := hd.nz
      intro e _
      match e with
      | 0 => exact hd.nx
      | 1 => exact hd.ny
      | 2 => exact hd.nz
    have hsz : np ≤ BlockPartition.Spec.gridSize 3 (numCellsInDir d) := hnp
    obtain ⟨bs, hlen, hbs⟩ := BlockPartition.blockPartition_returns_request 3 (numCellsInDir d) np (by omega) (by omega) hn h1 hsz
    have ht := BlockPartition.blockPartition_tiles 3 (numCellsInDir d) np (by omega) (by omega) hn h1 hsz fuel hf bs (hbs fuel hf)
    have hgood : ∀ B ∈ bs, GoodBlk d (blkOf B) := fun B hB =>
      ⟨ht.nonempty B hB 0 (by decide), ht.nonempty B hB 1 (by decide), ht.nonempty B hB 2 (by decide),
        ht.inside B hB 0 (by decide), ht.inside B hB 1 (by decide), ht.inside B hB 2 (by decide)⟩
    have hcover : ∀ I J L, I < d.NX → J < d.NY → L < d.NZ → ∃ B ∈ bs,
        (blkOf B).i0 ≤ I ∧ I < (blkOf B).i0 + (blkOf B).nx ∧ (blkOf B).j0 ≤ J ∧ J < (blkOf B).j0 + (blkOf B).ny ∧
        (blkOf B).k0 ≤ L ∧ L < (blkOf B).k0 + (blkOf B).nz := by
      intro I J L hI hJ hL
      have hin : BlockPartition.Spec.InGrid 3 (numCellsInDir d) ![I, J, L] := by
        intro e _
        match e with
        | 0 => exact hI
        | 1 => exact hJ
        | 2 => exact hL
      obtain ⟨i, hi, _⟩ := ht.cover _ hin
      exact ⟨bs[i], List.getElem_mem _, (hi 0 (by decide)).1, (hi 0 (by decide)).2, (hi 1 (by decide)).1,
        (hi 1 (by decide)).2, (hi 2 (by decide)).1, (hi 2 (by decide)).2⟩
    have px := hd.nx
    have py := hd.ny
    have pz := hd.nz
    refine ⟨bs.map fun B => genOf d (blkOf B), generateSerial_eq d hd.nx hd.ny hd.nz, by rw [List.length_map, hlen], ?_, ?_, ?_,
      ?_, ?_, ?_⟩
    · intro r hr
      unfold rankMesh
      rw [if_neg hone, hbs fuel hf]
      show (bs[r]?.bind _) = _
      rw [List.getElem?_map, List.getElem?_eq_getElem (by omega)]
      have := hgood bs[r] (List.getElem_mem _)
      exact generate_eq d hd.nx hd.ny hd.nz this.nx this.ny this.nz
    · intro v
      simp only [List.mem_map, exists_exists_and_eq_and, mem_verts]
      constructor
      · rintro ⟨I, J, L, a1, a2, a3, a4, a5, a6, rfl⟩
        simp only [whole] at a2 a4 a6
        obtain ⟨B, hB, c1, c2, c3, c4, c5, c6⟩ := hcover (min I (d.NX - 1)) (min J (d.NY - 1)) (min L (d.NZ - 1))
          (by omega) (by omega) (by omega)
        exact ⟨B, hB, I, J, L, by omega, by omega, by omega, by omega, by omega, by omega, rfl⟩
      · rintro ⟨B, hB, I, J, L, a1, a2, a3, a4, a5, a6, rfl⟩
        have hg := hgood B hB
        have := hg.ix
        have := hg.iy
        have := hg.iz
        exact ⟨I, J, L, Nat.zero_le _, by simp only [whole]; omega, Nat.zero_le _, by simp only [whole]; omega,
          Nat.zero_le _, by simp only [whole]; omega, rfl⟩
    · intro e
      simp only [List.mem_map, exists_exists_and_eq_and, mem_edges]
      constructor
      · rintro (@⟨I, J, L, a1, a2, a3, a4, a5, a6⟩ | @⟨I, J, L, a1, a2, a3, a4, a5, a6⟩ | @⟨I, J, L, a1, a2, a3, a4, a5, a6⟩) <;>
          simp only [whole] at a2 a4 a6 <;>
          obtain ⟨B, hB, c1, c2, c3, c4, c5, c6⟩ := hcover (min I (d.NX - 1)) (min J (d.NY - 1)) (min L (d.NZ - 1))
            (by omega) (by omega) (by omega)
        · exact ⟨B, hB, .z (by omega) (by omega) (by omega) (by omega) (by omega) (by omega)⟩
        · exact ⟨B, hB, .y (by omega) (by omega) (by omega) (by omega) (by omega) (by omega)⟩
        · exact ⟨B, hB, .x (by omega) (by omega) (by omega) (by omega) (by omega) (by omega)⟩
      · rintro ⟨B, hB, (@⟨I, J, L, a1, a2, a3, a4, a5, a6⟩ | @⟨I, J, L, a1, a2, a3, a4, a5, a6⟩ |
          @⟨I, J, L, a1, a2, a3, a4, a5, a6⟩)⟩ <;>
          (have hg := hgood B hB; have := hg.ix; have := hg.iy; have := hg.iz)
        · exact .z (Nat.zero_le _) (by simp only [whole]; omega) (Nat.zero_le _) (by simp only [whole]; omega)
            (Nat.zero_le _) (by simp only [whole]; omega)
        · exact .y (Nat.zero_le _) (by simp only [whole]; omega) (Nat.zero_le _) (by simp only [whole]; omega)
            (Nat.zero_le _) (by simp only [whole]; omega)
        · exact .x (Nat.zero_le _) (by simp only [whole]; omega) (Nat.zero_le _) (by simp only [whole]; omega)
            (Nat.zero_le _) (by simp only [whole]; omega)
    · intro e
      simp only [List.mem_map, exists_exists_and_eq_and, mem_faces]
      constructor
      · rintro (@⟨I, J, L, a1, a2, a3, a4, a5, a6⟩ | @⟨I, J, L, a1, a2, a3, a4, a5, a6⟩ | @⟨I, J, L, a1, a2, a3, a4, a5, a6⟩) <;>
          simp only [whole] at a2 a4 a6 <;>
          obtain ⟨B, hB, c1, c2, c3, c4, c5, c6⟩ := hcover (min I (d.NX - 1)) (min J (d.NY - 1)) (min L (d.NZ - 1))
            (by omega) (by omega) (by omega)
        · exact ⟨B, hB, .x (by omega) (by omega) (by omega) (by omega) (by omega) (by omega)⟩
        · exact ⟨B, hB, .y (by omega) (by omega) (by omega) (by omega) (by omega) (by omega)⟩
        · exact ⟨B, hB, .z (by omega) (by omega) (by omega) (by omega) (by omega) (by omega)⟩
      · rintro ⟨B, hB, (@⟨I, J, L, a1, a2, a3, a4, a5, a6⟩ | @⟨I, J, L, a1, a2, a3, a4, a5, a6⟩ |
          @⟨I, J, L, a1, a2, a3, a4, a5, a6⟩)⟩ <;>
          (have hg := hgood B hB; have := hg.ix; have := hg.iy; have := hg.iz)
        · exact .x (Nat.zero_le _) (by simp only [whole]; omega) (Nat.zero_le _) (by simp only [whole]; omega)
            (Nat.zero_le _) (by simp only [whole]; omega)
        · exact .y (Nat.zero_le _) (by simp only [whole]; omega) (Nat.zero_le _) (by simp only [whole]; omega)
            (Nat.zero_le _) (by simp only [whole]; omega)
        · exact .z (Nat.zero_le _) (by simp only [whole]; omega) (Nat.zero_le _) (by simp only [whole]; omega)
            (Nat.zero_le _) (by simp only [whole]; omega)
    · intro c
      simp only [List.mem_map, exists_exists_and_eq_and, mem_regions]
      constructor
      · rintro ⟨I, J, L, a1, a2, a3, a4, a5, a6, rfl⟩
        simp only [whole] at a2 a4 a6
        obtain ⟨B, hB, c1, c2, c3, c4, c5, c6⟩ := hcover I J L (by omega) (by omega) (by omega)
        exact ⟨B, hB, I, J, L, c1, c2, c3, c4, c5, c6, rfl⟩
      · rintro ⟨B, hB, I, J, L, a1, a2, a3, a4, a5, a6, rfl⟩
        have hg := hgood B hB
        have := hg.ix
        have := hg.iy
        have := hg.iz
        exact ⟨I, J, L, Nat.zero_le _, by simp only [whole]; omega, Nat.zero_le _, by simp only [whole]; omega,
          Nat.zero_le _, by simp only [whole]; omega, rfl⟩
    · intro r r' m m' c hr hr' hc hc'
      rw [List.getElem?_map] at hr hr'
      obtain ⟨B, hB, rfl⟩ := Option.map_eq_some_iff.1 hr
      obtain ⟨B', hB', rfl⟩ := Option.map_eq_some_iff.1 hr'
      obtain ⟨hrl, rfl⟩ := List.getElem?_eq_some_iff.1 hB
      obtain ⟨hrl', rfl⟩ := List.getElem?_eq_some_iff.1 hB'
      have hg := hgood _ (List.getElem_mem hrl)
      have hg' := hgood _ (List.getElem_mem hrl')
      rw [mem_regions] at hc hc'
      obtain ⟨I, J, L, a1, a2, a3, a4, a5, a6, rfl⟩ := hc
      obtain ⟨I', J', L', b1, b2, b3, b4, b5, b6, e⟩ := hc'
      have i1 := hg.ix
      have i2 := hg.iy
      have i3 := hg.iz
      have i5 := hg'.iy
      have i6 := hg'.iz
      obtain ⟨rfl, rfl, rfl⟩ := rid_inj d (by omega) (by omega) (by omega) (by omega) (congrArg Region.id e)
      have hin : BlockPartition.Spec.InGrid 3 (numCellsInDir d) ![I, J, L] := by
        intro e _
        match e with
        | 0 => show I < d.NX; omega
        | 1 => show J < d.NY; omega
        | 2 => show L < d.NZ; omega
      obtain ⟨i, _, hu⟩ := ht.cover _ hin
      have e1 := hu ⟨r, hrl⟩ (by
        intro e _
        match e with
        | 0 => exact ⟨a1, a2⟩
        | 1 => exact ⟨a3, a4⟩
        | 2 => exact ⟨a5, a6⟩)
      have e2 := hu ⟨r', hrl'⟩ (by
        intro e _
        match e with
        | 0 => exact ⟨b1, b2⟩
        | 1 => exact ⟨b3, b4⟩
        | 2 => exact ⟨b5, b6⟩)
      exact congrArg Fin.val (e1.trans e2.symm)

example : ∃ (whole : RegMesh ℚ) (ms : List (RegMesh ℚ)), generateSerial exDom = some whole ∧ ms.length = 5 ∧
    (∀ r < 5, rankMesh 9 exDom 5 r = ms[r]?) ∧ (∀ c, c ∈ whole.regions ↔ ∃ m ∈ ms, c ∈ m.regions) := by
  obtain ⟨w, ms, h1, h2, h3, _, _, _, h4, _⟩ := distributed exDom exDom_good 5 (by decide) (by decide) 9 (by decide)
  exact ⟨w, ms, h1, h2, h3, h4⟩

end
end Jali.MstkGen
