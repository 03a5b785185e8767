import Verif.Proof.MstkGenerate
import Verif.Model.MstkConstruct
import Verif.Props.BlockPartition
/-! Property theorems C94, C95, C96, C97: generation of regular hexahedral meshes on several ranks. -/
namespace Jali.MstkGen
open Spec

section
variable {K : Type} [Field K] [LinearOrder K] [IsStrictOrderedRing K]

/-- a domain used in the examples -/
def exDom : Dom ℚ := ⟨0, 0, 0, 1, 2, 3, 2, 2, 3⟩
theorem exDom_good : GoodDom exDom :=
  ⟨by norm_num [exDom], by norm_num [exDom], by norm_num [exDom], by norm_num [exDom], by norm_num [exDom], by norm_num [exDom]⟩
/-- a block used in the examples -/
def exBlk : Blk := ⟨1, 0, 1, 1, 2, 2⟩
theorem exBlk_good : GoodBlk exDom exBlk :=
  ⟨by decide, by decide, by decide, by decide, by decide, by decide⟩

/-- **C94 (definedness).** Every block of positive size inside a non-empty grid can be generated without undefined
behaviour; the call without block arguments generates the block that is the whole grid; a grid without cells in some
direction is undefined behaviour. -/
theorem generate_defined (d : Dom K) :
    (GoodDom d → (∀ b : Blk, GoodBlk d b → ∃ m, generate d b = some m) ∧
      generateSerial d = generate d ⟨0, 0, 0, d.NX, d.NY, d.NZ⟩) ∧
    (d.NX = 0 ∨ d.NY = 0 ∨ d.NZ = 0 → ∀ b : Blk, generate d b = none) := by
  refine ⟨fun hd => ⟨fun b hb => ⟨_, generate_eq d hd.nx hd.ny hd.nz hb.nx hb.ny hb.nz⟩, ?_⟩, fun h b => ?_⟩
  · rw [generateSerial_eq d hd.nx hd.ny hd.nz]
    exact (generate_eq d hd.nx hd.ny hd.nz (b := whole d) hd.nx hd.ny hd.nz).symm
  · unfold generate
    rw [if_pos h]

example : ∃ m, generate exDom exBlk = some m ∧ m.verts.length = 18 ∧ m.edges.length = 33 ∧ m.faces.length = 20 ∧
    m.regions.length = 4 := by
  refine ⟨_, generate_eq exDom (by decide) (by decide) (by decide) (by decide) (by decide) (by decide), ?_⟩
  decide +kernel

/-- grid index `(i, j, k)` lies in the closed block, shortened by one in the directions flagged -/
def InBlk (b : Blk) (sx sy sz : Bool) (i j k : Nat) : Prop :=
  (b.i0 ≤ i ∧ (if sx then i < b.i0 + b.nx else i ≤ b.i0 + b.nx)) ∧
  (b.j0 ≤ j ∧ (if sy then j < b.j0 + b.ny else j ≤ b.j0 + b.ny)) ∧
  (b.k0 ≤ k ∧ (if sz then k < b.k0 + b.nz else k ≤ b.k0 + b.nz))

/-- **C94 (entities).** The mesh of a block has exactly one vertex at each grid point of the block, one edge between any two
neighbouring grid points (directed upwards), one face on each elementary rectangle and one cell on each elementary box; the
vertices of edges, faces and cells are those of the mesh. -/
theorem generate_entities (d : Dom K) (hd : GoodDom d) (b : Blk) (hb : GoodBlk d b) (m : RegMesh K)
    (hm : generate d b = some m) :
    ((m.verts.map pos).Nodup ∧ ∀ p, p ∈ m.verts.map pos ↔
      ∃ i j k, InBlk b false false false i j k ∧ p = gpt d i j k) ∧
    ((m.edges.map fun e => (pos e.v0, pos e.v1)).Nodup ∧ ∀ p q, (p, q) ∈ (m.edges.map fun e => (pos e.v0, pos e.v1)) ↔
      (∃ i j k, InBlk b true false false i j k ∧ p = gpt d i j k ∧ q = gpt d (i + 1) j k) ∨
      (∃ i j k, InBlk b false true false i j k ∧ p = gpt d i j k ∧ q = gpt d i (j + 1) k) ∨
      (∃ i j k, InBlk b false false true i j k ∧ p = gpt d i j k ∧ q = gpt d i j (k + 1))) ∧
    ((m.faces.map fun f => f.vs.map pos).Nodup ∧ ∀ l, l ∈ (m.faces.map fun f => f.vs.map pos) ↔
      (∃ i j k, InBlk b false true true i j k ∧
        l = [gpt d i j k, gpt d i (j + 1) k, gpt d i (j + 1) (k + 1), gpt d i j (k + 1)]) ∨
      (∃ i j k, InBlk b true false true i j k ∧
        l = [gpt d i j k, gpt d (i + 1) j k, gpt d (i + 1) j (k + 1), gpt d i j (k + 1)]) ∨
      (∃ i j k, InBlk b true true false i j k ∧
        l = [gpt d i j k, gpt d (i + 1) j k, gpt d (i + 1) (j + 1) k, gpt d i (j + 1) k])) ∧
    ((m.regions.map fun r => r.vs.map pos).Nodup ∧ ∀ l, l ∈ (m.regions.map fun r => r.vs.map pos) ↔
      ∃ i j k, InBlk b true true true i j k ∧
        l = [gpt d i j k, gpt d (i + 1) j k, gpt d (i + 1) (j + 1) k, gpt d i (j + 1) k,
          gpt d i j (k + 1), gpt d (i + 1) j (k + 1), gpt d (i + 1) (j + 1) (k + 1), gpt d i (j + 1) (k + 1)]) ∧
    (∀ e ∈ m.edges, e.v0 ∈ m.verts ∧ e.v1 ∈ m.verts) ∧
    (∀ f ∈ m.faces, ∀ v ∈ f.vs, v ∈ m.verts) ∧ (∀ r ∈ m.regions, ∀ v ∈ r.vs, v ∈ m.verts) := by
  rw [generate_eq d hd.nx hd.ny hd.nz hb.nx hb.ny hb.nz] at hm
  cases hm
  have hV := pos_V d hd
  have iy := hb.iy
  have iz := hb.iz
  refine ⟨⟨?_, ?_⟩, ⟨?_, ?_⟩, ⟨?_, ?_⟩, ⟨?_, ?_⟩, ?_, ?_, ?_⟩
  · refine (verts_id_nodup d b hb.iy hb.iz).1.map_on ?_
    intro v hv v' hv' h
    obtain ⟨I, J, L, _, _, _, _, _, _, rfl⟩ := (mem_verts d b).1 hv
    obtain ⟨I', J', L', _, _, _, _, _, _, rfl⟩ := (mem_verts d b).1 hv'
    rw [hV, hV] at h
    obtain ⟨rfl, rfl, rfl⟩ := gpt_inj d hd h
    rfl
  · intro p
    rw [List.mem_map]
    constructor
    · rintro ⟨v, hv, rfl⟩
      obtain ⟨I, J, L, _, _, _, _, _, _, rfl⟩ := (mem_verts d b).1 hv
      exact ⟨I, J, L, by simp only [InBlk]; simp; omega, hV I J L⟩
    · rintro ⟨I, J, L, h, rfl⟩
      simp only [InBlk] at h
      simp at h
      exact ⟨V d I J L, (mem_verts d b).2 ⟨I, J, L, by omega, by omega, by omega, by omega, by omega, by omega, rfl⟩,
        hV I J L⟩
  · refine (edges_id_nodup d b hb.iy hb.iz).1.map_on ?_
    intro e he e' he' h
    simp only [Prod.mk.injEq] at h
    rcases (mem_edges d b).1 he with @⟨I, J, L⟩ | @⟨I, J, L⟩ | @⟨I, J, L⟩ <;>
    rcases (mem_edges d b).1 he' with @⟨I', J', L'⟩ | @⟨I', J', L'⟩ | @⟨I', J', L'⟩ <;>
    simp only [EZ, EY, EX, hV] at h <;>
    (obtain ⟨rfl, rfl, rfl⟩ := gpt_inj d hd h.1; have h2 := gpt_inj d hd h.2) <;> first | rfl | omega
  · intro p q
    rw [List.mem_map]
    constructor
    · rintro ⟨e, he, h⟩
      simp only [Prod.mk.injEq] at h
      obtain ⟨rfl, rfl⟩ := h
      rcases (mem_edges d b).1 he with @⟨I, J, L, _, _, _, _, _, _⟩ | @⟨I, J, L, _, _, _, _, _, _⟩ |
        @⟨I, J, L, _, _, _, _, _, _⟩
      · exact .inr (.inr ⟨I, J, L, by simp only [InBlk]; simp; omega, hV _ _ _, hV _ _ _⟩)
      · exact .inr (.inl ⟨I, J, L, by simp only [InBlk]; simp; omega, hV _ _ _, hV _ _ _⟩)
      · exact .inl ⟨I, J, L, by simp only [InBlk]; simp; omega, hV _ _ _, hV _ _ _⟩
    · rintro (⟨I, J, L, h, rfl, rfl⟩ | ⟨I, J, L, h, rfl, rfl⟩ | ⟨I, J, L, h, rfl, rfl⟩) <;>
        simp only [InBlk] at h <;> simp at h
      · refine ⟨EX d I J L, (mem_edges d b).2 (.x ?_ ?_ ?_ ?_ ?_ ?_), ?_⟩
        iterate 6 omega
        simp only [EX, hV]
      · refine ⟨EY d I J L, (mem_edges d b).2 (.y ?_ ?_ ?_ ?_ ?_ ?_), ?_⟩
        iterate 6 omega
        simp only [EY, hV]
      · refine ⟨EZ d I J L, (mem_edges d b).2 (.z ?_ ?_ ?_ ?_ ?_ ?_), ?_⟩
        iterate 6 omega
        simp only [EZ, hV]
  · refine (faces_id_nodup d b hb.iy hb.iz).1.map_on ?_
    intro e he e' he' h
    rcases (mem_faces d b).1 he with @⟨I, J, L⟩ | @⟨I, J, L⟩ | @⟨I, J, L⟩ <;>
    rcases (mem_faces d b).1 he' with @⟨I', J', L'⟩ | @⟨I', J', L'⟩ | @⟨I', J', L'⟩ <;>
    simp only [FZ, FY, FX, hV, List.map_cons, List.map_nil, List.cons.injEq, and_true] at h <;>
    (obtain ⟨rfl, rfl, rfl⟩ := gpt_inj d hd h.1; have h2 := gpt_inj d hd h.2.1; have h3 := gpt_inj d hd h.2.2.1) <;>
    first | rfl | omega
  · intro l
    rw [List.mem_map]
    constructor
    · rintro ⟨f, hf, rfl⟩
      rcases (mem_faces d b).1 hf with @⟨I, J, L, _, _, _, _, _, _⟩ | @⟨I, J, L, _, _, _, _, _, _⟩ |
        @⟨I, J, L, _, _, _, _, _, _⟩
      · exact .inl ⟨I, J, L, by simp only [InBlk]; simp; omega, by simp only [FX, List.map_cons, List.map_nil, hV]⟩
      · exact .inr (.inl ⟨I, J, L, by simp only [InBlk]; simp; omega, by simp only [FY, List.map_cons, List.map_nil, hV]⟩)
      · exact .inr (.inr ⟨I, J, L, by simp only [InBlk]; simp; omega, by simp only [FZ, List.map_cons, List.map_nil, hV]⟩)
    · rintro (⟨I, J, L, h, rfl⟩ | ⟨I, J, L, h, rfl⟩ | ⟨I, J, L, h, rfl⟩) <;>
        simp only [InBlk] at h <;> simp at h
      · refine ⟨FX d I J L, (mem_faces d b).2 (.x ?_ ?_ ?_ ?_ ?_ ?_), ?_⟩
        iterate 6 omega
        simp only [FX, hV, List.map_cons, List.map_nil]
      · refine ⟨FY d I J L, (mem_faces d b).2 (.y ?_ ?_ ?_ ?_ ?_ ?_), ?_⟩
        iterate 6 omega
        simp only [FY, hV, List.map_cons, List.map_nil]
      · refine ⟨FZ d I J L, (mem_faces d b).2 (.z ?_ ?_ ?_ ?_ ?_ ?_), ?_⟩
        iterate 6 omega
        simp only [FZ, hV, List.map_cons, List.map_nil]
  · refine (regions_id_nodup d b hb.iy hb.iz).1.map_on ?_
    intro e he e' he' h
    obtain ⟨I, J, L, _, _, _, _, _, _, rfl⟩ := (mem_regions d b).1 he
    obtain ⟨I', J', L', _, _, _, _, _, _, rfl⟩ := (mem_regions d b).1 he'
    simp only [RG, hV, List.map_cons, List.map_nil, List.cons.injEq, and_true] at h
    obtain ⟨rfl, rfl, rfl⟩ := gpt_inj d hd h.1
    rfl
  · intro l
    rw [List.mem_map]
    constructor
    · rintro ⟨f, hf, rfl⟩
      obtain ⟨I, J, L, _, _, _, _, _, _, rfl⟩ := (mem_regions d b).1 hf
      exact ⟨I, J, L, by simp only [InBlk]; simp; omega, by simp only [RG, List.map_cons, List.map_nil, hV]⟩
    · rintro ⟨I, J, L, h, rfl⟩
      simp only [InBlk] at h
      simp at h
      exact ⟨RG d I J L, (mem_regions d b).2 ⟨I, J, L, by omega, by omega, by omega, by omega, by omega, by omega, rfl⟩,
        by simp only [RG, List.map_cons, List.map_nil, hV]⟩
  · intro e he
    rw [mem_verts, mem_verts]
    rcases (mem_edges d b).1 he with @⟨I, J, L, _, _, _, _, _, _⟩ | @⟨I, J, L, _, _, _, _, _, _⟩ |
        @⟨I, J, L, _, _, _, _, _, _⟩ <;>
    exact ⟨⟨_, _, _, by omega, by omega, by omega, by omega, by omega, by omega, rfl⟩,
      ⟨_, _, _, by omega, by omega, by omega, by omega, by omega, by omega, rfl⟩⟩
  · intro f hf v hv
    rw [mem_verts]
    rcases (mem_faces d b).1 hf with @⟨I, J, L, _, _, _, _, _, _⟩ | @⟨I, J, L, _, _, _, _, _, _⟩ |
        @⟨I, J, L, _, _, _, _, _, _⟩ <;>
    simp only [FX, FY, FZ, List.mem_cons, List.not_mem_nil, or_false] at hv <;>
    rcases hv with rfl | rfl | rfl | rfl <;>
    exact ⟨_, _, _, by omega, by omega, by omega, by omega, by omega, by omega, rfl⟩
  · intro r hr v hv
    rw [mem_verts]
    obtain ⟨I, J, L, _, _, _, _, _, _, rfl⟩ := (mem_regions d b).1 hr
    simp only [RG, List.mem_cons, List.not_mem_nil, or_false] at hv
    rcases hv with rfl | rfl | rfl | rfl | rfl | rfl | rfl | rfl <;>
    exact ⟨_, _, _, by omega, by omega, by omega, by omega, by omega, by omega, rfl⟩

example : ∃ m, generate exDom exBlk = some m ∧ gpt exDom 2 1 3 ∈ m.verts.map pos ∧ gpt exDom 0 1 3 ∉ m.verts.map pos := by
  obtain ⟨m, hm⟩ := ((generate_defined exDom).1 exDom_good).1 exBlk exBlk_good
  have h := (generate_entities exDom exDom_good exBlk exBlk_good m hm).1.2
  refine ⟨m, hm, (h _).2 ⟨2, 1, 3, by unfold InBlk; decide, rfl⟩, fun hc => ?_⟩
  obtain ⟨i, j, k, h1, h2⟩ := (h _).1 hc
  obtain ⟨rfl, rfl, rfl⟩ := gpt_inj exDom exDom_good h2
  exact absurd h1.1.1 (by decide)

/-- **C95 (consistency of global ids).** On whatever blocks two entities are generated, they get the same global id exactly if
they are the same geometric entity (same position, same end points, same corners, in whatever order); and then everything
stored on them is the same. -/
theorem ids_agree (d : Dom K) (hd : GoodDom d) (b b' : Blk) (hb : GoodBlk d b) (hb' : GoodBlk d b') (m m' : RegMesh K)
    (hm : generate d b = some m) (hm' : generate d b' = some m') :
    (∀ v ∈ m.verts, ∀ v' ∈ m'.verts, (v.id = v'.id ↔ pos v = pos v') ∧ (v.id = v'.id → v = v')) ∧
    (∀ e ∈ m.edges, ∀ e' ∈ m'.edges,
      (e.id = e'.id ↔ (pos e.v0 = pos e'.v0 ∧ pos e.v1 = pos e'.v1) ∨ (pos e.v0 = pos e'.v1 ∧ pos e.v1 = pos e'.v0)) ∧
      (e.id = e'.id → e = e')) ∧
    (∀ f ∈ m.faces, ∀ f' ∈ m'.faces,
      (f.id = f'.id ↔ ∀ p, p ∈ f.vs.map pos ↔ p ∈ f'.vs.map pos) ∧ (f.id = f'.id → f = f')) ∧
    (∀ r ∈ m.regions, ∀ r' ∈ m'.regions,
      (r.id = r'.id ↔ ∀ p, p ∈ r.vs.map pos ↔ p ∈ r'.vs.map pos) ∧ (r.id = r'.id → r = r')) := by
  rw [generate_eq d hd.nx hd.ny hd.nz hb.nx hb.ny hb.nz] at hm
  rw [generate_eq d hd.nx hd.ny hd.nz hb'.nx hb'.ny hb'.nz] at hm'
  cases hm
  cases hm'
  have hV := pos_V d hd
  have iy := hb.iy
  have iz := hb.iz
  have iy' := hb'.iy
  have iz' := hb'.iz
  refine ⟨?_, ?_, ?_, ?_⟩
  · intro v hv v' hv'
    obtain ⟨I, J, L, _, _, _, _, _, _, rfl⟩ := (mem_verts d b).1 hv
    obtain ⟨I', J', L', _, _, _, _, _, _, rfl⟩ := (mem_verts d b').1 hv'
    have hi : (V d I J L).id = (V d I' J' L').id → V d I J L = V d I' J' L' := by
      intro h
      obtain ⟨rfl, rfl, rfl⟩ := vid_inj d (by omega) (by omega) (by omega) (by omega) h
      rfl
    refine ⟨⟨fun h => by rw [hi h], fun h => ?_⟩, hi⟩
    rw [hV, hV] at h
    obtain ⟨rfl, rfl, rfl⟩ := gpt_inj d hd h
    rfl
  · intro e he e' he'
    have hi := eid_inj d b b' hb.iy hb.iz hb'.iy hb'.iz ((mem_edges d b).1 he) ((mem_edges d b').1 he')
    refine ⟨⟨fun h => by rw [hi h]; exact .inl ⟨rfl, rfl⟩, fun h => ?_⟩, hi⟩
    rcases (mem_edges d b).1 he with @⟨I, J, L⟩ | @⟨I, J, L⟩ | @⟨I, J, L⟩ <;>
    rcases (mem_edges d b').1 he' with @⟨I', J', L'⟩ | @⟨I', J', L'⟩ | @⟨I', J', L'⟩ <;>
    simp only [EZ, EY, EX, hV] at h <;>
    rcases h with ⟨h1, h2⟩ | ⟨h1, h2⟩ <;>
    (have h1 := gpt_inj d hd h1; have h2 := gpt_inj d hd h2) <;>
    first
      | omega
      | (obtain ⟨rfl, rfl, rfl⟩ := h1; rfl)
  · intro f hf f' hf'
    have hi := fid_inj d b b' hb.iy hb.iz hb'.iy hb'.iz ((mem_faces d b).1 hf) ((mem_faces d b').1 hf')
    refine ⟨⟨fun h => by rw [hi h]; exact fun _ => Iff.rfl, fun h => ?_⟩, hi⟩
    have hg : ∀ {a c e I J L}, gpt d a c e = gpt d I J L ↔ a = I ∧ c = J ∧ e = L :=
      fun {_ _ _ _ _ _} => ⟨gpt_inj d hd, fun ⟨h1, h2, h3⟩ => by rw [h1, h2, h3]⟩
    have h' := fun a c e : Nat => h (gpt d a c e)
    rcases (mem_faces d b).1 hf with @⟨I, J, L⟩ | @⟨I, J, L⟩ | @⟨I, J, L⟩ <;>
    rcases (mem_faces d b').1 hf' with @⟨I', J', L'⟩ | @⟨I', J', L'⟩ | @⟨I', J', L'⟩ <;>
    simp only [FX, FY, FZ, List.map_cons, List.map_nil, hV, List.mem_cons, List.not_mem_nil, or_false, hg] at h' <;>
    (have a1 := (h' I J L).1 (by simp); have b1 := (h' I' J' L').2 (by simp)
     have hh : I = I' ∧ J = J' ∧ L = L' := by omega
     obtain ⟨rfl, rfl, rfl⟩ := hh) <;>
    first
      | rfl
      | (exfalso; have := h' I (J + 1) L; omega)
      | (exfalso; have := h' (I + 1) J L; omega)
  · intro r hr r' hr'
    obtain ⟨I, J, L, _, _, _, _, _, _, rfl⟩ := (mem_regions d b).1 hr
    obtain ⟨I', J', L', _, _, _, _, _, _, rfl⟩ := (mem_regions d b').1 hr'
    have hi : (RG d I J L).id = (RG d I' J' L').id → RG d I J L = RG d I' J' L' := by
      intro h
      obtain ⟨rfl, rfl, rfl⟩ := rid_inj d (by omega) (by omega) (by omega) (by omega) h
      rfl
    refine ⟨⟨fun h => by rw [hi h]; exact fun _ => Iff.rfl, fun h => ?_⟩, hi⟩
    have hg : ∀ {a c e I J L}, gpt d a c e = gpt d I J L ↔ a = I ∧ c = J ∧ e = L :=
      fun {_ _ _ _ _ _} => ⟨gpt_inj d hd, fun ⟨h1, h2, h3⟩ => by rw [h1, h2, h3]⟩
    have h' := fun a c e : Nat => h (gpt d a c e)
    simp only [RG, List.map_cons, List.map_nil, hV, List.mem_cons, List.not_mem_nil, or_false, hg] at h'
    have a1 := (h' I J L).1 (by simp)
    have b1 := (h' I' J' L').2 (by simp)
    have hh : I = I' ∧ J = J' ∧ L = L' := by omega
    obtain ⟨rfl, rfl, rfl⟩ := hh
    rfl

example : ∃ m m', generate exDom exBlk = some m ∧ generate exDom ⟨0, 0, 0, 1, 1, 3⟩ = some m' ∧
    (∃ f ∈ m.faces, ∃ f' ∈ m'.faces, f.id = f'.id) ∧
    (∀ f ∈ m.faces, ∀ f' ∈ m'.faces, f.id = f'.id → f = f') := by
  have hb' : GoodBlk exDom ⟨0, 0, 0, 1, 1, 3⟩ := ⟨by decide, by decide, by decide, by decide, by decide, by decide⟩
  obtain ⟨m, hm⟩ := ((generate_defined exDom).1 exDom_good).1 exBlk exBlk_good
  obtain ⟨m', hm'⟩ := ((generate_defined exDom).1 exDom_good).1 _ hb'
  refine ⟨m, m', hm, hm', ?_, fun f hf f' hf' =>
    ((ids_agree exDom exDom_good _ _ exBlk_good hb' m m' hm hm').2.2.1 f hf f' hf').2⟩
  rw [generate_eq exDom (by decide) (by decide) (by decide) (by decide) (by decide) (by decide)] at hm hm'
  cases hm
  cases hm'
  decide +kernel

/-- **C95 (numbering).** The global ids of the vertices, edges, faces and cells of the whole mesh are the numbers from 1 to the
number of these entities, each used once. -/
theorem ids_number_grid (d : Dom K) (hd : GoodDom d) (m : RegMesh K) (hm : generateSerial d = some m) :
    Numbers (m.verts.map Vert.id) (nVerts d) ∧ Numbers (m.edges.map Edge.id) (nEdges d) ∧
    Numbers (m.faces.map Face.id) (nFaces d) ∧ Numbers (m.regions.map Region.id) (nCells d) := by
  rw [generateSerial_eq d hd.nx hd.ny hd.nz] at hm
  cases hm
  exact ⟨verts_numbers d, edges_numbers d, faces_numbers d, regions_numbers d⟩

example : ∃ m, generateSerial exDom = some m ∧ Numbers (m.edges.map Edge.id) 75 := by
  obtain ⟨m, hm⟩ : ∃ m, generateSerial exDom = some m :=
    ⟨_, generateSerial_eq exDom (by decide) (by decide) (by decide)⟩
  exact ⟨m, hm, (ids_number_grid exDom exDom_good m hm).2.1⟩

end
end Jali.MstkGen
