import Verif.Proof.EntityTypes
/-! Property theorem C37: types of entities agree with the lists of entities. -/
namespace Jali.Types
open Jali.Sides Jali.Sides.Spec

/-- the kinds of entities the mesh represents -/
def Represented (b : Base) : EntityKind → Prop
  | .CELL | .NODE => True
  | .FACE => b.req.faces = true
  | .EDGE => b.req.edges = true
  | .SIDE => b.req.sides = true
  | .WEDGE => b.req.wedges = true
  | .CORNER => b.req.corners = true
  | _ => False

/-- What the framework provides is a mesh: the lists number the entities without gaps, each listed once; the connectivity is
valid (Spec/Sides.lean). -/
structure WellFormed (b : Base) : Prop where
  closed : ∃ r, b.req = MeshCache.closure r
  nodes : Numbered b.nodes.owned b.nodes.ghost []
  edges : b.req.edges = true → Numbered b.edges.owned b.edges.ghost []
  faces : b.req.faces = true → Numbered b.faces.owned b.faces.ghost []
  cells : Numbered b.cells.owned b.cells.ghost b.cells.bndry
  dim : b.topo.manifoldDim = 2 ∨ b.topo.manifoldDim = 3
  valid : b.req.sides = true → Valid (shape b) ∧ Oriented (shape b) ∧ NodesOk (shape b)

/-- the parallel types of entities -/
def isType (ty : EntityType) : Prop := ty = .PARALLEL_OWNED ∨ ty = .PARALLEL_GHOST ∨ ty = .BOUNDARY_GHOST

/-- agreement of types and lists for one kind: `type e` is the answer about entity `e`, `list ty` the list of type `ty` -/
def Agree (type : Nat → Option EntityType) (list : EntityType → List Nat) : Prop :=
  (∀ e ty, isType ty → (type e = some ty ↔ e ∈ list ty)) ∧ (∀ e ty, type e = some ty → isType ty)

theorem agree_two {l : Two} {a : List EntityType}
    (h : ∀ e, (a[e]? = some .PARALLEL_OWNED ↔ e ∈ l.owned) ∧ (a[e]? = some .PARALLEL_GHOST ↔ e ∈ l.ghost) ∧
      (∀ ty, a[e]? = some ty → ty = .PARALLEL_OWNED ∨ ty = .PARALLEL_GHOST)) : Agree (fun e => a[e]?) l.ofType := by
  constructor
  · rintro e ty (rfl | rfl | rfl)
    · exact (h e).1
    · exact (h e).2.1
    · constructor
      · intro ht
        rcases (h e).2.2 _ ht with h' | h' <;> cases h'
      · intro hm
        simp [Two.ofType] at hm
  · intro e ty ht
    rcases (h e).2.2 _ ht with h' | h'
    · exact .inl h'
    · exact .inr (.inl h')

/-- a kind whose entities have the type of their cell -/
theorem agree_cell {types : List EntityType} {cellOf : Nat → Option Nat} {o g d : List Nat} {list : EntityType → List Nat}
    (hty : ∀ (e : Nat) (ty : EntityType), types[e]? = some ty → isType ty)
    (ho : ∀ s, s ∈ o ↔ ∃ c, cellOf s = some c ∧ (types[c]?).getD .DELETED = .PARALLEL_OWNED)
    (hg : ∀ s, s ∈ g ↔ ∃ c, cellOf s = some c ∧ (types[c]?).getD .DELETED = .PARALLEL_GHOST)
    (hd : ∀ s, s ∈ d ↔ ∃ c, cellOf s = some c ∧ (types[c]?).getD .DELETED = .BOUNDARY_GHOST)
    (l1 : list .PARALLEL_OWNED = o) (l2 : list .PARALLEL_GHOST = g) (l3 : list .BOUNDARY_GHOST = d) :
    Agree (fun s => (cellOf s).bind fun c => types[c]?) list := by
  have key : ∀ s (ty : EntityType), ty ≠ .DELETED → ((cellOf s).bind (fun c => types[c]?) = some ty ↔
      ∃ c, cellOf s = some c ∧ (types[c]?).getD .DELETED = ty) := by
    intro s ty hne
    cases hc : cellOf s with
    | none => simp
    | some c =>
      simp only [Option.bind_some, Option.some.injEq, exists_eq_left']
      cases types[c]? with
      | none => simp [Ne.symm hne]
      | some x => simp
  constructor
  · rintro s ty (rfl | rfl | rfl)
    · rw [l1, ho]; exact key s _ (by simp)
    · rw [l2, hg]; exact key s _ (by simp)
    · rw [l3, hd]; exact key s _ (by simp)
  · intro s ty h
    cases hc : cellOf s with
    | none => simp [hc] at h
    | some c => simp only [hc, Option.bind_some] at h; exact hty c ty h

theorem whenOpt_true {α : Type} (x : α) : whenOpt true (some x) = some (some x) := rfl
theorem whenOpt_false {α : Type} (x : Option α) : whenOpt false x = some none := rfl

/-- the caches of a well-formed mesh, and everything known about them -/
theorem cacheExtra_ok (b : Base) (h : WellFormed b) :
    ∃ c, cacheExtra b = some c ∧ cacheTypeInfo b = some c.types ∧
      (b.req.sides = true → Valid (source b c.types)) ∧
      (∀ x, c.side = some x ↔ b.req.sides = true ∧ cacheSideInfo (source b c.types) = some x) ∧
      (∀ x, c.wedge = some x ↔ b.req.wedges = true ∧ ∃ i, cacheSideInfo (source b c.types) = some i ∧ cacheWedgeInfo (source b c.types) i = some x) ∧
      (∀ x, c.corner = some x ↔ b.req.corners = true ∧ ∃ i, cacheSideInfo (source b c.types) = some i ∧ cacheCornerInfo (source b c.types) i = some x) ∧
      Agree (fun e => c.types.node[e]?) b.nodes.ofType ∧
      (b.req.edges = true → Agree (fun e => c.types.edge[e]?) b.edges.ofType) ∧
      (b.req.faces = true → Agree (fun e => c.types.face[e]?) b.faces.ofType) ∧
      (∀ e, (c.types.cell[e]? = some .PARALLEL_OWNED ↔ e ∈ b.cells.owned) ∧ (c.types.cell[e]? = some .PARALLEL_GHOST ↔ e ∈ b.cells.ghost) ∧
        (c.types.cell[e]? = some .BOUNDARY_GHOST ↔ e ∈ b.cells.bndry) ∧ (∀ ty, c.types.cell[e]? = some ty → isType ty)) := by
  obtain ⟨ct, hct, ict⟩ := typesOfThree_ok h.cells
  obtain ⟨nt, hnt, int⟩ := typesOfTwo_ok h.nodes
  obtain ⟨ft, hft, ift⟩ : ∃ ft, (if b.req.faces then typesOfTwo b.faces else some []) = some ft ∧
      (b.req.faces = true → Agree (fun e => ft[e]?) b.faces.ofType) := by
    by_cases hf : b.req.faces = true
    · obtain ⟨a, h1, h2⟩ := typesOfTwo_ok (h.faces hf)
      exact ⟨a, by rw [if_pos hf, h1], fun _ => agree_two h2⟩
    · exact ⟨[], by rw [if_neg hf], fun h => absurd h hf⟩
  obtain ⟨et, het, iet⟩ : ∃ et, (if b.req.edges then typesOfTwo b.edges else some []) = some et ∧
      (b.req.edges = true → Agree (fun e => et[e]?) b.edges.ofType) := by
    by_cases hf : b.req.edges = true
    · obtain ⟨a, h1, h2⟩ := typesOfTwo_ok (h.edges hf)
      exact ⟨a, by rw [if_pos hf, h1], fun _ => agree_two h2⟩
    · exact ⟨[], by rw [if_neg hf], fun h => absurd h hf⟩
  have hti : cacheTypeInfo b = some ⟨ct, ft, et, nt⟩ := by
    unfold cacheTypeInfo
    rw [hct, Option.bind_some, hft, Option.bind_some, het, Option.bind_some, hnt]
    rfl
  obtain ⟨r, hr⟩ := h.closed
  obtain ⟨c1, c2, -⟩ := MeshCache.request_closure r
  rw [← hr] at c1 c2
  have hv : b.req.sides = true → Valid (source b ⟨ct, ft, et, nt⟩) := by
    intro hs
    refine valid_source (h.valid hs).1 ?_
    intro c hc
    have hc' : c ∈ b.cells.owned ∨ c ∈ b.cells.ghost ∨ c ∈ b.cells.bndry := by
      simpa [Three.all, or_assoc] using hc
    rcases hc' with hc | hc | hc
    · left; rw [(ict c).1.2 hc]; rfl
    · right; left; rw [(ict c).2.1.2 hc]; rfl
    · right; right; rw [(ict c).2.2.1.2 hc]; rfl
  by_cases hs : b.req.sides = true
  · obtain ⟨v1, v2, v3⟩ := h.valid hs
    have v1' := hv hs
    have v2' := oriented_source ⟨ct, ft, et, nt⟩ v2
    have v3' := nodesOk_source ⟨ct, ft, et, nt⟩ v3
    obtain ⟨i, l, hi, hl, -⟩ := wedges (source b ⟨ct, ft, et, nt⟩) v1' v2' h.dim
    obtain ⟨i', k, hi', hk, -⟩ := corners (source b ⟨ct, ft, et, nt⟩) v1' v3'
    rw [hi] at hi'
    cases hi'
    refine ⟨⟨⟨ct, ft, et, nt⟩, some i, if b.req.wedges then some l else none, if b.req.corners then some k else none⟩, ?_, hti, hv, ?_, ?_, ?_,
      agree_two int, iet, ift, ict⟩
    · unfold cacheExtra
      rw [hti, Option.bind_some]
      dsimp only
      rw [hs, hi, Bool.true_or, Bool.true_or, whenOpt_true, Option.bind_some, Option.bind_some, Option.bind_some, hl, hk]
      cases hw : b.req.wedges <;> cases hc : b.req.corners
      · rfl
      · rw [hw] at c1; exact absurd (c1 hc) (by simp)
      · rfl
      · rfl
    · intro x
      simp [hs, hi]
    · intro x
      by_cases hw : b.req.wedges = true <;> simp [hw, hi, hl]
    · intro x
      by_cases hw : b.req.corners = true <;> simp [hw, hi, hk]
  · have hw : ¬ b.req.wedges = true := fun hw => hs (c2 hw)
    have hc : ¬ b.req.corners = true := fun hc => hw (c1 hc)
    refine ⟨⟨⟨ct, ft, et, nt⟩, none, none, none⟩, ?_, hti, hv, ?_, ?_, ?_, agree_two int, iet, ift, ict⟩
    · unfold cacheExtra
      rw [hti, Option.bind_some]
      dsimp only
      rw [Bool.not_eq_true] at hs hw hc
      rw [hs, hw, hc]
      rfl
    · intro x; simp [hs]
    · intro x; simp [hw]
    · intro x; simp [hc]

/-- **C37, types.** Building the caches of a mesh is defined; for every kind of entity the mesh represents, and every number,
`entity_get_type` answers owned, ghost or boundary ghost exactly if the number is in the list of that type, and no other answer
is given. For kinds that are not represented it answers `TYPE_UNKNOWN`. -/
theorem entity_types (b : Base) (h : WellFormed b) :
    ∃ c, cacheExtra b = some c ∧
      (∀ kind, Represented b kind →
        (∀ e ty, isType ty → (entityGetType b c kind e = some ty ↔ e ∈ entities b c kind ty)) ∧
        (∀ e ty, entityGetType b c kind e = some ty → isType ty)) ∧
      (∀ kind e, ¬ Represented b kind → entityGetType b c kind e = some .TYPE_UNKNOWN) := by
  obtain ⟨c, hc, ht, hv, hs, hw, hk, an, ae, af, ac⟩ := cacheExtra_ok b h
  have hty : ∀ e ty, c.types.cell[e]? = some ty → isType ty := fun e => (ac e).2.2.2
  obtain ⟨r, hr⟩ := h.closed
  obtain ⟨c1, c2, -⟩ := MeshCache.request_closure r
  rw [← hr] at c1 c2
  refine ⟨c, hc, ?_, ?_⟩
  · intro kind hrep
    cases kind with
    | NODE => exact an
    | EDGE =>
      have hq : b.req.edges = true := hrep
      have : entityGetType b c .EDGE = fun e => c.types.edge[e]? := by
        funext e; show (if b.req.edges = true then _ else _) = _; rw [if_pos hq]
      rw [this]
      exact ae hq
    | FACE =>
      have hq : b.req.faces = true := hrep
      have : entityGetType b c .FACE = fun e => c.types.face[e]? := by
        funext e; show (if b.req.faces = true then _ else _) = _; rw [if_pos hq]
      rw [this]
      exact af hq
    | CELL =>
      constructor
      · rintro e ty (rfl | rfl | rfl)
        · exact (ac e).1
        · exact (ac e).2.1
        · exact (ac e).2.2.1
      · exact hty
    | SIDE =>
      have hq : b.req.sides = true := hrep
      obtain ⟨i, hi, -, -, -, -, -, ⟨-, o⟩, ⟨-, g⟩, ⟨-, d⟩⟩ := sides_are_incidences _ (hv hq)
      have hsi := (hs i).2 ⟨hq, hi⟩
      have hsc : ∀ s x, sideCell c s = some x ↔ ∃ r, i.side s = some r ∧ r.cell = x := by
        intro s x; unfold sideCell; rw [hsi]; simp
      have : entityGetType b c .SIDE = fun e => (sideCell c e).bind fun k => c.types.cell[k]? := by
        funext e; show (if b.req.sides = true then _ else _) = _; rw [if_pos hq]
      rw [this]
      refine agree_cell (o := i.owned.arr) (g := i.ghost.arr) (d := i.bndry.arr) hty ?_ ?_ ?_ ?_ ?_ ?_
      · intro s; rw [o]; simp only [hsc]; exact ⟨fun ⟨r, a, b⟩ => ⟨_, ⟨r, a, rfl⟩, b⟩, fun ⟨_, ⟨r, a, rfl⟩, b⟩ => ⟨r, a, b⟩⟩
      · intro s; rw [g]; simp only [hsc]; exact ⟨fun ⟨r, a, b⟩ => ⟨_, ⟨r, a, rfl⟩, b⟩, fun ⟨_, ⟨r, a, rfl⟩, b⟩ => ⟨r, a, b⟩⟩
      · intro s; rw [d]; simp only [hsc]; exact ⟨fun ⟨r, a, b⟩ => ⟨_, ⟨r, a, rfl⟩, b⟩, fun ⟨_, ⟨r, a, rfl⟩, b⟩ => ⟨r, a, b⟩⟩
      all_goals (unfold entities; dsimp only; rw [hsi])
    | WEDGE =>
      have hq : b.req.wedges = true := hrep
      have hqs := c2 hq
      obtain ⟨i, l, hi, hl, -, -, -, -, -, -, wl⟩ := wedges _ (hv hqs) (oriented_source c.types (h.valid hqs).2.1) h.dim
      obtain ⟨i', hi', -, -, -, -, -, ⟨-, o⟩, ⟨-, g⟩, ⟨-, d⟩⟩ := sides_are_incidences _ (hv hqs)
      rw [hi] at hi'; cases hi'
      have hsi := (hs i).2 ⟨hqs, hi⟩
      have hwi := (hw l).2 ⟨hq, i, hi, hl⟩
      have hsc : ∀ s x, sideCell c s = some x ↔ ∃ r, i.side s = some r ∧ r.cell = x := by
        intro s x; unfold sideCell; rw [hsi]; simp
      have : entityGetType b c .WEDGE = fun e => (sideCell c (e / 2)).bind fun k => c.types.cell[k]? := by
        funext e; show (if b.req.wedges = true then _ else _) = _; rw [if_pos hq]
      rw [this]
      refine agree_cell (cellOf := fun e => sideCell c (e / 2)) (o := l.owned) (g := l.ghost) (d := l.bndry) hty ?_ ?_ ?_ ?_ ?_ ?_
      · intro s; rw [(wl s).2.1, o]; simp only [hsc]; exact ⟨fun ⟨r, a, b⟩ => ⟨_, ⟨r, a, rfl⟩, b⟩, fun ⟨_, ⟨r, a, rfl⟩, b⟩ => ⟨r, a, b⟩⟩
      · intro s; rw [(wl s).2.2.1, g]; simp only [hsc]; exact ⟨fun ⟨r, a, b⟩ => ⟨_, ⟨r, a, rfl⟩, b⟩, fun ⟨_, ⟨r, a, rfl⟩, b⟩ => ⟨r, a, b⟩⟩
      · intro s; rw [(wl s).2.2.2, d]; simp only [hsc]; exact ⟨fun ⟨r, a, b⟩ => ⟨_, ⟨r, a, rfl⟩, b⟩, fun ⟨_, ⟨r, a, rfl⟩, b⟩ => ⟨r, a, b⟩⟩
      all_goals (unfold entities; dsimp only; rw [hwi])
    | CORNER =>
      have hq : b.req.corners = true := hrep
      have hqs := c2 (c1 hq)
      obtain ⟨i, k, hi, hki, -, -, -, -, -, -, -, kl, -⟩ := corners _ (hv hqs) (nodesOk_source c.types (h.valid hqs).2.2)
      have hsi := (hs i).2 ⟨hqs, hi⟩
      have hwi := (hk k).2 ⟨hq, i, hi, hki⟩
      have : entityGetType b c .CORNER = fun e => (cornerGetCell i k e).bind fun x => c.types.cell[x]? := by
        funext e; show (if b.req.corners = true then _ else _) = _; rw [if_pos hq, hwi, Option.bind_some]
        unfold cornerGetCell
        cases (k.cornerWedges[e]?).bind (·.head?) with
        | none => rfl
        | some w => simp only [Option.bind_some, sideCell, hsi, Info.wedge, wedgeGetSide]
      rw [this]
      refine agree_cell (o := k.owned.arr) (g := k.ghost.arr) (d := k.bndry.arr) hty ?_ ?_ ?_ ?_ ?_ ?_
      · intro s; exact (kl s).1
      · intro s; exact (kl s).2.1
      · intro s; exact (kl s).2.2
      all_goals (unfold entities; dsimp only; rw [hwi])
    | _ => exact hrep.elim
  · intro kind e hn
    cases kind with
    | NODE | CELL => exact absurd trivial hn
    | EDGE => show (if b.req.edges = true then _ else _) = _; rw [if_neg (show ¬ b.req.edges = true from hn)]
    | FACE => show (if b.req.faces = true then _ else _) = _; rw [if_neg (show ¬ b.req.faces = true from hn)]
    | SIDE => show (if b.req.sides = true then _ else _) = _; rw [if_neg (show ¬ b.req.sides = true from hn)]
    | WEDGE => show (if b.req.wedges = true then _ else _) = _; rw [if_neg (show ¬ b.req.wedges = true from hn)]
    | CORNER => show (if b.req.corners = true then _ else _) = _; rw [if_neg (show ¬ b.req.corners = true from hn)]
    | _ => rfl

theorem all_sides_perm {m : Src} (hv : Valid m) {i : Info} (hi : cacheSideInfo m = some i) :
    (i.owned.arr ++ i.ghost.arr ++ i.bndry.arr).Perm i.all.arr := by
  obtain ⟨i', hi', ⟨n, hn⟩, hall, hinc, -, -, ⟨no, o⟩, ⟨ng, g⟩, ⟨nd, d⟩⟩ := sides_are_incidences _ hv
  rw [hi] at hi'; cases hi'
  rw [List.perm_ext_iff_of_nodup]
  · intro s
    rw [List.mem_append, List.mem_append, o, g, d, hall]
    constructor
    · rintro ((⟨r, hr, _⟩ | ⟨r, hr, _⟩) | ⟨r, hr, _⟩) <;> exact ⟨r, hr⟩
    · rintro ⟨r, hr⟩
      obtain ⟨⟨fd, hf⟩, _⟩ := hinc s r hr
      rcases hv.types r.cell hf.1 with h | h | h
      · exact .inl (.inl ⟨r, hr, h⟩)
      · exact .inl (.inr ⟨r, hr, h⟩)
      · exact .inr ⟨r, hr, h⟩
  · have dis : ∀ (s : Nat) (t1 t2 : EntityType), t1 ≠ t2 → (∃ r, i.side s = some r ∧ m.cellType r.cell = t1) →
        (∃ r, i.side s = some r ∧ m.cellType r.cell = t2) → False := by
      rintro s t1 t2 hne ⟨r, a1, a2⟩ ⟨q, b1, b2⟩
      rw [a1] at b1; cases b1
      exact hne (a2.symm.trans b2)
    rw [List.nodup_append, List.nodup_append]
    refine ⟨⟨no, ng, ?_⟩, nd, ?_⟩
    · rintro s hs _ ht rfl
      exact dis s _ _ (by simp) ((o s).1 hs) ((g s).1 ht)
    · rintro s hs _ ht rfl
      rcases List.mem_append.1 hs with hs | hs
      · exact dis s _ _ (by simp) ((o s).1 hs) ((d s).1 ht)
      · exact dis s _ _ (by simp) ((g s).1 hs) ((d s).1 ht)
  · rw [hn]; exact List.nodup_range

theorem two_num (l : Two) (ty : EntityType) : l.num ty = (l.ofType ty).length := by
  cases ty <;> simp [Two.num, Two.ofType, Two.all]

theorem two_perm (l : Two) : (l.ofType .ALL).Perm (l.ofType .PARALLEL_OWNED ++ l.ofType .PARALLEL_GHOST ++ l.ofType .BOUNDARY_GHOST) := by
  simp [Two.ofType, Two.all]

/-- **C37, counts.** For every kind and type, `num_entities` is the length of the list of that kind and type; the list of all
entities of a kind consists of the owned, the ghost and the boundary ghost entities; and for kinds the mesh represents it
contains each of `0, ..., n-1` exactly once. -/
theorem entity_counts (b : Base) (h : WellFormed b) :
    ∃ c, cacheExtra b = some c ∧
      (∀ kind ty, numEntities b c kind ty = (entities b c kind ty).length) ∧
      (∀ kind, (entities b c kind .ALL).Perm
        (entities b c kind .PARALLEL_OWNED ++ entities b c kind .PARALLEL_GHOST ++ entities b c kind .BOUNDARY_GHOST)) ∧
      (∀ kind, Represented b kind → (entities b c kind .ALL).Perm (List.range (numEntities b c kind .ALL))) := by
  obtain ⟨c, hc, ht, hv, hs, hw, hk, -⟩ := cacheExtra_ok b h
  obtain ⟨r, hr⟩ := h.closed
  obtain ⟨c1, c2, -⟩ := MeshCache.request_closure r
  rw [← hr] at c1 c2
  have hperm : ∀ kind, (entities b c kind .ALL).Perm
        (entities b c kind .PARALLEL_OWNED ++ entities b c kind .PARALLEL_GHOST ++ entities b c kind .BOUNDARY_GHOST) := by
    intro kind
    cases kind with
    | NODE => exact two_perm b.nodes
    | EDGE => exact two_perm b.edges
    | FACE => exact two_perm b.faces
    | SIDE =>
      unfold entities
      dsimp only
      cases hsi : c.side with
      | none => exact List.Perm.refl _
      | some i =>
        obtain ⟨hq, hi⟩ := (hs i).1 hsi
        exact (all_sides_perm (hv hq) hi).symm
    | WEDGE =>
      unfold entities
      dsimp only
      cases hsi : c.wedge with
      | none => exact List.Perm.refl _
      | some l =>
        obtain ⟨hq, i, hi, hl⟩ := (hw l).1 hsi
        unfold cacheWedgeInfo at hl
        obtain ⟨x, hx, rfl⟩ := Option.map_eq_some_iff.1 hl
        exact List.Perm.refl _
    | CORNER =>
      unfold entities
      dsimp only
      cases hsi : c.corner with
      | none => exact List.Perm.refl _
      | some l => exact List.Perm.refl _
    | CELL => exact List.Perm.refl _
    | _ => exact List.Perm.refl _
  have hlen : ∀ kind ty, numEntities b c kind ty = (entities b c kind ty).length := by
    intro kind ty
    have hl := (hperm kind).length_eq
    rw [List.length_append, List.length_append] at hl
    unfold numEntities entities at *
    cases kind with
    | NODE => exact two_num _ _
    | EDGE => exact two_num _ _
    | FACE => exact two_num _ _
    | SIDE =>
      dsimp only at *
      cases hsi : c.side with
      | none => cases ty <;> rfl
      | some i =>
        rw [hsi] at hl
        cases ty with
        | ALL => exact hl.symm
        | _ => rfl
    | WEDGE =>
      dsimp only at *
      cases hsi : c.wedge with
      | none => cases ty <;> rfl
      | some i =>
        rw [hsi] at hl
        cases ty with
        | ALL => exact hl.symm
        | _ => rfl
    | CORNER =>
      dsimp only at *
      cases hsi : c.corner with
      | none => cases ty <;> rfl
      | some i =>
        rw [hsi] at hl
        cases ty with
        | ALL => exact hl.symm
        | _ => rfl
    | CELL =>
      dsimp only at *
      cases ty with
      | ALL => exact hl.symm
      | _ => rfl
    | _ => rfl
  refine ⟨c, hc, hlen, hperm, ?_⟩
  intro kind hrep
  rw [hlen]
  cases kind with
  | NODE => have := h.nodes; unfold Numbered at this; rw [List.append_nil] at this; exact this
  | EDGE => have := h.edges hrep; unfold Numbered at this; rw [List.append_nil] at this; exact this
  | FACE => have := h.faces hrep; unfold Numbered at this; rw [List.append_nil] at this; exact this
  | CELL => exact h.cells
  | SIDE =>
    have hq : b.req.sides = true := hrep
    obtain ⟨i, hi, ⟨n, hn⟩, -⟩ := sides_are_incidences _ (hv hq)
    unfold entities
    dsimp only
    rw [(hs i).2 ⟨hq, hi⟩]
    dsimp only
    rw [hn, List.length_range]
  | WEDGE =>
    have hq : b.req.wedges = true := hrep
    have hqs := c2 hq
    obtain ⟨i, l, hi, hl, -, -, -, -, -, hp, -⟩ := wedges _ (hv hqs) (oriented_source c.types (h.valid hqs).2.1) h.dim
    unfold entities
    dsimp only
    rw [(hw l).2 ⟨hq, i, hi, hl⟩]
    dsimp only
    rw [hp.length_eq, List.length_range]
    exact hp
  | CORNER =>
    have hq : b.req.corners = true := hrep
    have hqs := c2 (c1 hq)
    obtain ⟨i, k, hi, hki, -, -, -, -, -, -, -, -, hp⟩ := corners _ (hv hqs) (nodesOk_source c.types (h.valid hqs).2.2)
    unfold entities
    dsimp only
    rw [(hk k).2 ⟨hq, i, hi, hki⟩]
    dsimp only
    rw [hp.length_eq, List.length_range]
    exact hp
  | _ => exact hrep.elim

/-- two quadrilaterals, the second a ghost, with everything requested -/
def quadsBase : Base :=
  { nodes := ⟨[0, 1, 3, 4], [2, 5]⟩
    edges := ⟨[0, 1, 2, 3], [4, 5, 6]⟩
    faces := ⟨[0, 1, 2, 3], [4, 5, 6]⟩
    cells := ⟨[0], [1], []⟩
    topo := quads
    req := ⟨true, true, true, true, true⟩ }

theorem quadsBase_ok : WellFormed quadsBase where
  closed := ⟨⟨false, false, false, false, true⟩, rfl⟩
  nodes := by unfold Numbered; decide
  edges := fun _ => by unfold Numbered; decide
  faces := fun _ => by unfold Numbered; decide
  cells := by unfold Numbered; decide
  dim := .inl rfl
  valid := fun _ =>
    ⟨Valid.ofLists (by decide) (by decide) (by decide) (by decide) (by decide) (by decide) (by decide +kernel),
      Oriented.ofLists (by decide) (by decide) (by decide +kernel),
      NodesOk.ofLists (by decide) (by decide) (by decide) (by decide)⟩

/-- wedge 9 belongs to side 4, of the ghost cell; corner 2 to the owned cell; there are 8 sides -/
example : (cacheExtra quadsBase).map (fun c => (entityGetType quadsBase c .WEDGE 9, entityGetType quadsBase c .CORNER 2,
    entityGetType quadsBase c .NODE 2)) =
    some (some .PARALLEL_GHOST, some .PARALLEL_OWNED, some .PARALLEL_GHOST) := by decide +kernel
example : (cacheExtra quadsBase).map (fun c => (numEntities quadsBase c .SIDE .ALL, entities quadsBase c .SIDE .PARALLEL_GHOST)) =
    some (8, [4, 5, 6, 7]) := by decide +kernel

example : ∃ c, cacheExtra quadsBase = some c ∧ ∀ e ty, isType ty →
    (entityGetType quadsBase c .CORNER e = some ty ↔ e ∈ entities quadsBase c .CORNER ty) := by
  obtain ⟨c, hc, hall, _⟩ := entity_types quadsBase quadsBase_ok
  exact ⟨c, hc, (hall .CORNER rfl).1⟩

end Jali.Types
