import Verif.Model.MeshCache
/-! Property theorems C33, C34, C67: requests, caches and updates. -/
namespace Jali.MeshCache

/-- **C33.** Corners imply wedges, wedges imply sides, sides imply faces and edges; what was requested stays requested
and nothing else is switched on. -/
theorem request_closure (r : Request) :
    let c := closure r
    (c.corners = true → c.wedges = true) ∧ (c.wedges = true → c.sides = true) ∧
    (c.sides = true → c.faces = true ∧ c.edges = true) ∧
    (c.corners = true ↔ r.corners = true) ∧ (c.wedges = true ↔ r.wedges = true ∨ r.corners = true) ∧
    (c.sides = true ↔ r.sides = true ∨ r.wedges = true ∨ r.corners = true) ∧
    (c.faces = true ↔ r.faces = true ∨ r.sides = true ∨ r.wedges = true ∨ r.corners = true) ∧
    (c.edges = true ↔ r.edges = true ∨ r.sides = true ∨ r.wedges = true ∨ r.corners = true) := by
  obtain ⟨f, e, s, w, c⟩ := r
  cases f <;> cases e <;> cases s <;> cases w <;> cases c <;> decide

example : closure ⟨false, false, false, false, true⟩ = ⟨true, true, true, true, true⟩ := by decide
example : closure ⟨false, true, false, false, false⟩ = ⟨false, true, false, false, false⟩ := by decide

/-- The kinds of entities a query is about: it may be used when they are available. -/
def available (c : Request) : Query → Bool
  | .cellGetFaces | .faceGetCells | .faceArea | .faceCentroid | .faceNormal => c.faces
  | .faceGetEdges | .faceToCellEdgeMap => c.faces && c.edges
  | .cellGetEdges | .edgeGetNodes | .edgeLength | .edgeVector | .edgeCentroid => c.edges
  | .sideGetFace | .sideGetNode | .sideOpposite | .cellGetSides | .sideCoordinates | .sideVolume | .sideFacetNormal =>
    c.sides
  | .sideGetWedge | .wedgeGetCell | .wedgeGetNode | .wedgeAdjacent | .wedgeOpposite | .cellGetWedges
  | .nodeGetWedges | .wedgeCoordinates | .wedgeVolume | .wedgeFacetNormal => c.wedges
  | .wedgeGetCorner => c.wedges && c.corners
  | .cornerGetWedges | .cornerGetNode | .cornerGetCell | .cellGetCorners | .cellCornerAtNode | .nodeGetCorners
  | .cornerVolume | .cornerCoordinates | .cornerFacetization => c.corners
  | .cellCentroid => true

theorem make_update (r : Request) (dim : Nat) (junk : Bool) (hd : dim = 1 ∨ dim = 2 ∨ dim = 3)
    (hf : dim ≤ 2 ∨ (closure r).faces = true) :
    ∃ s, make r dim junk = some s ∧ update s = some s ∧ s.req = closure r ∧ s.dim = dim ∧
      (∀ q, available (closure r) q = true → (q = .nodeGetWedges → (closure r).corners = true) → q.asserts s = true) ∧
      ((closure r).corners = false → Query.asserts s .nodeGetWedges = false) := by
  obtain ⟨f, e, s, w, c⟩ := r
  rcases hd with rfl | rfl | rfl <;> cases junk <;>
  cases f <;> cases e <;> cases s <;> cases w <;> cases c <;> first
  | exact ⟨_, rfl, rfl, rfl, rfl, by intro q; cases q <;> decide, by decide⟩
  | exact absurd hf (by decide)

theorem updates_fix (s : State) (h : update s = some s) : ∀ n, updates n s = some s
  | 0 => rfl
  | n + 1 => by rw [updates, h, Option.bind_some, updates_fix s h n]

/-- **C67, the part that holds.** If faces are available or the mesh is not solid, building the mesh fails no assertion,
whatever was requested; afterwards, and after any number of geometry updates, no query about an available kind of entity
fails an assertion, except `node_get_wedges` when corners are not available. -/
theorem queries_available_partial (r : Request) (dim : Nat) (junk : Bool) (hd : dim = 1 ∨ dim = 2 ∨ dim = 3)
    (hf : dim ≤ 2 ∨ (closure r).faces = true) (n : Nat) :
    ∃ s, ((make r dim junk).bind (updates n)) = some s ∧ s.req = closure r ∧
      ∀ q, available s.req q = true → (q = .nodeGetWedges → s.req.corners = true) → q.asserts s = true := by
  obtain ⟨s, h1, h2, h3, _, h4, _⟩ := make_update r dim junk hd hf
  exact ⟨s, by rw [h1, Option.bind_some, updates_fix s h2], h3, by rw [h3]; exact h4⟩

example : ∃ s, ((make ⟨false, false, false, true, false⟩ 3 false).bind (updates 5)) = some s ∧
    s.req = ⟨true, true, true, true, false⟩ :=
  have ⟨s, h1, h2, _⟩ := queries_available_partial ⟨false, false, false, true, false⟩ 3 false (.inr (.inr rfl)) (.inr rfl) 5
  ⟨s, h1, h2⟩

/-- **C67 is false of the code.** `node_get_wedges` is a query about wedges, but on every mesh built with wedges and
without corners its assertion fails. -/
theorem node_get_wedges_needs_corners (r : Request) (dim : Nat) (junk : Bool) (hd : dim = 1 ∨ dim = 2 ∨ dim = 3)
    (hw : (closure r).wedges = true) (hc : (closure r).corners = false) :
    ∃ s, make r dim junk = some s ∧ available s.req .nodeGetWedges = true ∧ Query.asserts s .nodeGetWedges = false := by
  have hf : (closure r).faces = true := by
    have := request_closure r
    exact (this.2.2.1 (this.2.1 hw)).1
  obtain ⟨s, h1, _, h3, _, _, h4⟩ := make_update r dim junk hd (.inr hf)
  exact ⟨s, h1, by rw [h3]; exact hw, h4 hc⟩

example : (closure ⟨true, false, false, true, false⟩).wedges = true ∧ (closure ⟨true, false, false, true, false⟩).corners = false := by
  decide

/-- **C67 is false of the code.** A solid mesh requested without faces (and without anything that implies them) cannot be
built: computing the cell volumes asserts that the faces of cells are cached. -/
theorem solid_mesh_without_faces_aborts (e junk : Bool) : make ⟨false, e, false, false, false⟩ 3 junk = none := by
  cases e <;> cases junk <;> decide

/-! ### C34 -/

/-- all updates of a history, the oldest first -/
def updateAll {V N : Type} (n : Nat) (d : SideData V N) (gs : List (Nat → V × N × N)) : SideData V N :=
  gs.foldl (updateSides n) d

theorem query_later {V N : Type} (n : Nat) (gs : List (Nat → V × N × N)) : ∀ (d : SideData V N) (g : Nat → V × N × N) (s : Nat),
    s < n → d.outward.length = n * k → d.mid.length = n * k → d.outward[s]? = some (g s).2.1 → d.mid[s]? = some (g s).2.2 →
    (updateAll n d gs).outward[s]? = some (g s).2.1 ∧ (updateAll n d gs).mid[s]? = some (g s).2.2 := by
  induction gs generalizing k with
  | nil => intro d g s _ _ _ h1 h2; exact ⟨h1, h2⟩
  | cons g' gs ih =>
    intro d g s hs hl1 hl2 h1 h2
    have lt : ∀ {l : List N} {x}, l[s]? = some x → s < l.length := by
      intro l x h
      exact Decidable.byContradiction fun hc => by rw [List.getElem?_eq_none (by omega)] at h; cases h
    refine ih (k := k + 1) (updateSides n d g') g s hs ?_ ?_ ?_ ?_
    · simp [updateSides, hl1, Nat.mul_succ]
    · simp [updateSides, hl2, Nat.mul_succ]
    · simp only [updateSides]; rw [List.getElem?_append_left (lt h1)]; exact h1
    · simp only [updateSides]; rw [List.getElem?_append_left (lt h2)]; exact h2

/-- **C34, what the code does.** After any non-empty history of updates the volumes are those of the last update, but
the facet normals reported are those of the very first. -/
theorem side_data_partial {V N : Type} (n : Nat) (first last : Nat → V × N × N) (mids : List (Nat → V × N × N)) (s : Nat)
    (hs : s < n) :
    (updateAll n ⟨[], [], []⟩ (first :: mids ++ [last])).query s =
      (some (last s).1, some (first s).2.1, some (first s).2.2) ∧
    (updateAll n (⟨[], [], []⟩ : SideData V N) [first]).query s = (some (first s).1, some (first s).2.1, some (first s).2.2) := by
  have h0 : ∀ g : Nat → V × N × N, (updateSides n ⟨[], [], []⟩ g).outward[s]? = some (g s).2.1 ∧
      (updateSides n ⟨[], [], []⟩ g).mid[s]? = some (g s).2.2 ∧
      ∀ d : SideData V N, (updateSides n d g).vol[s]? = some (g s).1 := by
    intro g
    simp [updateSides, hs]
  have hq := query_later (k := 1) n (mids ++ [last]) (updateSides n ⟨[], [], []⟩ first) first s hs
    (by simp [updateSides]) (by simp [updateSides]) (h0 first).1 (h0 first).2.1
  refine ⟨?_, ?_⟩
  · have hv : (updateAll n (⟨[], [], []⟩ : SideData V N) (first :: mids ++ [last])).vol[s]? = some (last s).1 := by
      rw [updateAll, List.foldl_append]
      exact (h0 last).2.2 _
    simp only [SideData.query, hv, Prod.mk.injEq, true_and]
    exact hq
  · simp only [SideData.query, updateAll, List.foldl_cons, List.foldl_nil, (h0 first).1, (h0 first).2.1, (h0 first).2.2]

/-- **C34 is false of the code.** Whenever the normal of some side changed since the mesh was built, the reported normal
is not the current one. -/
theorem stale_normals {V N : Type} (n : Nat) (first last : Nat → V × N × N) (mids : List (Nat → V × N × N)) (s : Nat)
    (hs : s < n) (hmoved : (first s).2.1 ≠ (last s).2.1) :
    ((updateAll n ⟨[], [], []⟩ (first :: mids ++ [last])).query s).2.1 ≠ some (last s).2.1 := by
  rw [(side_data_partial n first last mids s hs).1]
  simpa using hmoved

example : ((updateAll 1 (⟨[], [], []⟩ : SideData Nat Nat) [fun _ => (1, 10, 11), fun _ => (2, 20, 21)]).query 0) =
    (some 2, some 10, some 11) := by decide

end Jali.MeshCache
