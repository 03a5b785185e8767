import Mathlib.Tactic.Tauto
import Verif.Model.MstkCleanup
import Verif.Spec.MstkMesh
import Verif.Props.MstkExtractMisc
/-
C140: what an extraction leaves on its source.
-/
namespace Jali.Mstk

variable {m : MMesh} {α : Type}

/-- no entity of the source has a mark -/
structure Copy.Clean (s : Copy m α) : Prop where
  v : ∀ v, s.cv v = none
  e : ∀ e, s.ce e = none
  f : ∀ f, s.cf f = none
  r : ∀ r, s.cr r = none

/-- marks only on the given entities -/
structure Copy.Only (s : Copy m α) (V : Fin m.nv → Prop) (Ed : Fin m.ne → Prop) (F : Fin m.nf → Prop) (R : Fin m.nr → Prop) : Prop where
  v : ∀ v, s.cv v ≠ none → V v
  e : ∀ e, s.ce e ≠ none → Ed e
  f : ∀ f, s.cf f ≠ none → F f
  r : ∀ r, s.cr r ≠ none → R r

variable {V : Fin m.nv → Prop} {Ed : Fin m.ne → Prop} {F : Fin m.nf → Prop} {R : Fin m.nr → Prop}

theorem update_some_ne {n : Nat} {c : Fin n → Option Nat} {P : Fin n → Prop} (h : ∀ v, c v ≠ none → P v) {i : Fin n} {k : Option Nat}
    (hi : P i) (v : Fin n) (hv : Function.update c i k v ≠ none) : P v := by
  by_cases e : v = i
  · exact e ▸ hi
  · rw [Function.update_of_ne e] at hv; exact h v hv

theorem update_none_ne {n : Nat} {c : Fin n → Option Nat} {P : Fin n → Prop} (h : ∀ v, c v ≠ none → P v) {i : Fin n} (v : Fin n)
    (hv : Function.update c i none v ≠ none) : P v ∧ v ≠ i := by
  by_cases e : v = i
  · rw [e, Function.update_self] at hv; exact absurd rfl hv
  · rw [Function.update_of_ne e] at hv; exact ⟨h v hv, e⟩

theorem mapS_inv {σ β γ : Type} {f : σ → β → σ × γ} {P : σ → Prop} {l : List β} (hf : ∀ s, P s → ∀ a ∈ l, P (f s a).1) {s : σ} (h : P s) :
    P (mapS f s l).1 := by
  induction l generalizing s with
  | nil => exact h
  | cons a l ih =>
    exact ih (fun s hs b hb => hf s hs b (List.mem_cons_of_mem _ hb)) (hf s h a (List.mem_cons_self ..))

theorem foldl_inv {σ β : Type} {f : σ → β → σ} {P : σ → Prop} {l : List β} (hf : ∀ s, P s → ∀ a ∈ l, P (f s a)) {s : σ} (h : P s) :
    P (l.foldl f s) := by
  induction l generalizing s with
  | nil => exact h
  | cons a l ih => exact ih (fun s hs b hb => hf s hs b (List.mem_cons_of_mem _ hb)) (hf s h a (List.mem_cons_self ..))

theorem copyVertex_only [Zero α] {xyz : Fin m.nv → Xyz α} {flatten : Bool} {s : Copy m α} (h : s.Only V Ed F R) {v : Fin m.nv} (hv : V v) :
    (copyVertex xyz flatten s v).1.Only V Ed F R := by
  unfold copyVertex
  split
  · exact h
  · exact ⟨update_some_ne h.v hv, h.e, h.f, h.r⟩

theorem joinVertices_only {s : Copy m α} (h : s.Only V Ed F R) (p : Nat × Nat) : (joinVertices s p).1.Only V Ed F R := by
  unfold joinVertices
  split
  · exact h
  · exact ⟨h.v, h.e, h.f, h.r⟩

theorem copyFace3_only [Zero α] {xyz : Fin m.nv → Xyz α} {s : Copy m α} (h : s.Only V Ed F R) {f : Fin m.nf} (hf : F f)
    (hv : ∀ v ∈ m.mfVertices (m.face f) true, V v) : (copyFace3 xyz s f).1.Only V Ed F R := by
  unfold copyFace3
  split
  · exact h
  · have h1 : (mapS (copyVertex xyz false) s (m.mfVertices (m.face f) true)).1.Only V Ed F R :=
      mapS_inv (P := fun s : Copy m α => s.Only V Ed F R) (fun s hs v hm => copyVertex_only hs (hv v hm)) h
    have h2 := mapS_inv (P := fun s : Copy m α => s.Only V Ed F R) (f := joinVertices)
      (l := nextPairs (mapS (copyVertex xyz false) s (m.mfVertices (m.face f) true)).2) (fun s hs p _ => joinVertices_only hs p) h1
    exact ⟨h2.v, h2.e, update_some_ne h2.f hf, h2.r⟩

theorem copyRegion_only [Zero α] {xyz : Fin m.nv → Xyz α} {s : Copy m α} (h : s.Only V Ed F R) {r : Fin m.nr} (hr : R r)
    (hf : ∀ p ∈ (m.region r).faces, F p.1 ∧ ∀ v ∈ m.mfVertices (m.face p.1) true, V v) : (copyRegion xyz s r).Only V Ed F R := by
  have h1 := mapS_inv (P := fun s : Copy m α => s.Only V Ed F R)
    (f := fun s (p : Fin m.nf × Bool) => ((copyFace3 xyz s p.1).1, ((copyFace3 xyz s p.1).2, p.2))) (l := (m.region r).faces)
    (fun s hs p hp => copyFace3_only hs (hf p hp).1 (hf p hp).2) h
  exact ⟨h1.v, h1.e, h1.f, update_some_ne h1.r hr⟩

theorem copyEdge_only [Zero α] {xyz : Fin m.nv → Xyz α} {flatten : Bool} {s : Copy m α} (h : s.Only V Ed F R) {e : Fin m.ne} (he : Ed e)
    (h0 : V (m.edge e).v0) (h1 : V (m.edge e).v1) : (copyEdge xyz flatten s e).1.Only V Ed F R := by
  unfold copyEdge
  split
  · exact h
  · have h3 := copyVertex_only (xyz := xyz) (flatten := flatten) (copyVertex_only (xyz := xyz) (flatten := flatten) h h0) h1
    exact ⟨h3.v, update_some_ne h3.e he, h3.f, h3.r⟩

theorem copyFace2_only [Zero α] {xyz : Fin m.nv → Xyz α} {flatten : Bool} {s : Copy m α} (h : s.Only V Ed F R) {f : Fin m.nf} (hf : F f)
    (he : ∀ p ∈ (m.face f).edges, Ed p.1 ∧ V (m.edge p.1).v0 ∧ V (m.edge p.1).v1) : (copyFace2 xyz flatten s f).Only V Ed F R := by
  have h1 := mapS_inv (P := fun s : Copy m α => s.Only V Ed F R)
    (f := fun s (p : Fin m.ne × Bool) => ((copyEdge xyz flatten s p.1).1, ((copyEdge xyz flatten s p.1).2, p.2))) (l := (m.face f).edges)
    (fun s hs p hp => copyEdge_only hs (he p hp).1 (he p hp).2.1 (he p hp).2.2) h
  exact ⟨h1.v, h1.e, update_some_ne h1.f hf, h1.r⟩

/-- a loop that removes something with each of its turns and adds nothing has removed it at the end -/
theorem foldl_gone {σ β : Type} {f : σ → β → σ} {P : σ → Prop} {l : List β} {a : β} (ha : a ∈ l) (hf : ∀ s, P (f s a))
    (hk : ∀ s, P s → ∀ b, P (f s b)) (s : σ) : P (l.foldl f s) := by
  induction l generalizing s with
  | nil => cases ha
  | cons b l ih =>
    rw [List.foldl_cons]
    rcases List.mem_cons.mp ha with rfl | h
    · exact foldl_inv (fun s hs b _ => hk s hs b) (hf s)
    · exact ih h _

theorem update_keeps {n : Nat} {c : Fin n → Option Nat} {i j : Fin n} (h : c i = none) : Function.update c j none i = none := by
  by_cases e : i = j
  · rw [e, Function.update_self]
  · rw [Function.update_of_ne e]; exact h

theorem update_kept {n : Nat} {c : Fin n → Option Nat} {i : Fin n} : Function.update c i none i = none := Function.update_self ..

/-! ### Faces -/

section faces

theorem cleanEdges_ce (l : List (Fin m.ne × Bool)) (s : Copy m α) (i : Fin m.ne) (h : s.ce i = none ∨ i ∈ l.map Prod.fst) :
    (l.foldl (fun (s : Copy m α) p => (s.remE p.1).remV (if p.2 then (m.edge p.1).v1 else (m.edge p.1).v0)) s).ce i = none := by
  rcases h with h | h
  · exact foldl_inv (P := fun s : Copy m α => s.ce i = none) (fun s hs _ _ => update_keeps hs) h
  · obtain ⟨p, hp, rfl⟩ := List.mem_map.mp h
    exact foldl_gone (P := fun s : Copy m α => s.ce p.1 = none) hp (fun s => update_kept) (fun s hs _ => update_keeps hs) s

theorem cleanEdges_cv (l : List (Fin m.ne × Bool)) (s : Copy m α) (i : Fin m.nv) (h : s.cv i = none ∨ i ∈ l.map m.finish) :
    (l.foldl (fun (s : Copy m α) p => (s.remE p.1).remV (if p.2 then (m.edge p.1).v1 else (m.edge p.1).v0)) s).cv i = none := by
  rcases h with h | h
  · exact foldl_inv (P := fun s : Copy m α => s.cv i = none) (fun s hs _ _ => update_keeps hs) h
  · obtain ⟨p, hp, rfl⟩ := List.mem_map.mp h
    exact foldl_gone (P := fun s : Copy m α => s.cv (m.finish p) = none) hp (fun s => update_kept) (fun s hs _ => update_keeps hs) s

theorem cleanEdges_cf (l : List (Fin m.ne × Bool)) (s : Copy m α) :
    (l.foldl (fun (s : Copy m α) p => (s.remE p.1).remV (if p.2 then (m.edge p.1).v1 else (m.edge p.1).v0)) s).cf = s.cf ∧
    (l.foldl (fun (s : Copy m α) p => (s.remE p.1).remV (if p.2 then (m.edge p.1).v1 else (m.edge p.1).v0)) s).cr = s.cr := by
  induction l generalizing s with
  | nil => exact ⟨rfl, rfl⟩
  | cons p l ih => exact ih _

/-- **C140** an extraction of faces, or of cells of a plane mesh, leaves no mark on its source -/
theorem faces_leave_no_mark [Zero α] (src : Source α) (hp : src.j.m.Polygons) (flatten : Bool) (l : List (Fin src.j.m.nf)) :
    (marksAfterFaces src flatten l).Clean := by
  have only : (l.foldl (copyFace2 src.xyz flatten) {}).Only (fun v => ∃ f ∈ l, v ∈ (src.j.m.face f).edges.map src.j.m.finish)
      (fun e => ∃ f ∈ l, e ∈ (src.j.m.face f).edges.map Prod.fst) (fun f => f ∈ l) (fun _ => False) := by
    refine foldl_inv (P := fun s => Copy.Only s _ _ _ _) ?_
      ⟨fun v h => absurd rfl h, fun v h => absurd rfl h, fun v h => absurd rfl h, fun v h => absurd rfl h⟩
    intro s hs f hf
    refine copyFace2_only hs hf fun p hpe => ⟨⟨f, hf, List.mem_map_of_mem hpe⟩, ?_⟩
    have key : src.j.m.start p ∈ (src.j.m.face f).edges.map src.j.m.finish ∧ src.j.m.finish p ∈ (src.j.m.face f).edges.map src.j.m.finish := by
      refine ⟨?_, List.mem_map_of_mem hpe⟩
      rw [hp.closed f, List.mem_rotate]
      exact List.mem_map_of_mem hpe
    unfold MMesh.start MMesh.finish at key
    cases hb : p.2 <;> simp only [hb, Bool.false_eq_true, if_false, if_true] at key
    · exact ⟨⟨f, hf, key.2⟩, ⟨f, hf, key.1⟩⟩
    · exact ⟨⟨f, hf, key.1⟩, ⟨f, hf, key.2⟩⟩
  unfold marksAfterFaces
  generalize l.foldl (copyFace2 src.xyz flatten) {} = s at only
  refine ⟨fun v => ?_, fun e => ?_, fun f => ?_, fun r => ?_⟩
  · have keep : ∀ s : Copy src.j.m α, s.cv v = none → ∀ f, (cleanFace s f).cv v = none := fun s hs f => cleanEdges_cv _ s v (.inl hs)
    by_cases h : s.cv v = none
    · exact foldl_inv (P := fun s : Copy src.j.m α => s.cv v = none) (fun s hs f _ => keep s hs f) h
    · obtain ⟨f, hf, hv⟩ := only.v v h
      exact foldl_gone (P := fun s : Copy src.j.m α => s.cv v = none) hf (fun s => cleanEdges_cv _ s v (.inr hv)) keep s
  · have keep : ∀ s : Copy src.j.m α, s.ce e = none → ∀ f, (cleanFace s f).ce e = none := fun s hs f => cleanEdges_ce _ s e (.inl hs)
    by_cases h : s.ce e = none
    · exact foldl_inv (P := fun s : Copy src.j.m α => s.ce e = none) (fun s hs f _ => keep s hs f) h
    · obtain ⟨f, hf, hv⟩ := only.e e h
      exact foldl_gone (P := fun s : Copy src.j.m α => s.ce e = none) hf (fun s => cleanEdges_ce _ s e (.inr hv)) keep s
  · have keep : ∀ s : Copy src.j.m α, s.cf f = none → ∀ g, (cleanFace s g).cf f = none := by
      intro s hs g
      refine update_keeps ?_
      rw [(cleanEdges_cf _ s).1]; exact hs
    by_cases h : s.cf f = none
    · exact foldl_inv (P := fun s : Copy src.j.m α => s.cf f = none) (fun s hs f _ => keep s hs f) h
    · exact foldl_gone (P := fun s : Copy src.j.m α => s.cf f = none) (only.f f h) (fun s => update_kept) keep s
  · have h : s.cr r = none := by_contra fun h => only.r r h
    refine foldl_inv (P := fun s : Copy src.j.m α => s.cr r = none) (fun s hs f _ => ?_) h
    show (Copy.remF _ f).cr r = none
    unfold Copy.remF
    dsimp only
    rw [(cleanEdges_cf _ s).2]; exact hs

end faces

/-! ### Regions -/

theorem remVs_cv (l : List (Fin m.nv)) (s : Copy m α) (i : Fin m.nv) (h : s.cv i = none ∨ i ∈ l) : (l.foldl Copy.remV s).cv i = none := by
  rcases h with h | h
  · exact foldl_inv (P := fun s : Copy m α => s.cv i = none) (fun s hs _ _ => update_keeps hs) h
  · exact foldl_gone (P := fun s : Copy m α => s.cv i = none) h (fun s => update_kept) (fun s hs _ => update_keeps hs) s

theorem remVs_rest (l : List (Fin m.nv)) (s : Copy m α) :
    (l.foldl Copy.remV s).ce = s.ce ∧ (l.foldl Copy.remV s).cf = s.cf ∧ (l.foldl Copy.remV s).cr = s.cr := by
  induction l generalizing s with
  | nil => exact ⟨rfl, rfl, rfl⟩
  | cons p l ih => exact ih _

/-- one face of `cleanRegion` -/
def cleanRegionFace (s : Copy m α) (f : Fin m.nf) : Copy m α := ((m.mfVertices (m.face f) true).foldl Copy.remV (s.remF f)).remF f

theorem cleanRegion_eq (s : Copy m α) (r : Fin m.nr) :
    cleanRegion s r = (((m.region r).faces.map Prod.fst).foldl cleanRegionFace s).remR r := rfl

theorem cleanRegionFace_cv (s : Copy m α) (f : Fin m.nf) (i : Fin m.nv) (h : s.cv i = none ∨ i ∈ m.mfVertices (m.face f) true) :
    (cleanRegionFace s f).cv i = none := remVs_cv _ _ i h

theorem cleanRegionFace_cf (s : Copy m α) (f i : Fin m.nf) (h : s.cf i = none ∨ i = f) : (cleanRegionFace s f).cf i = none := by
  show Function.update (List.foldl Copy.remV (s.remF f) _).cf f none i = none
  rcases h with h | rfl
  · refine update_keeps ?_
    rw [(remVs_rest _ _).2.1]
    exact update_keeps h
  · exact update_kept

theorem cleanRegionFace_rest (s : Copy m α) (f : Fin m.nf) : (cleanRegionFace s f).ce = s.ce ∧ (cleanRegionFace s f).cr = s.cr := by
  have := remVs_rest (m.mfVertices (m.face f) true) (s.remF f)
  exact ⟨this.1, this.2.2⟩

/-- **C140** an extraction of cells of a mesh of polyhedra leaves no mark on its source -/
theorem regions_leave_no_mark [Zero α] (src : Source α) (l : List (Fin src.j.m.nr)) : (marksAfterRegions src l).Clean := by
  have only : (l.foldl (copyRegion src.xyz) {}).Only
      (fun v => ∃ r ∈ l, ∃ f ∈ (src.j.m.region r).faces.map Prod.fst, v ∈ src.j.m.mfVertices (src.j.m.face f) true)
      (fun _ => False) (fun f => ∃ r ∈ l, f ∈ (src.j.m.region r).faces.map Prod.fst) (fun r => r ∈ l) := by
    refine foldl_inv (P := fun s => Copy.Only s _ _ _ _) ?_
      ⟨fun v h => absurd rfl h, fun v h => absurd rfl h, fun v h => absurd rfl h, fun v h => absurd rfl h⟩
    intro s hs r hr
    exact copyRegion_only hs hr fun p hp =>
      ⟨⟨r, hr, List.mem_map_of_mem hp⟩, fun v hv => ⟨r, hr, p.1, List.mem_map_of_mem hp, hv⟩⟩
  unfold marksAfterRegions
  generalize l.foldl (copyRegion src.xyz) {} = s at only
  refine ⟨fun v => ?_, fun e => ?_, fun f => ?_, fun r => ?_⟩
  · have keep : ∀ s : Copy src.j.m α, s.cv v = none → ∀ r, (cleanRegion s r).cv v = none := fun s hs r =>
      foldl_inv (P := fun s : Copy src.j.m α => s.cv v = none) (fun s hs f _ => cleanRegionFace_cv s f v (.inl hs)) hs
    by_cases h : s.cv v = none
    · exact foldl_inv (P := fun s : Copy src.j.m α => s.cv v = none) (fun s hs f _ => keep s hs f) h
    · obtain ⟨r, hr, f, hf, hv⟩ := only.v v h
      exact foldl_gone (P := fun s : Copy src.j.m α => s.cv v = none) hr (fun s =>
        foldl_gone (P := fun s : Copy src.j.m α => s.cv v = none) hf (fun s => cleanRegionFace_cv s f v (.inr hv))
          (fun s hs f => cleanRegionFace_cv s f v (.inl hs)) s) keep s
  · have h : s.ce e = none := by_contra fun h => only.e e h
    refine foldl_inv (P := fun s : Copy src.j.m α => s.ce e = none) (fun s hs r _ => ?_) h
    exact foldl_inv (P := fun s : Copy src.j.m α => s.ce e = none) (fun s hs f _ => (congrFun (cleanRegionFace_rest s f).1 e).trans hs) hs
  · have keep : ∀ s : Copy src.j.m α, s.cf f = none → ∀ r, (cleanRegion s r).cf f = none := fun s hs r =>
      foldl_inv (P := fun s : Copy src.j.m α => s.cf f = none) (fun s hs g _ => cleanRegionFace_cf s g f (.inl hs)) hs
    by_cases h : s.cf f = none
    · exact foldl_inv (P := fun s : Copy src.j.m α => s.cf f = none) (fun s hs f _ => keep s hs f) h
    · obtain ⟨r, hr, hf⟩ := only.f f h
      exact foldl_gone (P := fun s : Copy src.j.m α => s.cf f = none) hr (fun s =>
        foldl_gone (P := fun s : Copy src.j.m α => s.cf f = none) hf (fun s => cleanRegionFace_cf s f f (.inr rfl))
          (fun s hs g => cleanRegionFace_cf s g f (.inl hs)) s) keep s
  · have keep : ∀ s : Copy src.j.m α, s.cr r = none → ∀ r', (cleanRegion s r').cr r = none := by
      intro s hs r'
      refine update_keeps ?_
      exact foldl_inv (P := fun s : Copy src.j.m α => s.cr r = none) (fun s hs f _ => (congrFun (cleanRegionFace_rest s f).2 r).trans hs) hs
    by_cases h : s.cr r = none
    · exact foldl_inv (P := fun s : Copy src.j.m α => s.cr r = none) (fun s hs f _ => keep s hs f) h
    · exact foldl_gone (P := fun s : Copy src.j.m α => s.cr r = none) (only.r r h) (fun s => update_kept) keep s

/-- an extraction does mark its source -/
example : ((([0] : List (Fin twoTris.j.m.nf)).foldl (copyFace2 twoTris.xyz false) {}).cf 0) = some 0 := by decide +kernel
/-- the mesh of two triangles is a mesh of polygons -/
example : twoTris.j.m.Polygons := ⟨by decide +kernel, by decide +kernel, by decide +kernel, by decide +kernel⟩

end Jali.Mstk
