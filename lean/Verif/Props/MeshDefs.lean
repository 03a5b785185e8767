import Verif.Spec.MeshDefs
/-! Property theorems C58: names of the enumerators. The domains are finite tables, covered completely. -/
namespace Jali.Defs

/-- C58 for kinds, cell types and partitioners: every value prints its own name (no read past a table). -/
theorem kind_celltype_partitioner_names :
    (∀ k : EntityKind, entityKindString k = some k.ownName) ∧
    (∀ t : CellType, cellTypeString t = some t.ownName) ∧
    (∀ p : PartitionerType, partitionerTypeString p = some p.ownName) := by
  refine ⟨fun k => ?_, fun t => ?_, fun p => ?_⟩
  · cases k <;> decide +kernel
  · cases t <;> decide +kernel
  · cases p <;> decide +kernel

example : entityKindString .CORNER = some "Entity_kind::CORNER" := kind_celltype_partitioner_names.1 _

/-- C58 fails for `Entity_type_string`: *no* entity type prints its own name. -/
theorem entity_type_names_wrong : ∀ t : EntityType, entityTypeString t ≠ some t.ownName := by
  intro t; cases t <;> decide +kernel

example : entityTypeString .PARALLEL_GHOST = some "Entity_type::PARALLEL_OWNED" := by decide +kernel

/-- What holds of `Entity_type_string`: the table is never overrun and different types print differently
(full claim: the printed name is the value's own name, refuted above). -/
theorem entity_type_names_partial :
    (∀ t, (entityTypeString t).isSome) ∧
    (∀ t u, entityTypeString t = entityTypeString u → t = u) := by
  refine ⟨fun t => ?_, fun t u => ?_⟩
  · cases t <;> decide +kernel
  · cases t <;> cases u <;> decide +kernel

example : entityTypeString .ALL ≠ entityTypeString .DELETED :=
  fun h => by have := entity_type_names_partial.2 _ _ h; contradiction

/-- **C166** `entity_valid_kind` accepts only kinds that name mesh entities, and `cell_valid_type`, `valid_entity_type` accept
exactly the values that are not the "unknown" one -/
theorem valid_checks :
    (∀ t : CellType, cellValidType t = true ↔ t ≠ .CELLTYPE_UNKNOWN) ∧
    (∀ t : EntityType, validEntityType t = true ↔ t ≠ .TYPE_UNKNOWN) ∧
    (∀ k : EntityKind, entityValidKind k = true → k ≠ .ALL_KIND ∧ k ≠ .ANY_KIND ∧ k ≠ .UNKNOWN_KIND) := by
  refine ⟨fun t => ?_, fun t => ?_, fun k => ?_⟩
  · cases t <;> decide +kernel
  · cases t <;> decide +kernel
  · cases k <;> decide +kernel

example : cellValidType .POLYHED = true := (valid_checks.1 .POLYHED).mpr (by decide)
example : validEntityType .ALL = true := (valid_checks.2.1 .ALL).mpr (by decide)

/-- C166 fails for `entity_valid_kind`: of the nine kinds of entities that can be asked for (those with a name) it rejects five -/
theorem valid_kind_rejects (k : EntityKind) :
    (k.ownName ≠ "" ∧ entityValidKind k = false) ↔
      k = .SIDE ∨ k = .WEDGE ∨ k = .CORNER ∨ k = .FACET ∨ k = .BOUNDARY_FACE := by
  cases k <;> decide +kernel

example : entityValidKind .WEDGE = false := ((valid_kind_rejects .WEDGE).mpr (by decide)).2

end Jali.Defs
