import Verif.Model.Factory
/-! Specification vocabulary for the mesh factory, independent of its implementation. -/
namespace Jali.Factory

/-- What a call says about whether kind `k` is wanted: `some true` if it asks to include it (by name or by ALL_KIND),
`some false` if it asks to exclude it or to go back to the defaults, `none` if it says nothing. -/
def asks (k : EntityKind) : Op → Option Bool
  | .includeKind e => if e = k ∨ e = .ALL_KIND then some true else none
  | .includeList l => if k ∈ l ∨ EntityKind.ALL_KIND ∈ l then some true else none
  | .excludeList l => if k ∈ l then some false else none
  | .reset => some false
  | _ => none

/-- The last call of the history that says something about kind `k` asks to include it. -/
def LastIncludes (k : EntityKind) (h : List Op) : Prop :=
  ∃ h₁ op h₂, h = h₁ ++ op :: h₂ ∧ asks k op = some true ∧ ∀ op' ∈ h₂, asks k op' = none

/-- Number of cells or extents that no mesh can have. -/
def Call.Invalid : Call → Prop
  | .box3 b => b.nx ≤ 0 ∨ b.ny ≤ 0 ∨ b.nz ≤ 0 ∨ b.x1 ≤ b.x0 ∨ b.y1 ≤ b.y0 ∨ b.z1 ≤ b.z0
  | .box2 b => b.nx ≤ 0 ∨ b.ny ≤ 0 ∨ b.x1 ≤ b.x0 ∨ b.y1 ≤ b.y0
  | .points x => x.length < 2 ∨ x.getLast?.getD 0 ≤ x.head?.getD 0
  | .line x0 x1 nx => nx ≤ 0 ∨ x1 ≤ x0
  | _ => False

/-- The dimension the mesh will have, where it is known from the call. -/
def Call.dim : Call → Option Nat
  | .box3 _ => some 3
  | .box2 _ => some 2
  | .points _ => some 1
  | .line .. => some 1
  | _ => none

/-- The geometric model of the options, if there is one, has the dimension of the mesh to be generated. -/
def ModelFits (o : Options) (c : Call) : Prop :=
  ∀ g, o.geometricModel = some g → ∀ d, c.dim = some d → g.dim = d

/-- The library was built with the chosen framework. -/
def Options.Compiled (o : Options) (mstk : Bool) : Prop := o.framework = .Simple ∨ (o.framework = .MSTK ∧ mstk = true)

/-- All ranks end with an error. -/
def AllError (l : List Final) : Prop := ∀ f ∈ l, f = .done .error

/-- All ranks end with a mesh. -/
def AllMesh (l : List Final) : Prop := ∀ f ∈ l, ∃ m, f = .done (.mesh m)

end Jali.Factory
