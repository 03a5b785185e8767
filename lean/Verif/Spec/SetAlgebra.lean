import Verif.Model.MeshSet
/-!
Specification for C182: expressions of set operations, the program that evaluates one with calls to `merge`, `intersect`, `subtract` and
`complement`, and what the expression means.
-/
namespace Jali.MSet

/-- an expression over the sets at the addresses of the leaves -/
inductive Expr
  | leaf (a : Nat)
  | union (e f : Expr)
  | inter (e f : Expr)
  | diff (e f : Expr)
  | compl (e : Expr)

namespace Expr

/-- what the expression means for an entity, `at' a` telling whether the set at address `a` has it -/
def Holds (at' : Nat → Prop) : Expr → Prop
  | leaf a => at' a
  | union e f => e.Holds at' ∨ f.Holds at'
  | inter e f => e.Holds at' ∧ f.Holds at'
  | diff e f => e.Holds at' ∧ ¬ f.Holds at'
  | compl e => ¬ e.Holds at'

/-- no complement is taken -/
def Plain : Expr → Prop
  | leaf _ => True
  | union e f | inter e f | diff e f => e.Plain ∧ f.Plain
  | compl _ => False

/-- the addresses of the leaves are those of sets in memory -/
def Within (n : Nat) : Expr → Prop
  | leaf a => a < n
  | union e f | inter e f | diff e f => e.Within n ∧ f.Within n
  | compl e => e.Within n

/-- the leftmost leaf -/
def first : Expr → Nat
  | leaf a => a
  | union e _ | inter e _ | diff e _ | compl e => e.first

end Expr

/-- take in what an operation returned: a pointer that was there, or a new object in memory -/
def keep (h : List Obj) : Except Err Out → Except Err (Nat × List Obj)
  | .error x => .error x
  | .ok (.same p) => .ok (p.addr, h)
  | .ok (.fresh s) => .ok (h.length, h ++ [s])

/-- two arguments in memory -/
def on2 (h : List Obj) (a b : Nat) (f : Ptr → Ptr → Except Err Out) : Except Err (Nat × List Obj) :=
  match h[a]?, h[b]? with
  | some s, some t => keep h (f ⟨a, s⟩ ⟨b, t⟩)
  | _, _ => .error .undefinedBehaviour

/-- the program that evaluates an expression, inner expressions first; the sets are in memory `h`, the address of the result is returned -/
def evalExpr (m : MeshView) : Expr → List Obj → Except Err (Nat × List Obj)
  | .leaf a, h => .ok (a, h)
  | .union e f, h => do
    let (a, h1) ← evalExpr m e h
    let (b, h2) ← evalExpr m f h1
    on2 h2 a b fun p q => merge m [p, q]
  | .inter e f, h => do
    let (a, h1) ← evalExpr m e h
    let (b, h2) ← evalExpr m f h1
    on2 h2 a b fun p q => intersect m [p, q]
  | .diff e f, h => do
    let (a, h1) ← evalExpr m e h
    let (b, h2) ← evalExpr m f h1
    on2 h2 a b fun p q => subtract m p [q]
  | .compl e, h => do
    let (a, h1) ← evalExpr m e h
    on2 h1 a a fun p _ => complement m [p]

/-- two expressions that mean the same by the laws of sets -/
def Expr.Equiv (e f : Expr) : Prop := ∀ at' : Nat → Prop, e.Holds at' ↔ f.Holds at'

end Jali.MSet
