/-
Loops and flat arrays shared by the models of src/mesh/mesh_simple/Mesh_simple.cc.

A `std::vector` indexed by raw offsets is a function `Nat → α`; an assignment `v[a] = x` is one write.
The sequence of assignments a loop nest performs on one array is a list of writes, executed in
order.  Whether all writes stay inside the storage is a separate theorem, so nothing is totalised away.
-/
namespace Jali

/-- `for (iz..) for (iy..) for (ix..) body` (e.g. Mesh_simple.cc:399-401), collecting what the body emits. -/
def loop3 {α : Type} (mx my mz : Nat) (body : Nat → Nat → Nat → List α) : List α :=
  (List.range mz).flatMap fun iz =>
  (List.range my).flatMap fun iy =>
  (List.range mx).flatMap fun ix => body ix iy iz

/-- Assignment `v[a] = x`. -/
def put {α : Type} (v : Nat → α) (a : Nat) (x : α) : Nat → α := fun b => if b = a then x else v b

/-- Executes assignments in order. -/
def runWrites {α : Type} (v : Nat → α) : List (Nat × α) → (Nat → α)
  | [] => v
  | (a, x) :: ws => runWrites (put v a x) ws

/-- The idiom (e.g. Mesh_simple.cc:415-418)
```
jstart = stride * key;  n = v[jstart];  v[jstart+1+n] = val;  v[jstart]++;
```
-/
def slotAppend (stride : Nat) (v : Nat → Nat) (key val : Nat) : Nat → Nat :=
  let jstart := stride * key
  let n := v jstart
  let v1 := put v (jstart + 1 + n) val
  put v1 jstart (v1 jstart + 1)

/-- Executes such appends in order. -/
def runAppends (stride : Nat) (v : Nat → Nat) : List (Nat × Nat) → (Nat → Nat)
  | [] => v
  | (k, x) :: ops => runAppends stride (slotAppend stride v k x) ops

/-- Reads the counted slot of `key` (Mesh_simple.cc:789-799, 803-813). -/
def slotRead (stride : Nat) (v : Nat → Nat) (key : Nat) : List Nat :=
  (List.range (v (stride * key))).map fun i => v (stride * key + i + 1)

end Jali
