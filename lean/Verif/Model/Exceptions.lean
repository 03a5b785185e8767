import Mathlib.Data.Nat.Digits.Defs
/-
src/error_handling/exceptions.hh, exceptions.cc: how errors are raised; errors.hh, errors.cc: texts of messages.
-/
namespace Jali.Err

/-- `Exception_action` (exceptions.hh:61-65) -/
inductive Action
  | RAISE | ABORT
deriving DecidableEq, Repr

/-- A translation unit of the program: `exceptions.cc`, or another one. -/
inductive Unit'
  | exceptionsCc
  | other (k : Nat)
deriving DecidableEq, Repr

/-- `behavior` is declared in an unnamed namespace of a header (exceptions.hh:77-79): every translation unit that includes the
header has a variable of its own, initialised to RAISE. -/
abbrev Vars := Unit' → Action

/-- the variables at program start (exceptions.hh:78) -/
def initial : Vars := fun _ => .RAISE

/-- `set_exception_behavior` (exceptions.cc:57): a function of `exceptions.cc`, so the variable of this unit is assigned -/
def setBehavior (v : Vars) (a : Action) : Vars := fun u => if u = .exceptionsCc then a else v u
/-- `set_exception_behavior_raise` (exceptions.cc:55) -/
def setRaise (v : Vars) : Vars := setBehavior v .RAISE
/-- `set_exception_behavior_abort` (exceptions.cc:56) -/
def setAbort (v : Vars) : Vars := setBehavior v .ABORT
/-- `exception_behavior` (exceptions.cc:59-62) -/
def exceptionBehavior (v : Vars) : Action := v .exceptionsCc

/-- How a call of `Jali_throw` ends. -/
inductive Ending
  | throws | aborts
deriving DecidableEq, Repr

/-- `Jali_throw` (exceptions.hh:85-92), as compiled in translation unit `u`: it reads the variable of `u`. -/
def jaliThrow (v : Vars) (u : Unit') : Ending := if v u = .RAISE then .throws else .aborts

/-- Calls a program makes. A raise names its place in the source by a number. -/
inductive Call
  | set (a : Action) | setRaise | setAbort | query | raise (place : Nat)
deriving DecidableEq, Repr

/-- What the program observes. -/
inductive Obs
  | nothing | behavior (a : Action) | ended (e : Ending)
deriving DecidableEq, Repr

/-- One call. `unitOf` gives the translation unit whose instance of the template a place executes: the linker may choose the
instance of another unit, so it is arbitrary. -/
def step (unitOf : Nat → Unit') (v : Vars) : Call → Vars × Obs
  | .set a => (setBehavior v a, .nothing)
  | .setRaise => (setRaise v, .nothing)
  | .setAbort => (setAbort v, .nothing)
  | .query => (v, .behavior (exceptionBehavior v))
  | .raise k => (v, .ended (jaliThrow v (unitOf k)))

/-- A program: calls in order; exceptions are caught and the program goes on, `abort` ends it. -/
def run (unitOf : Nat → Unit') (v : Vars) : List Call → List Obs
  | [] => []
  | c :: cs =>
    let (v', o) := step unitOf v c
    if o = .ended .aborts then [o] else o :: run unitOf v' cs

/-! ### Messages -/

/-- `%d`: sign and decimal digits (the C library's `snprintf`) -/
def intText (n : Int) : List Char :=
  let ds := if n.natAbs = 0 then ['0'] else (Nat.digits 10 n.natAbs).reverse.map Nat.digitChar
  if n < 0 then '-' :: ds else ds

/-- the text of a null-terminated array (`const char*`), and `c_str()` as the caller reads it -/
def cString (s : List Char) : List Char := s.takeWhile (· ≠ '\x00')

/-- `snprintf(number, 23, ...)` (errors.cc:65, 72): at most 22 characters and the terminator are written -/
def snprintf23 (s : List Char) : List Char := s.take 22

/-- What is streamed into a message (errors.hh:71-74); `real` carries the text that `%g` gives for a double (C library) -/
inductive Piece
  | cstr (s : List Char)
  | str (s : List Char)
  | int (n : Int)
  | real (g : List Char)

/-- `operator<<` (errors.cc:59-75) with `add_data` (errors.hh:64-65) -/
def stream (message : List Char) : Piece → List Char
  | .cstr s => message ++ cString s
  | .str s => message ++ s
  | .int n => message ++ cString (snprintf23 (intText n))
  | .real g => message ++ cString (snprintf23 g)

/-- the constructors (errors.hh:57-59) -/
def newMessage : Option Piece → List Char
  | some (.cstr s) => cString s
  | some (.str s) => s
  | _ => []

/-- `what()` (errors.hh:62) as read by the caller -/
def what (message : List Char) : List Char := cString message

end Jali.Err
