import Verif.Model.Logging
/-
What logging should do.
-/
namespace Verif.Logging

/-- The level of the logger after a history: the last one that was set. -/
def levelAfter (calls : List Call) : Nat :=
  match calls.reverse.findSome? (fun c => match c with | .setLevel l => some l | _ => none) with
  | some l => l
  | none => DEBUG

/-- The levels with which a target is written to after a history: for the console that of the first call that enabled it, for a file those of all
calls that enabled it. -/
def levelsAfter (calls : List Call) : Target → List Nat
  | .console => (calls.findSome? fun c => match c with | .enableConsole l => some l | _ => none).toList
  | .file name => calls.filterMap fun c => match c with | .enableFile n l => if n = name then some l else none | _ => none

/-- A message of level `level` after the history `calls` appears `copies` times on the target. -/
def copies (calls : List Call) (t : Target) (level : Nat) : Nat :=
  if levelAfter calls ≤ level then (levelsAfter calls t).countP (· ≤ level) else 0

/-- `out` is what a history writes to a target: for every message as many copies as it should have, in the order of the calls. -/
inductive Writes (t : Target) : List Call → List String → Prop where
  | nil : Writes t [] []
  | log {calls out m l} : Writes t calls out → Writes t (calls ++ [.log m l]) (out ++ List.replicate (copies calls t l) m)
  | other {calls out c} : Writes t calls out → (∀ m l, c ≠ .log m l) → Writes t (calls ++ [c]) out

end Verif.Logging
