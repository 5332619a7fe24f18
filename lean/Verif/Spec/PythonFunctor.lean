import Verif.Model.PythonFunctor
/-
Histories of `PythonFunctor` objects.
-/
namespace Verif.PyFun
open Verif.Grid

/-- The number of objects after a history that starts with `live` of them; `none` if an action concerns an object that does not exist. -/
def liveAfter : Nat → List Action → Option Nat
  | n, [] => some n
  | 0, _ :: _ => none
  | n + 1, .copy :: as => liveAfter (n + 2) as
  | n + 1, .destroy :: as => liveAfter n as
  | n + 1, .evaluate .. :: as => liveAfter (n + 1) as

/-- The points at which a history evaluates, in order. -/
def evaluations : List Action → List (P3 ℝ × P3 ℝ × Int)
  | [] => []
  | .evaluate X n d :: as => (X, n, d) :: evaluations as
  | _ :: as => evaluations as

/-- The values returned by a history, in order. -/
def returned : List Reply → List (Nat → ℂ)
  | [] => []
  | .values v :: rs => v :: returned rs
  | _ :: rs => returned rs

/-- The callable never raises an exception and keeps no references. -/
def NeverRaises (call : Callable) : Prop := ∀ X n d b, ∃ b', call X n d b = .returns ⟨0, 0, 0, 0⟩ b'

/-- The callable computes `f`: it assigns the first `dim` components, whatever the array contains. -/
def Computes (call : Callable) (dim : Nat) (f : P3 ℝ → P3 ℝ → Int → Nat → ℂ) : Prop :=
  ∀ X n d b, ∃ b', call X n d b = .returns ⟨0, 0, 0, 0⟩ b' ∧ ∀ i < dim, b' i = f X n d i

end Verif.PyFun
