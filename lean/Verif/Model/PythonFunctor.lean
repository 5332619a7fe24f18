import Verif.Model.GridFactory
import Mathlib.Analysis.Complex.Basic
/-
Model of `PythonFunctor` (cython/bempp/core/assembly/function_projector.hpp:36-130): the reference counts of the objects it holds
and the array through which the callable returns its values.  A count of 0 means that the object has been freed: changing the count of
a freed object is undefined behaviour, the outcome `none`.  Not modelled: a callable that releases references it does not own.
-/
namespace Verif.PyFun
open Verif.Grid

/-- Reference counts of `m_x`, `m_normal`, `m_result` and `m_callable`. -/
structure Refs where
  x : Nat
  normal : Nat
  result : Nat
  callable : Nat
deriving DecidableEq

/-- `Py_INCREF`. -/
def incref (n : Nat) : Option Nat := if n = 0 then none else some (n + 1)

/-- `Py_DECREF`. -/
def decref (n : Nat) : Option Nat := if n = 0 then none else some (n - 1)

/-- The same operation on the four objects. -/
def onAll (op : Nat → Option Nat) (r : Refs) : Option Refs :=
  (op r.x).bind fun x => (op r.normal).bind fun normal => (op r.result).bind fun result => (op r.callable).bind fun callable =>
    some ⟨x, normal, result, callable⟩

/-- The counts, the number of `PythonFunctor` objects that share them, and the content of the array `m_result`. -/
structure State where
  refs : Refs
  live : Nat
  buffer : Nat → ℂ

/-- What a call of the Python callable does: it raises an exception, or it leaves some content in the array and keeps some references. -/
inductive Answer where
  | raises
  | returns (kept : Refs) (buffer : Nat → ℂ)

/-- The callable: it gets the point, the normal, the domain index and the array with its current content. -/
abbrev Callable := P3 ℝ → P3 ℝ → Int → (Nat → ℂ) → Answer

/-- The constructor (lines 43-60), for a callable with `owned` references of the caller: `PyArray_ZEROS` returns new references. -/
def construct (owned : Nat) : Option State :=
  (incref owned).map fun callable => ⟨⟨1, 1, 1, callable⟩, 1, fun _ => 0⟩

/-- What happens to the functors. -/
inductive Action where
  /-- copy constructor (lines 62-73) -/
  | copy
  /-- destructor (lines 75-82) -/
  | destroy
  /-- `evaluate` of any of them (lines 93-120) -/
  | evaluate (point normal : P3 ℝ) (domainIndex : Int)

/-- What an action returns: nothing, the values, or an exception. -/
inductive Reply where
  | done
  | values (v : Nat → ℂ)
  | throws

/-- One action.  In `evaluate`, the tuple of arguments holds references to the arrays until it is released, in both branches (lines
105-108 and 116), which changes nothing in the end. -/
def step (call : Callable) (s : State) : Action → Option (State × Reply)
  | .copy => if s.live = 0 then none else (onAll incref s.refs).map fun r => ({ s with refs := r, live := s.live + 1 }, .done)
  | .destroy => if s.live = 0 then none else (onAll decref s.refs).map fun r => ({ s with refs := r, live := s.live - 1 }, .done)
  | .evaluate X n d =>
    if s.live = 0 then none
    else match call X n d s.buffer with
      | .raises => (onAll decref s.refs).map fun r => ({ s with refs := r }, .throws)
      | .returns kept b =>
        some (⟨⟨s.refs.x + kept.x, s.refs.normal + kept.normal, s.refs.result + kept.result, s.refs.callable + kept.callable⟩, s.live, b⟩,
          .values b)

/-- A history. -/
def run (call : Callable) : State → List Action → Option (State × List Reply)
  | s, [] => some (s, [])
  | s, a :: as => (step call s a).bind fun p => (run call p.1 as).map fun q => (q.1, p.2 :: q.2)

end Verif.PyFun
