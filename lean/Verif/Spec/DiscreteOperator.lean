import Verif.Model.DiscreteOperator
import Mathlib.LinearAlgebra.Pi
/-
Specification of discrete operators.
-/
namespace Verif.DiscreteOp
open Verif.HMat
variable {K : Type}

/-- Entry `(i,j)` of `op(M)`: `M`, its conjugate, its transpose or its conjugate transpose. -/
def modeEntry [Star K] (t : TranspositionMode) (M : Nat → Nat → K) (i j : Nat) : K :=
  match t with
  | .NO_TRANSPOSE => M i j
  | .CONJUGATE => star (M i j)
  | .TRANSPOSE => M j i
  | .CONJUGATE_TRANSPOSE => star (M j i)

/-- Rows of `op(M)` for an `m × n` matrix. -/
def modeRows (t : TranspositionMode) (m n : Nat) : Nat :=
  match t with
  | .NO_TRANSPOSE => m
  | .CONJUGATE => m
  | .TRANSPOSE => n
  | .CONJUGATE_TRANSPOSE => n

/-- Columns of `op(M)` for an `m × n` matrix. -/
def modeCols (t : TranspositionMode) (m n : Nat) : Nat := modeRows t n m

/-- The operator acts as the `rowCount × columnCount` matrix `M`: for each transposition mode, vectors of
matching lengths and scalars, where the target vector may contain undefined values if `beta = 0`,
applying it does not fail and replaces `y` by `beta * y + alpha * op(M) * x`. -/
def Implements [CommRing K] [StarRing K] (op : DOp K) (M : Nat → Nat → K) : Prop :=
  ∀ (t : TranspositionMode) (x : Vec K) (y : Vec (Option K)) (alpha beta : K),
    x.len = modeCols t op.rowCount op.columnCount → y.len = modeRows t op.rowCount op.columnCount →
    (beta ≠ 0 → ∀ i < y.len, (y.e i).isSome = true) →
    (∃ out, op.run t x y alpha beta out) ∧
    ∀ out, op.run t x y alpha beta out → ∃ y' : Vec (Option K), out = some y' ∧ y'.len = y.len ∧
      ∀ i < y.len, y'.e i = some (beta * (y.e i).getD 0 +
        alpha * ∑ k ∈ Finset.range x.len, modeEntry t M i k * x.e k)

/-- The `j`-th unit vector of length `n`. -/
def unitVec [Zero K] [One K] (n j : Nat) : Vec K := ⟨n, fun i => if i = j then 1 else 0⟩

end Verif.DiscreteOp
