import Verif.Model.NumpyEigen
/-
What the conversions between NumPy and Eigen should do.
-/
namespace Verif.NpEigen
open Verif.HMat

/-- The array can be handed over: two dimensions, entries, few enough for `int`; and either it may be written to, or its type or its
layout is another one, so that it is copied. -/
def Accepted (target : DType) (x : NdArray) (dims : Nat) : Prop :=
  x.shape.length = dims ∧ (∀ n ∈ x.shape, 0 < n) ∧
    (x.writeable = true ∨ x.dtype ≠ target ∨ x.fortran = false ∨ x.aligned = false)

/-- Few enough entries. -/
def Small (m n : Nat) : Prop := m < 2 ^ 31 ∧ n < 2 ^ 31 ∧ m * n ≤ 2 ^ 31

/-- The matrix has the entries of the array. -/
def SameMatrix (target : DType) (x : NdArray) (y : Mx ℂ) : Prop :=
  x.shape = [y.rows, y.cols] ∧ ∀ i j, i < y.rows → j < y.cols → y.e i j = cast target (x.entry [i, j])

/-- The vector has the entries of the array. -/
def SameVector (target : DType) (x : NdArray) (y : EVec) : Prop :=
  x.shape = [y.len] ∧ ∀ i, i < y.len → y.e i = cast target (x.entry [i])

/-- The values fit the type: those of a `float64` array are real. -/
def Typed (x : NdArray) : Prop := x.dtype = .float64 → ∀ p, (x.mem p).im = 0

end Verif.NpEigen
