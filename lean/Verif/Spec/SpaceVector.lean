import Mathlib.Data.Real.Basic
/-
The function described by coefficients of a space with weights.
-/
namespace Verif.Space

/-- Value on an element of the function with coefficients `c`: the sum over the local dofs of coefficient of the global dof
times weight times shape function (unused local dofs, with global dof -1, do not contribute). -/
noncomputable def expandW (gdofs : List Int) (w : List ℝ) (c : Nat → ℝ) (shape : Nat → ℝ) : ℝ :=
  ((gdofs.zip w).zipIdx.map fun q => if 0 ≤ q.1.1 then c q.1.1.toNat * q.1.2 * shape q.2 else 0).sum

end Verif.Space
