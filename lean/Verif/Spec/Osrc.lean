import Verif.Spec.PyDiscrete
import Mathlib.Analysis.SpecialFunctions.Pow.Complex
/-
What the OSRC operators should be.
-/
namespace Verif.PyOp
open Complex
noncomputable section

/-- The square root of `1 + z` whose branch cut is the half-line `1 + z ∈ -exp(iθ)·[0, ∞)`. -/
def branchSqrt (theta : ℝ) (z : ℂ) : ℂ := Complex.exp (I * theta / 2) * ((1 + z) * Complex.exp (-I * theta)) ^ ((1 : ℂ) / 2)

/-- `z` is not on the branch cut. -/
def OffCut (theta : ℝ) (z : ℂ) : Prop := (1 + z) * Complex.exp (-I * theta) ∈ slitPlane

/-- The rational function `c + Σⱼ aⱼ z / (1 + bⱼ z)` with `n` terms. -/
def rational (c : ℂ) (a b : Nat → ℂ) (n : Nat) (z : ℂ) : ℂ := c + ∑ j ∈ Finset.range n, a j * z / (1 + b j * z)

/-- The number by which `Δ / κ²` multiplies a mode with the eigenvalue `eig` (of `-Δ`), `κ` being the damped wave number. -/
def symbolAt (dk : ℂ) (eig : ℝ) : ℂ := -(eig : ℂ) / dk ^ 2

/-- No eigenvalue of `1 + Δ / κ²` can be on the branch cut. -/
def Admissible (theta : ℝ) (dk : ℂ) : Prop := ∀ t : ℝ, 0 ≤ t → OffCut theta (symbolAt dk t)

/-- The matrix of an array. -/
def mat (n : Nat) (A : Arr) : Matrix (Fin n) (Fin n) ℂ := Matrix.of fun i j => A.e i j

/-- The mass and stiffness matrices of a space with `n` degrees of freedom: real and symmetric, the mass matrix positive definite, the
stiffness matrix positive semidefinite. -/
structure Pencil (n : Nat) (mass stiff : Arr) : Prop where
  mass_shape : mass.twoD = true ∧ mass.rows = n ∧ mass.cols = n
  stiff_shape : stiff.twoD = true ∧ stiff.rows = n ∧ stiff.cols = n
  mass_real : ∀ i j, star (mass.e i j) = mass.e i j
  stiff_real : ∀ i j, star (stiff.e i j) = stiff.e i j
  mass_symm : ∀ i j, mass.e i j = mass.e j i
  stiff_symm : ∀ i j, stiff.e i j = stiff.e j i
  mass_pos : ∀ x : Nat → ℝ, (∃ i < n, x i ≠ 0) → 0 < ∑ i ∈ Finset.range n, ∑ j ∈ Finset.range n, x i * (mass.e i j).re * x j
  stiff_nonneg : ∀ x : Nat → ℝ, 0 ≤ ∑ i ∈ Finset.range n, ∑ j ∈ Finset.range n, x i * (stiff.e i j).re * x j

/-- `v` is a discrete eigenfunction of the Laplace-Beltrami operator: `K v = λ M v`. -/
def IsMode (n : Nat) (mass stiff : Arr) (v : Nat → ℂ) (eig : ℝ) : Prop :=
  ∀ i < n, ∑ j ∈ Finset.range n, stiff.e i j * v j = eig * ∑ j ∈ Finset.range n, mass.e i j * v j

end

end Verif.PyOp
