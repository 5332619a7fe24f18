import Verif.Model.Aca
import Mathlib.LinearAlgebra.Matrix.Rank
/-
Vocabulary for statements about ACA.
-/
namespace Verif.HMat.Aca
variable {K : Type} [RCLike K]

/-- `pick` returns a position of a maximal coefficient (the contract of Eigen's `maxCoeff`). -/
def Env.PickMax (e : Env K) : Prop :=
  ∀ n f, 0 < n → e.pick n f < n ∧ ∀ i, i < n → f i ≤ f (e.pick n f)

/-- The tolerance and the dof volumes are positive. -/
def Env.PositiveVolumes (e : Env K) : Prop :=
  0 < e.zeroTol ∧ (∀ i, i < e.m → 0 < e.testVol (e.rlo + i)) ∧
    ∀ j, j < e.n → 0 < e.trialVol (e.clo + j)

/-- The recorded call of the entry generator (first row, end row, first column, end column) asks
only for rows and columns of the block. -/
def InsideCall (e : Env K) (c : Nat × Nat × Nat × Nat) : Prop :=
  e.rlo ≤ c.1 ∧ c.1 ≤ c.2.1 ∧ c.2.1 ≤ e.rhi ∧ e.clo ≤ c.2.2.1 ∧ c.2.2.1 ≤ c.2.2.2 ∧ c.2.2.2 ≤ e.chi

/-- The block to be compressed, as a matrix. -/
def Env.block (e : Env K) : Matrix (Fin e.m) (Fin e.n) K :=
  Matrix.of fun i j => e.entry (e.rlo + i) (e.clo + j)

/-- The product of an `m × k` and a `k × n` matrix. -/
def approx (m n : Nat) (A B : Mx K) : Matrix (Fin m) (Fin n) K :=
  Matrix.of fun i j => ∑ k ∈ Finset.range A.cols, A.e i k * B.e k j

/-- Frobenius norm. -/
noncomputable def frobenius {m n : Nat} (M : Matrix (Fin m) (Fin n) K) : ℝ :=
  Real.sqrt (∑ i, ∑ j, ‖M i j‖ ^ 2)

end Verif.HMat.Aca
