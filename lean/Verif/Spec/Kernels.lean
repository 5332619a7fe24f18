import Mathlib.Analysis.SpecialFunctions.Exp
import Mathlib.Analysis.SpecialFunctions.Sqrt
import Mathlib.Analysis.SpecialFunctions.Trigonometric.Basic
import Mathlib.Analysis.Calculus.Deriv.Basic
import Verif.Model.Inside
/-
What the kernels of the boundary operators and potentials should be.
-/
namespace Verif.Kernel
open Verif.Grid
noncomputable section

/-- Euclidean distance. -/
def dist (x y : P3 ℝ) : ℝ := Real.sqrt ((x.x - y.x) ^ 2 + (x.y - y.y) ^ 2 + (x.z - y.z) ^ 2)

/-- The fundamental solution of `-Δ u + k² u`. -/
def fundamental (k : ℂ) (x y : P3 ℝ) : ℂ := Complex.exp (-k * dist x y) / (4 * Real.pi * dist x y)

/-- The point at `τ` on the line through `x` in direction `v`. -/
def along (x v : P3 ℝ) (τ : ℝ) : P3 ℝ := ⟨x.x + τ * v.x, x.y + τ * v.y, x.z + τ * v.z⟩

/-- `D` is the derivative of `F` at `x` in direction `v`. -/
def HasDirectional (F : P3 ℝ → ℂ) (D : ℂ) (x v : P3 ℝ) : Prop := HasDerivAt (fun τ => F (along x v τ)) D 0

/-- The triple is the gradient of `F` at `x`: its product with any direction is the derivative in this direction. -/
def HasGradient (F : P3 ℝ → ℂ) (G : ℂ × ℂ × ℂ) (x : P3 ℝ) : Prop :=
  ∀ v, HasDirectional F (G.1 * v.x + G.2.1 * v.y + G.2.2 * v.z) x v

/-- The far-field pattern of `F` in the direction of the unit vector `x`: `F (r x) ~ exp (-k r) / r * L`. -/
def HasFarField (k : ℂ) (F : P3 ℝ → ℂ) (L : ℂ) (x : P3 ℝ) : Prop :=
  Filter.Tendsto (fun r : ℝ => (r : ℂ) * Complex.exp (k * r) * F (P3.mk (r * x.x) (r * x.y) (r * x.z))) Filter.atTop (nhds L)

/-- The box with these corners contains the point. -/
def InBox (l u p : P3 ℝ) : Prop := l.x ≤ p.x ∧ p.x ≤ u.x ∧ l.y ≤ p.y ∧ p.y ≤ u.y ∧ l.z ≤ p.z ∧ p.z ≤ u.z

/-- The second number is an approximation of the first with relative error at most `ε`. -/
def Approximates (ε : ℝ) (exact : ℂ) (approx : ℂ) : Prop := ‖approx - exact‖ ≤ ε * ‖exact‖

end
end Verif.Kernel
