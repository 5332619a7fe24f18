import Verif.Model.Quadrature
import Mathlib.Algebra.MvPolynomial.Eval
import Mathlib.MeasureTheory.Integral.IntervalIntegral.Basic
/-
What quadrature rules should do.
-/
namespace Verif.SingleQuad
noncomputable section

/-- The value of a polynomial in two variables. -/
def value (p : MvPolynomial (Fin 2) ℝ) (x y : ℝ) : ℝ := MvPolynomial.eval ![x, y] p

/-- The integral over the triangle with vertices (0,0), (1,0) and (0,1). -/
def triangleIntegral (f : ℝ → ℝ → ℝ) : ℝ := ∫ x in (0 : ℝ)..1, ∫ y in (0 : ℝ)..(1 - x), f x y

/-- The integral over the unit square. -/
def squareIntegral (f : ℝ → ℝ → ℝ) : ℝ := ∫ x in (0 : ℝ)..1, ∫ y in (0 : ℝ)..1, f x y

/-- The quadrature sum. -/
def quadSum (rule : List QPoint) (f : ℝ → ℝ → ℝ) : ℝ := (rule.map fun q => q.w * f q.x q.y).sum

/-- The sum of the absolute values of the coefficients. -/
def coeffNorm (p : MvPolynomial (Fin 2) ℝ) : ℝ := ∑ s ∈ p.support, |p.coeff s|

/-- The closed reference triangle. -/
def InTriangle (q : QPoint) : Prop := 0 ≤ q.x ∧ 0 ≤ q.y ∧ q.x + q.y ≤ 1

end
end Verif.SingleQuad
