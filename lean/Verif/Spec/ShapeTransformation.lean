import Verif.Model.ShapeTransformation
import Verif.Spec.Geometry
/-
Elementary vector calculus on a triangle, used to state what the transformations mean.
-/
namespace Verif.Shape
open Verif.Grid
noncomputable section

/-- `d = s (B - A) + t (C - A)`: the displacement in space of a displacement `(s, t)` in the reference triangle. -/
def displacement (A B C : P3 ℝ) (s t : ℝ) : P3 ℝ :=
  ⟨s * (B.x - A.x) + t * (C.x - A.x), s * (B.y - A.y) + t * (C.y - A.y), s * (B.z - A.z) + t * (C.z - A.z)⟩

/-- `n` is the unit normal of the triangle `A B C` that sees its corners counterclockwise. -/
structure IsNormal (A B C n : P3 ℝ) : Prop where
  unit : n.dot n = 1
  orthogonal : ∀ s t, n.dot (displacement A B C s t) = 0
  rightHanded : 0 < (areaVector A B C).dot n

/-- Product of a matrix with a vector. -/
def Mat3.mulVec (m : Mat3) (p : P3 ℝ) : P3 ℝ := ⟨m.r0.dot p, m.r1.dot p, m.r2.dot p⟩

/-- Divergence of a vector field with Jacobian matrix `m` (row = component). -/
def Mat3.div (m : Mat3) : ℝ := m.r0.x + m.r1.y + m.r2.z

/-- Curl of a vector field with Jacobian matrix `m` (row = component). -/
def Mat3.curl (m : Mat3) : P3 ℝ := ⟨m.r2.y - m.r1.z, m.r0.z - m.r2.x, m.r1.x - m.r0.y⟩

end
end Verif.Shape
