import Verif.Model.GridFunctionEval
import Verif.Spec.LocalOperators
import Verif.Spec.Space
import Verif.Props.ShapeTransformation
/-
What a grid function is.
-/
namespace Verif.GridEval
open Verif.Grid Verif.Shape Verif.SingleQuad Verif.LocalOps Verif.PyOp
noncomputable section

/-- The factor of local function `i` on element `e`: the coefficient of its global dof times the weight of the dof; 0 without a dof. -/
def GridFun.factor (f : GridFun) (e i : Nat) : ℂ :=
  (if 0 ≤ (f.space.gdofs e).getD i (-1) then f.coefficients.getD ((f.space.gdofs e).getD i (-1)).toNat 0 else 0) *
    ((f.space.weights e).getD i 0 : ℂ)

/-- The grid function in component `d` at the point of the triangle `A B C` with local coordinates `p`, its local functions being
transformed by `T`: the linear combination of the local functions. -/
def GridFun.field (f : GridFun) (T : Transformation) (A B C : P3 ℝ) (e : Nat) (p : ℝ × ℝ) (d : Nat) : ℂ :=
  ∑ i ∈ Finset.range (f.space.shapeset e).size, f.factor e i * (T.evaluate ((f.space.shapeset e).shape i p) (fullData A B C) d : ℂ)

/-- The element is the triangle `A B C` and the dofs of its local functions exist. -/
structure GridFun.On (f : GridFun) (mesh : Mesh) (e : Nat) (A B C : P3 ℝ) : Prop where
  triangle : IsTriangle mesh e A B C
  value : IsTransformation f.space.value
  dofs : (f.space.gdofs e).length = (f.space.shapeset e).size
  weights : (f.space.weights e).length = (f.space.shapeset e).size
  range : ∀ g ∈ f.space.gdofs e, g < (f.coefficients.length : ℤ)

/-- A function on the element given by scalar linear shape functions (P1), with values `k 0`, `k 1`, `k 2` at the corners. -/
structure GridFun.P1On (f : GridFun) (mesh : Mesh) (e : Nat) (A B C : P3 ℝ) (k : Nat → ℂ) : Prop extends f.On mesh e A B C where
  scalar : f.space.value = scalarValueT
  linear : f.space.shapeset e = linearShapeset
  corner : ∀ i < 3, f.factor e i = k i

/-- A function that is the constant `k` on the element (P0). -/
structure GridFun.P0On (f : GridFun) (mesh : Mesh) (e : Nat) (A B C : P3 ℝ) (k : ℂ) : Prop extends f.On mesh e A B C where
  scalar : f.space.value = scalarValueT
  constant : f.space.shapeset e = constantShapeset
  coeff : f.factor e 0 = k

end
end Verif.GridEval
