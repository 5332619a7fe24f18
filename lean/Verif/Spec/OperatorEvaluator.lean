import Verif.Model.OperatorEvaluator
import Verif.Spec.PotentialField
/-
What the evaluator of potential operators should do.
-/
namespace Verif.Pot
open Verif.Grid Verif.Shape Verif.SingleQuad Verif.Space Verif.HMat Verif.LocalOps Verif.GridFun Verif.Kernel Verif.Assembly
noncomputable section
variable {addr : Type}

/-- The evaluators considered: the operator is one of the library, the grid consists of the triangles `tri e` of positive area, there is
a shapeset for each element and a coefficient for each of its functions, and there are accuracy options. -/
structure Evaluator.Valid (E : Evaluator addr) (k : ℂ) (tri : Triangles) : Prop where
  op : E.op ∈ potentialOperators k
  aux : E.auxRows = 0 ∨ E.auxCols = E.elementCount
  triangles : ∀ e < E.elementCount, IsTriangle E.mesh.toMesh e (tri e).1 (tri e).2.1 (tri e).2.2
  positions : ∀ e < E.elementCount, ∀ p, E.mesh.local2global e p = refMap (tri e).1 (tri e).2.1 (tri e).2.2 p
  corners : ∀ e < E.elementCount, ∃ a b c rest, E.corners e = a :: b :: c :: rest ∧ 0 ≤ a ∧ 0 ≤ b ∧ 0 ≤ c ∧ ∀ d ∈ rest, d < 0
  shapesets : E.trialShapesets.length = E.elementCount
  coefficients : E.coefficients.length = E.elementCount
  sizes : ∀ (e : Nat) (a : addr) (co : List ℂ), E.trialShapesets[e]? = some a → E.coefficients[e]? = some co →
    co.length = (E.shapeset a).size
  options : E.singleRegular ≠ []
  kernels : 0 < E.sizeOfKernel

/-- The shapeset of element `e`. -/
def Evaluator.HasShapeset (E : Evaluator addr) (e : Nat) (s : Shapeset) : Prop :=
  ∃ a, E.trialShapesets[e]? = some a ∧ s = E.shapeset a

/-- The coefficient of local function `b` of element `e` in the argument. -/
def Evaluator.coefficient (E : Evaluator addr) (e b : Nat) : ℂ := (E.coefficients.getD e []).getD b 0

/-- `n` is the order of accuracy that the options request for the greatest distances, for a shapeset. -/
def Evaluator.FarOrder (E : Evaluator addr) (s : Shapeset) (n : Int) : Prop :=
  ∃ o, E.singleRegular.getLast? = some o ∧ n = if o.2.relative then 2 * s.order + o.2.value else o.2.value

/-- All the orders are at most 20 (there is no rule for more). -/
def Evaluator.Moderate (E : Evaluator addr) : Prop :=
  ∀ e < E.elementCount, ∀ s n, E.HasShapeset e s → E.FarOrder s n → n ≤ 20

/-- `order` lists the shapesets of the elements, each once (a `std::set` of pointers is traversed by addresses). -/
def Evaluator.Unique (E : Evaluator addr) (order : List addr) : Prop := order.Nodup ∧ ∀ a, a ∈ order ↔ a ∈ E.trialShapesets

/-- `z` is component `c` of the potential at `x` of the function with the given local coefficients, each element being integrated by the
rule of the order requested. -/
def Evaluator.Potential (E : Evaluator addr) (tri : Triangles) (x : P3 ℝ) (c : Nat) (z : ℂ) : Prop :=
  ∃ (s : Nat → Shapeset) (n : Nat → Int), (∀ e < E.elementCount, E.HasShapeset e (s e) ∧ E.FarOrder (s e) (n e)) ∧
    z = ∑ e ∈ Finset.range E.elementCount, ∑ b ∈ Finset.range (s e).size,
      E.coefficient e b * E.op.contribution (tri e) (rulePoints ⟨3, n e⟩) x ((s e).shape b) c

/-- The evaluator and the assembler have the same operator, elements, shapesets and accuracy options, and the argument of the evaluator is
the function of the space with coefficients `a`. -/
structure Evaluator.Agrees {addr' : Type} (E : Evaluator addr) (A : Assembler addr') (U : ASpace ℂ) (a : Nat → ℂ) : Prop where
  op : E.op = A.op
  elements : E.elementCount = U.elementCount
  shapesets : ∀ e < U.elementCount, E.HasShapeset e (A.shapes e)
  options : E.singleRegular = A.singleRegular
  coefficients : ∀ e < U.elementCount, ∀ b < (A.shapes e).size, E.coefficient e b = localCoefficient U a e b

end
end Verif.Pot
