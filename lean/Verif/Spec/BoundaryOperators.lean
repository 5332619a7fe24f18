import Verif.Model.BoundaryOperators
import Verif.Spec.PotentialField
import Verif.Spec.ScalarKernelIntegral
import Verif.Props.QuadratureSelector
import Verif.Props.LocalAssembler
/-
What the matrices of boundary integral operators should be.
-/
namespace Verif.Bio
open Verif.Grid Verif.Space Verif.Shape Verif.SingleQuad Verif.HMat Verif.LocalOps Verif.GridFun Verif.Kernel Verif.Pot Verif.Assembly
noncomputable section

/-! ### Nodes -/

/-- The nodes of a quadrature rule for pairs of reference elements: a point of each and a weight. -/
def DoubleRule.nodes : DoubleRule → List ((ℝ × ℝ) × (ℝ × ℝ) × ℝ)
  | .tensor test trial => test.flatMap fun p => trial.map fun q => ((p.x, p.y), (q.x, q.y), p.w * q.w)
  | .nontensor test trial weights => (List.range weights.length).map fun i =>
      (test.getD i (0, 0), trial.getD i (0, 0), weights.getD i 0)

/-- The point of triangle `e` that belongs to the point `p` of the reference triangle; its weight is the ratio of the areas. -/
def surfaceNode (tri : Triangles) (e : Nat) (p : ℝ × ℝ) : Node :=
  ⟨refMap (tri e).1 (tri e).2.1 (tri e).2.2 p, unitNormal (tri e).1 (tri e).2.1 (tri e).2.2,
    2 * area (tri e).1 (tri e).2.1 (tri e).2.2, e, p⟩

/-- The approximation of the integral of `f` over a pair of triangles by a rule. -/
def pairSum (tri tri' : Triangles) (e t : Nat) (rule : DoubleRule) (f : Node → Node → ℂ) : ℂ :=
  (rule.nodes.map fun n => ((n.2.2 : ℝ) : ℂ) * (((surfaceNode tri e n.1).weight * (surfaceNode tri' t n.2.1).weight : ℝ) : ℂ) *
    f (surfaceNode tri e n.1) (surfaceNode tri' t n.2.1)).sum

/-- The approximation of the integral over all pairs of triangles. -/
def doubleSum (tri tri' : Triangles) (n n' : Nat) (rule : Nat → Nat → DoubleRule) (f : Node → Node → ℂ) : ℂ :=
  ∑ e ∈ Finset.range n, ∑ t ∈ Finset.range n', pairSum tri tri' e t (rule e t) f

/-! ### Functions -/

/-- A function on the surface, with what the bilinear forms need: its value, surface curl (a vector) and, for vector fields, components
and surface divergence. -/
structure SurfaceFunction where
  value : Node → ℂ
  curl : Nat → Node → ℂ
  vector : Nat → Node → ℂ
  divergence : Node → ℂ

/-- The function of a space with coefficients `a`. -/
def functionOf (U : ASpace ℂ) (shapes : Nat → Shapeset) (tri : Triangles) (a : Nat → ℂ) : SurfaceFunction :=
  ⟨nodeValue U shapes tri a scalarValueT 0, fun d => nodeValue U shapes tri a surfaceCurlT d, fun d => nodeValue U shapes tri a hdivT d,
    nodeValue U shapes tri a surfaceDivT 0⟩

/-! ### Bilinear forms

Integrands for a test function `v` and a trial function `u`; `κ` is the parameter of the modified Helmholtz equation. -/

/-- The derivative of the fundamental solution with respect to its first argument, in direction `n`. -/
def testNormalDerivative (κ : ℂ) (x y n : P3 ℝ) : ℂ := deriv (fun τ => fundamental κ (along x n τ) y) 0

def singleForm (κ : ℂ) (v u : SurfaceFunction) (x y : Node) : ℂ := star (v.value x) * fundamental κ x.position y.position * u.value y

def doubleForm (κ : ℂ) (v u : SurfaceFunction) (x y : Node) : ℂ :=
  star (v.value x) * normalDerivative κ x.position y.position y.normal * u.value y

def adjointForm (κ : ℂ) (v u : SurfaceFunction) (x y : Node) : ℂ :=
  star (v.value x) * testNormalDerivative κ x.position y.position x.normal * u.value y

/-- `∫∫ G (curl v · curl u + κ² (n · n') v u)`. -/
def hypersingularForm (κ : ℂ) (v u : SurfaceFunction) (x y : Node) : ℂ :=
  fundamental κ x.position y.position * (star (v.curl 0 x) * u.curl 0 y + star (v.curl 1 x) * u.curl 1 y + star (v.curl 2 x) * u.curl 2 y) +
    κ ^ 2 * fundamental κ x.position y.position * ((x.normal.dot y.normal : ℝ) : ℂ) * (star (v.value x) * u.value y)

/-- `∫∫ κ G v · u + κ⁻¹ G div v div u`. -/
def electricForm (κ : ℂ) (v u : SurfaceFunction) (x y : Node) : ℂ :=
  κ * fundamental κ x.position y.position *
      (star (v.vector 0 x) * u.vector 0 y + star (v.vector 1 x) * u.vector 1 y + star (v.vector 2 x) * u.vector 2 y) +
    fundamental κ x.position y.position / κ * (star (v.divergence x) * u.divergence y)

/-- `∫∫ ∇G · (v × u)`. -/
def magneticForm (κ : ℂ) (v u : SurfaceFunction) (x y : Node) : ℂ :=
  partialDerivative κ x.position y.position 0 * (star (v.vector 1 x) * u.vector 2 y - star (v.vector 2 x) * u.vector 1 y) +
  partialDerivative κ x.position y.position 1 * (star (v.vector 2 x) * u.vector 0 y - star (v.vector 0 x) * u.vector 2 y) +
  partialDerivative κ x.position y.position 2 * (star (v.vector 0 x) * u.vector 1 y - star (v.vector 1 x) * u.vector 0 y)

/-- The bilinear forms that the operators stand for; the parameter of the Helmholtz and Maxwell operators is `-i` times the wave
number. -/
inductive Documented : BoundaryOperator → (SurfaceFunction → SurfaceFunction → Node → Node → ℂ) → Prop where
  | laplaceSingle blas : Documented (laplaceSingle blas) (singleForm 0)
  | laplaceDouble blas : Documented (laplaceDouble blas) (doubleForm 0)
  | laplaceAdjoint blas : Documented (laplaceAdjoint blas) (adjointForm 0)
  | laplaceHypersingular blas : Documented (laplaceHypersingular blas) (hypersingularForm 0)
  | modifiedHelmholtzSingle real blas k : Documented (modifiedHelmholtzSingle real blas k) (singleForm k)
  | modifiedHelmholtzDouble real blas k : Documented (modifiedHelmholtzDouble real blas k) (doubleForm k)
  | modifiedHelmholtzAdjoint real blas k : Documented (modifiedHelmholtzAdjoint real blas k) (adjointForm k)
  | modifiedHelmholtzHypersingular real blas k : Documented (modifiedHelmholtzHypersingular real blas k) (hypersingularForm k)
  | helmholtzSingle blas k : Documented (helmholtzSingle blas k) (singleForm (-Complex.I * k))
  | helmholtzDouble blas k : Documented (helmholtzDouble blas k) (doubleForm (-Complex.I * k))
  | helmholtzAdjoint blas k : Documented (helmholtzAdjoint blas k) (adjointForm (-Complex.I * k))
  | helmholtzHypersingular blas k : Documented (helmholtzHypersingular blas k) (hypersingularForm (-Complex.I * k))
  | maxwellElectric k : k ≠ 0 → Documented (maxwellElectric k) (electricForm (-Complex.I * k))
  | maxwellMagnetic k : Documented (maxwellMagnetic k) (magneticForm (-Complex.I * k))

/-! ### The setting -/

/-- `rule e t` is the rule that the selector and the rule family choose for the elements `e` and `t`. -/
def RuleFor (selector : Verif.Quad.Selector) (e t : Nat) (rule : DoubleRule) : Prop :=
  ∃ d, selector.descriptor e t (-1) = some d ∧ fillDouble d = .ok rule

/-- The orders for which there are rules: regular ones up to 20; singular ones from 0 up to 39. -/
def Moderate (d : Verif.Quad.Descriptor) : Prop :=
  if d.topology.type = .Disjoint then d.testOrder ≤ 20 ∧ d.trialOrder ≤ 20 else 0 ≤ max d.testOrder d.trialOrder ∧ max d.testOrder d.trialOrder ≤ 39

/-- The operators, spaces, grids and options considered. -/
structure Setup {addr : Type} (s : Setting addr) (selector : Verif.Quad.Selector) (vertexCount : Nat) (testShapeset trialShapeset : Nat → addr)
    (T U : ASpace ℂ) (tri tri' : Triangles) : Prop where
  testSpace : T.Valid
  trialSpace : U.Valid
  testElements : T.elementCount = selector.test.elementCount
  trialElements : U.elementCount = selector.trial.elementCount
  testSizes : ∀ e < T.elementCount, (T.gdofs e).length = (s.shapeset (testShapeset e)).size
  trialSizes : ∀ e < U.elementCount, (U.gdofs e).length = (s.shapeset (trialShapeset e)).size
  testTriangles : ∀ e < T.elementCount, IsTriangle s.testMesh.toMesh e (tri e).1 (tri e).2.1 (tri e).2.2 ∧
    ∀ p, s.testMesh.local2global e p = refMap (tri e).1 (tri e).2.1 (tri e).2.2 p
  trialTriangles : ∀ t < U.elementCount, IsTriangle s.trialMesh.toMesh t (tri' t).1 (tri' t).2.1 (tri' t).2.2 ∧
    ∀ p, s.trialMesh.local2global t p = refMap (tri' t).1 (tri' t).2.1 (tri' t).2.2 p
  serves : Verif.Quad.Serves selector.doubleRegular
  grids : if selector.identical then selector.trial = selector.test ∧ selector.test.Triangular ∧
      LocalAsm.ValidCorners selector.test vertexCount
    else (∀ e < T.elementCount, (selector.test.corners e).length = 3) ∧ ∀ t < U.elementCount, (selector.trial.corners t).length = 3
  moderate : ∀ e < T.elementCount, ∀ t < U.elementCount, ∀ nominal d, selector.descriptor e t nominal = some d → Moderate d

end
end Verif.Bio
