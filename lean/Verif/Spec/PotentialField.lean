import Verif.Model.PotentialField
import Verif.Spec.PotentialOperators
import Verif.Spec.Assembly
import Mathlib.Topology.Order.Basic
/-
What the fields computed by potential operators should be.
-/
namespace Verif.Pot
open Verif.Grid Verif.Shape Verif.SingleQuad Verif.Space Verif.HMat Verif.LocalOps Verif.GridFun Verif.Kernel Verif.Assembly
noncomputable section

/-! ### Densities -/

/-- The coefficient of local function `b` of element `e` in the function of the space with these coefficients. -/
def localCoefficient (U : ASpace ℂ) (a : Nat → ℂ) (e b : Nat) : ℂ :=
  ∑ j ∈ Finset.range U.globalDofCount, if U.maps.At ⟨e, b⟩ j then U.weight e b * a j else 0

/-- A point of the surface that serves as a node of quadrature. -/
structure Node where
  position : P3 ℝ
  normal : P3 ℝ
  weight : ℝ
  element : Nat
  reference : ℝ × ℝ

/-- The nodes, when `rule e` is used on triangle `e`: the weight includes the area. -/
def surfaceNodes (elementCount : Nat) (tri : Triangles) (rule : Nat → List QPoint) : List Node :=
  (List.range elementCount).flatMap fun e => (rule e).map fun q =>
    ⟨refMap (tri e).1 (tri e).2.1 (tri e).2.2 (q.x, q.y), unitNormal (tri e).1 (tri e).2.1 (tri e).2.2,
      2 * area (tri e).1 (tri e).2.1 (tri e).2.2 * q.w, e, (q.x, q.y)⟩

/-- Component `d` of the transformed function with coefficients `a` at a node. -/
def nodeValue (U : ASpace ℂ) (shapes : Nat → Shapeset) (tri : Triangles) (a : Nat → ℂ) (t : Transformation) (d : Nat) (ν : Node) : ℂ :=
  ∑ b ∈ Finset.range (U.gdofs ν.element).length, localCoefficient U a ν.element b *
    ((t.evaluate ((shapes ν.element).shape b ν.reference)
      (fullData (tri ν.element).1 (tri ν.element).2.1 (tri ν.element).2.2) d : ℝ) : ℂ)

/-- A density on the nodes: the values of a scalar function, of a tangential vector field (by components) and of its surface
divergence. -/
structure Density where
  scalar : Node → ℂ
  vector : Nat → Node → ℂ
  divergence : Node → ℂ

/-- The density of the function of the space with coefficients `a`. -/
def densityOf (U : ASpace ℂ) (shapes : Nat → Shapeset) (tri : Triangles) (a : Nat → ℂ) : Density :=
  ⟨nodeValue U shapes tri a scalarValueT 0, fun d => nodeValue U shapes tri a hdivT d, nodeValue U shapes tri a surfaceDivT 0⟩

/-! ### Fields -/

/-- The sum over the nodes. -/
def nodeSum (nodes : List Node) (f : Node → ℂ) : ℂ := (nodes.map fun ν => (ν.weight : ℂ) * f ν).sum

/-- `D` is the second derivative of `F` at `x` in direction `v`. -/
def HasSecond (F : P3 ℝ → ℂ) (D : ℂ) (x v : P3 ℝ) : Prop :=
  ∃ f' : ℝ → ℂ, (∀ᶠ τ in nhds (0 : ℝ), HasDerivAt (fun τ => F (along x v τ)) (f' τ) τ) ∧ HasDerivAt f' D 0

/-- `L` is the sum of the second derivatives of `F` at `x` in the directions of the axes. -/
def HasLaplacian (F : P3 ℝ → ℂ) (L : ℂ) (x : P3 ℝ) : Prop :=
  ∃ a b c, HasSecond F a x ⟨1, 0, 0⟩ ∧ HasSecond F b x ⟨0, 1, 0⟩ ∧ HasSecond F c x ⟨0, 0, 1⟩ ∧ a + b + c = L

/-- The derivative of the fundamental solution with respect to its second argument, in direction `n`. -/
def normalDerivative (κ : ℂ) (x y n : P3 ℝ) : ℂ := deriv (fun τ => fundamental κ x (along y n τ)) 0

/-- The unit vectors of the axes. -/
def axis (c : Nat) : P3 ℝ := if c = 0 then ⟨1, 0, 0⟩ else if c = 1 then ⟨0, 1, 0⟩ else ⟨0, 0, 1⟩

/-- The partial derivatives of the fundamental solution with respect to its first argument. -/
def partialDerivative (κ : ℂ) (x y : P3 ℝ) (c : Nat) : ℂ := deriv (fun τ => fundamental κ (along x (axis c) τ) y) 0

/-- The single-layer potential of the density, by quadrature. -/
def singleLayer (κ : ℂ) (nodes : List Node) (u : Density) (x : P3 ℝ) : ℂ :=
  nodeSum nodes fun ν => fundamental κ x ν.position * u.scalar ν

/-- The double-layer potential of the density, by quadrature. -/
def doubleLayer (κ : ℂ) (nodes : List Node) (u : Density) (x : P3 ℝ) : ℂ :=
  nodeSum nodes fun ν => normalDerivative κ x ν.position ν.normal * u.scalar ν

/-- The electric (single-layer) potential `-κ ∫ G u + κ⁻¹ ∇ ∫ G div u`, by quadrature. -/
def electric (κ : ℂ) (nodes : List Node) (u : Density) (x : P3 ℝ) (c : Nat) : ℂ :=
  nodeSum nodes fun ν => -κ * fundamental κ x ν.position * u.vector c ν + partialDerivative κ x ν.position c / κ * u.divergence ν

/-- The magnetic (double-layer) potential `∫ ∇G × u`, by quadrature. -/
def magnetic (κ : ℂ) (nodes : List Node) (u : Density) (x : P3 ℝ) (c : Nat) : ℂ :=
  nodeSum nodes fun ν => partialDerivative κ x ν.position ((c + 1) % 3) * u.vector ((c + 2) % 3) ν -
    partialDerivative κ x ν.position ((c + 2) % 3) * u.vector ((c + 1) % 3) ν

/-! ### Computed values -/

/-- `z` is component `c` at point `p` that a caller gets who assembles the operator at the points and applies the result to the vector of
coefficients: in some execution, with some order of the sets of integrators. -/
def Assembler.Computes {addr : Type} (A : Assembler addr) (tri : Triangles) (U : ASpace ℂ) (pointCount : Nat) (a : Nat → ℂ) (p c : Nat)
    (z : ℂ) : Prop :=
  ∃ (order : Nat → List Descriptor) (old : Nat → List (Mx ℂ)) (M : Mx ℂ) (assembled : AssembledPotential) (Y : Mx (Option ℂ)),
    (∀ t, Traversal (fun p d => A.Rule tri p t (-1) d) (List.range pointCount) (order t) ∧ (old t).length = pointCount) ∧
    AssemblePotential A U pointCount order old (some M) ∧
    constructPotential (some U.globalDofCount) (some pointCount) (some (DiscreteOp.denseOp M)) A.op.functor.dim = .ok assembled ∧
    assembled.ApplyRun ⟨U.globalDofCount, a⟩ (.ok Y) ∧ c < Y.rows ∧ p < Y.cols ∧ Y.e c p = some z

/-- The assemblers, spaces and numbers of points considered: the space has as many elements as the grid, as many local dofs on an
element as there are shape functions, and the orders are at most 20. -/
structure Assembler.Setup {addr : Type} (A : Assembler addr) (k : ℂ) (tri : Triangles) (U : ASpace ℂ) (pointCount : Nat) : Prop where
  valid : A.Valid k tri
  space : U.Valid
  elements : U.elementCount = A.grid.elementCount
  sizes : ∀ e < U.elementCount, (U.gdofs e).length = (A.shapes e).size
  moderate : A.Moderate tri (List.range pointCount) (List.range U.elementCount) (-1)

/-- The nodes used for point `p` when `d e` describes the rule for element `e`. -/
def Assembler.Nodes {addr : Type} (A : Assembler addr) (tri : Triangles) (U : ASpace ℂ) (p : Nat) (nodes : List Node) : Prop :=
  ∃ d : Nat → Descriptor, (∀ e < U.elementCount, A.Rule tri p e (-1) (d e)) ∧
    nodes = surfaceNodes U.elementCount tri fun e => rulePoints (d e)

end
end Verif.Pot
