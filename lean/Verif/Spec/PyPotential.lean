import Verif.Model.PyPotential
import Verif.Spec.PySolvers
/-
Expressions of potential operators and their values.
-/
namespace Verif.PyOp
open Verif.DiscreteOp
noncomputable section

/-- Expressions of potential operators; the leaves are numbered. -/
inductive PExpr where
  | leaf (i : Nat)
  | add (a b : PExpr)
  | sub (a b : PExpr)
  | neg (a : PExpr)
  | smul (c : Scalar) (a : PExpr)

/-- Evaluation of an expression by the library. -/
def PExpr.eval (core : Core) (leaves : Nat → Potential) : PExpr → Res Potential
  | .leaf i => .ok (leaves i)
  | .add a b => do
    let u ← a.eval core leaves
    let v ← b.eval core leaves
    u.add core v
  | .sub a b => do
    let u ← a.eval core leaves
    let v ← b.eval core leaves
    u.sub core v
  | .neg a => do
    let u ← a.eval core leaves
    .ok u.neg
  | .smul c a => do
    let u ← a.eval core leaves
    .ok (u.smul c)

/-- The value of the expression at a point, given those of the leaves. -/
def PExpr.value (x : Nat → ℂ) : PExpr → ℂ
  | .leaf i => x i
  | .add a b => a.value x + b.value x
  | .sub a b => a.value x - b.value x
  | .neg a => -a.value x
  | .smul c a => c.value * a.value x

/-- The numbers in the expression are real if their type is. -/
def PExpr.Typed : PExpr → Prop
  | .leaf _ => True
  | .add a b => a.Typed ∧ b.Typed
  | .sub a b => a.Typed ∧ b.Typed
  | .neg a => a.Typed
  | .smul c a => (c.complex = false → star c.value = c.value) ∧ a.Typed

/-- Two arrays of points are equal. -/
def Points.Same (p q : Points) : Prop := p.dim = q.dim ∧ p.count = q.count ∧ ∀ i < p.dim, ∀ j < p.count, p.e i j = q.e i j

/-- `P` is what a constructor returns for the given points and a space with `dofs` degrees of freedom: the value of component `c` at
point `p` for the basis function `k` is `matrix (c + components * p) k`. -/
def IsAssembled (core : Core) (P : Potential) (components dofs : Nat) (points : Points) (matrix : Nat → Nat → ℂ) : Prop :=
  P.components = components ∧ core.dofs P.space = dofs ∧ P.points.Same points ∧
  ∃ complex, P.op = .nonlocal ⟨complex, components * points.count, dofs, matrix, .NO_TRANSPOSE⟩ ∧
    (complex = false → ∀ i j, star (matrix i j) = matrix i j)

end

end Verif.PyOp
