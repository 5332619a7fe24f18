import Verif.Model.PotentialOperators
import Verif.Model.Assembly
import Verif.Model.DiscreteOperator
/-
Model of the dense assembly of a potential operator and of lib/assembly/assembled_potential_operator.cpp.
-/
namespace Verif.Pot
open Verif.Grid Verif.SingleQuad Verif.HMat Verif.LocalOps Verif.Assembly Verif.DiscreteOp
noncomputable section

/-- `DenseGlobalAssembler::assemblePotentialOperator` with the default local assembler (`dense_global_assembler.cpp:165-213, 345-385`):
elements without dofs are skipped, the nominal distance is -1; `order t` is the order of the set of integrators in the call for element
`t`, `old t` the contents of `localResult` after `resize`. -/
def AssemblePotential {addr : Type} (A : Assembler addr) (U : ASpace ℂ) (pointCount : Nat) (order : Nat → List Descriptor)
    (old : Nat → List (Mx ℂ)) (out : Option (Mx ℂ)) : Prop :=
  ∃ localResult : Nat → List (Mx ℂ),
    (∀ t < U.elementCount, contributes (U.gdofs t) →
      A.atPoints (List.range pointCount) t none (-1) (order t) (old t) = .ok (localResult t)) ∧
    PotentialRun pointCount A.op.functor.dim U (fun p t c b => ((localResult t).getD p (Mx.zero 0 0)).e c b) out

/-- `AssembledPotentialOperator`: the number of global dofs of the space and the number of evaluation points, if the pointers are not
null, the discrete operator and the number of components. -/
structure AssembledPotential where
  globalDofCount : Option Nat
  pointCount : Option Nat
  op : DOp ℂ
  componentCount : Nat

/-- The constructor (`assembled_potential_operator.cpp:31-62`). -/
def constructPotential (globalDofCount pointCount : Option Nat) (op : Option (DOp ℂ)) (componentCount : Int) :
    SingleQuad.Outcome AssembledPotential :=
  match op with
  | none => .throws "op_ must not be null"
  | some op =>
    if componentCount < 1 then .throws "componentCount must be positive"
    else if op.rowCount % componentCount.toNat ≠ 0 then .throws "incorrect number of rows in op_"
    else if pointCount.any fun n => decide (op.rowCount ≠ componentCount.toNat * n) then
      .throws "incorrect number of rows in op_"
    else if globalDofCount.any fun n => decide (op.columnCount ≠ n) then
      .throws "number of columns of op_ must match the number of global DOFs of space_"
    else .ok ⟨globalDofCount, pointCount, op, componentCount.toNat⟩

/-- `result.resize(rows, cols)` of a matrix with the same number of entries: the entries stay where they are in memory, column by
column. -/
def reshape {α : Type} (m : Mx α) (rows cols : Nat) : Mx α :=
  ⟨rows, cols, fun i j => m.e ((i + rows * j) % m.rows) ((i + rows * j) / m.rows)⟩

/-- `apply(coefficients)` (`assembled_potential_operator.cpp:90-107`); `m_space` is dereferenced without a check. -/
def AssembledPotential.ApplyRun (a : AssembledPotential) (coefficients : Vec ℂ) (out : SingleQuad.Outcome (Mx (Option ℂ))) : Prop :=
  match a.globalDofCount with
  | none => out = .undefined
  | some n =>
    if n ≠ coefficients.len then
      out = .throws "space used to expand 'argument' does not match the one used during operator construction"
    else ∃ (g : Nat → Nat → Option ℂ) (result : DiscreteOp.Outcome ℂ),
      DiscreteOp.ApplyRun a.op .NO_TRANSPOSE ⟨coefficients.len, 1, fun i _ => coefficients.e i⟩ ⟨a.op.rowCount, 1, g⟩ 1 0 result ∧
      out = match result with
        | .invalidArgument => .throws "invalid argument"
        | .undefined => .undefined
        | .result Y => .ok (reshape Y a.componentCount (Y.rows / a.componentCount))

end
end Verif.Pot
