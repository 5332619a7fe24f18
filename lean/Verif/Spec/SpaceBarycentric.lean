import Verif.Spec.Space
import Verif.Spec.Geometry
/-
Specification vocabulary: functions represented by coefficient vectors.
-/
namespace Verif.Space
open Verif.Grid

/-- The affine map from the reference triangle to the triangle with corners `A, B, C`. -/
def refMap {K : Type} [Field K] (A B C : P3 K) (p : K × K) : P3 K :=
  ⟨A.x + p.1 * (B.x - A.x) + p.2 * (C.x - A.x), A.y + p.1 * (B.y - A.y) + p.2 * (C.y - A.y),
   A.z + p.1 * (B.z - A.z) + p.2 * (C.z - A.z)⟩

/-- Value on one element of the function with global coefficients `c`: the sum over the local dofs of the
coefficient of their global dof (if they have one) times the value of their shape function. -/
def expand {K : Type} [Field K] (gdofs : List Int) (c : Nat → K) (shape : Nat → K) : K :=
  (gdofs.zipIdx.map fun q => if 0 ≤ q.1 then c q.1.toNat * shape q.2 else 0).sum

end Verif.Space
