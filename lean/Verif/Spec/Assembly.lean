import Verif.Model.Assembly
import Verif.Spec.Space
/-
Specification vocabulary for assembly.
-/
namespace Verif.Assembly
open Verif.Space Verif.HMat Finset

instance (m : DofMaps) (ld : LocalDof) (g : Int) : Decidable (m.At ld g) := by
  unfold DofMaps.At; infer_instance

/-- The space is usable: consistent dof maps; one weight for each local dof; the weight that
`global2localDofs` reports for a local dof is the one `getGlobalDofs` reports. -/
structure ASpace.Valid {K : Type} [Zero K] (sp : ASpace K) : Prop where
  consistent : sp.maps.Consistent
  weights : ∀ e, (sp.elementWeights.getD e []).length = (sp.gdofs e).length
  dofWeights : ∀ g, g < sp.globalDofCount → sp.dofWeights[g]? =
    some ((sp.maps.globalToLocal g).map fun ld => sp.weight ld.entityIndex ld.dofIndex)

variable {K : Type} [CommRing K] [StarRing K]

/-- Entry `(i, j)` of the weak form: the sum over all local dofs `(e, a)` of the test space that carry the global dof `i`
and all local dofs `(e', b)` of the trial space that carry `j` of
`conj(test weight) * trial weight * local integral`. -/
def weakFormEntry (T U : ASpace K) (form : Nat → Nat → Nat → Nat → K) (i j : Nat) : K :=
  ∑ e ∈ range T.elementCount, ∑ a ∈ range (T.gdofs e).length,
  ∑ e' ∈ range U.elementCount, ∑ b ∈ range (U.gdofs e').length,
    if T.maps.At ⟨e, a⟩ i ∧ U.maps.At ⟨e', b⟩ j then
      star (T.weight e a) * U.weight e' b * form e e' a b else 0

/-- Entry of a potential operator for component `c` at point `p` and trial dof `j`. -/
def potentialEntry (U : ASpace K) (form : Nat → Nat → Nat → Nat → K) (p c j : Nat) : K :=
  ∑ e' ∈ range U.elementCount, ∑ b ∈ range (U.gdofs e').length,
    if U.maps.At ⟨e', b⟩ j then U.weight e' b * form p e' c b else 0

/-- Entry of the weak form of a local operator: only pairs of local dofs of the same element contribute. -/
def localFormEntry (T U : ASpace K) (form : Nat → Nat → Nat → K) (i j : Nat) : K :=
  ∑ e ∈ range T.elementCount, ∑ a ∈ range (T.gdofs e).length, ∑ b ∈ range (U.gdofs e).length,
    if T.maps.At ⟨e, a⟩ i ∧ U.maps.At ⟨e, b⟩ j then
      star (T.weight e a) * U.weight e b * form e a b else 0

end Verif.Assembly
