import Verif.Spec.Space
import Verif.Model.SpacePolyDisc
/-
Specification vocabulary for the discontinuous polynomial space.
-/
namespace Verif.Space
open Verif.Grid

/-- The entity (codimension, index) of the grid in whose relative interior the node `(x/p, y/p)` of the element lies, together
with the corners of the element that span it.  The only node of order 0 stands for the whole element. -/
def nodeEntity (p : Nat) (e : Elem) (x y : Nat) : Nat × Nat × List Nat :=
  if p = 0 then (0, e.index, [0, 1, 2])
  else if x = 0 ∧ y = 0 then (2, (e.sub 2).getD 0 0, [0])
  else if x = p ∧ y = 0 then (2, (e.sub 2).getD 1 0, [1])
  else if x = 0 ∧ y = p then (2, (e.sub 2).getD 2 0, [2])
  else if y = 0 then (1, (e.sub 1).getD 0 0, [0, 1])
  else if x = 0 then (1, (e.sub 1).getD 1 0, [0, 2])
  else if x + y = p then (1, (e.sub 1).getD 2 0, [1, 2])
  else (0, e.index, [0, 1, 2])

/-- The node belongs to the discontinuous space (`piecewise_polynomial_discontinuous_scalar_space.hpp:67-78`): in mode
`ELEMENT_ON_SEGMENT` the element belongs to the segment, in mode `REFERENCE_POINT_ON_SEGMENT` the entity of the node does. -/
def DiscNode (s : GridSegment) (mode : RefMode) (p : Nat) (e : Elem) (x y : Nat) : Prop :=
  (mode.elementOnSegment = true → s.contains 0 e.index = .ok true) ∧
  (mode.referencePointOnSegment = true → s.contains (nodeEntity p e x y).1 (nodeEntity p e x y).2.1 = .ok true)

end Verif.Space
