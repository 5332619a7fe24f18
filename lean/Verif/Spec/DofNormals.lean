import Verif.Model.DofNormals
import Verif.Spec.DofBoxes
import Verif.Spec.SpaceBarycentric
import Verif.Spec.ShapeTransformation
/-
Specification vocabulary for interpolation.
-/
namespace Verif.DofGeo
open Verif.Grid Verif.Space
noncomputable section

/-- The point of the triangle `e` with the local coordinates `p`. -/
def pointAt (coord : Nat → P3 ℝ) (e : Elem) (p : ℝ × ℝ) : P3 ℝ :=
  refMap (coord ((e.sub 2).getD 0 0)) (coord ((e.sub 2).getD 1 0)) (coord ((e.sub 2).getD 2 0)) p

/-- The reference triangle. -/
def InReference (p : ℝ × ℝ) : Prop := 0 ≤ p.1 ∧ 0 ≤ p.2 ∧ p.1 + p.2 ≤ 1

/-- The triangle has an area. -/
def Nondegenerate (coord : Nat → P3 ℝ) (e : Elem) : Prop :=
  areaVector (coord ((e.sub 2).getD 0 0)) (coord ((e.sub 2).getD 1 0)) (coord ((e.sub 2).getD 2 0)) ≠ ⟨0, 0, 0⟩

/-- `n` is the unit normal of the triangle `e`. -/
def NormalOf (coord : Nat → P3 ℝ) (e : Elem) (n : P3 ℝ) : Prop :=
  Shape.IsNormal (coord ((e.sub 2).getD 0 0)) (coord ((e.sub 2).getD 1 0)) (coord ((e.sub 2).getD 2 0)) n

/-- The points `x` are interpolation points of the basis: there is one for each global dof, it lies in an element on which the dof lives,
and at this point, approached in any element on which the dof lives, the function with coefficients `c` has the value `c j`, that is,
`f i (x j) = 1` for `i = j` and `0` otherwise.  `shape e a p` is the value of shape function `a` of element `e` at `p`. -/
structure Interpolatory (v : View) (coord : Nat → P3 ℝ) (m : DofMaps) (shape : Elem → Nat → ℝ × ℝ → ℝ) (x : List (P3 ℝ)) : Prop where
  count : x.length = m.globalDofCount
  on_support : ∀ (j : Nat) X, x[j]? = some X → ∃ e ∈ v.elems, (∃ i, m.At ⟨e.index, i⟩ (j : Int)) ∧
    ∃ p, InReference p ∧ pointAt coord e p = X
  value : ∀ (j : Nat) X, x[j]? = some X → ∀ e ∈ v.elems, (∃ i, m.At ⟨e.index, i⟩ (j : Int)) → Nondegenerate coord e →
    ∀ p, InReference p → pointAt coord e p = X → ∀ c : Nat → ℝ, expand (m.getGlobalDofs e.index) c (fun a => shape e a p) = c j

/-- `u` is a polynomial of degree at most one in space. -/
def IsAffine (u : P3 ℝ → ℝ) : Prop := ∃ a b c d : ℝ, ∀ X, u X = a + b * X.x + c * X.y + d * X.z

end
end Verif.DofGeo
