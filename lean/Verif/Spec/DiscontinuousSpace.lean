import Verif.Model.DiscontinuousSpace
import Verif.Spec.Compat
import Verif.Spec.Conformity
import Verif.Model.BuffaChristiansen
/-
What `discontinuousSpace` promises (lib/space/space.hpp:127-158).
-/
namespace Verif.DiscSpace
open Verif.Compat Verif.Grid Verif.Shape

/-- Functions of the second kind (or their components) are, element by element, sums of functions of the first kind. -/
def Covers : Kind → Kind → Prop
  | .constants, .constants => True
  | .discontinuousLinears, .linears => True
  | .discontinuousLinears, .discontinuousLinears => True
  | .discontinuousPolynomials p, .polynomials q => p = q
  | .discontinuousPolynomials p, .discontinuousPolynomials q => p = q
  | .discontinuousDualConstants, .discontinuousDualConstants => True
  | .discontinuousLinears, .raviartThomas | .discontinuousLinears, .nedelec | .discontinuousLinears, .scaledNedelec
  | .discontinuousLinears, .rwg | .discontinuousLinears, .buffaChristiansen | .discontinuousLinears, .rotatedBuffaChristiansen => True
  | _, _ => False

/-- Spaces of scalar functions that live on the grid they were made for. -/
def ScalarOnGrid (c : Cls) : Prop :=
  match c with
  | .constant | .linear | .linearDisc | .poly _ | .polyDisc _ => True
  | _ => False

/-- The space `o` is a discontinuous counterpart of `r`: basis functions on single elements, the elements those of the same grid
object, the functions of `r` among its functions (on the same segment if the functions are scalar, at least on that segment
otherwise), the grid in the same state. -/
structure IsCounterpart (r o : Raw) : Prop where
  single : isDiscontinuous o.args.cls = true
  grid : o.grid = r.grid
  functions : Covers o.args.cls.kind r.args.cls.kind
  segment : o.args.segment = none ∨ (o.args.segment = r.args.segment ∧ o.args.grid = r.args.grid)
  sameSegment : ScalarOnGrid r.args.cls → o.args.segment = r.args.segment
  level : o.args.grid = r.args.grid → o.level = r.level

/-- The spaces for which the promise is kept. -/
def Kept (r : Raw) : Prop :=
  r.args.cls ≠ .constantDual ∧ r.args.cls ≠ .linearBary ∧ r.args.cls ≠ .unit ∧ (r.args.cls = .linearDiscBary → r.args.segment = none)

/-- Component `i` of a vector. -/
def component (v : P3 ℝ) (i : Fin 3) : ℝ := match i with
  | 0 => v.x
  | 1 => v.y
  | 2 => v.z

/-- A function on the reference triangle that is a sum of the three linear shape functions. -/
def InLinears (f : ℝ × ℝ → ℝ) : Prop :=
  ∃ c : Nat → ℝ, ∀ q, f q = c 0 * Verif.Space.p1Shape 0 q + c 1 * Verif.Space.p1Shape 1 q + c 2 * Verif.Space.p1Shape 2 q

end Verif.DiscSpace
