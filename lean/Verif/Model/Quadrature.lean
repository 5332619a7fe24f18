import Verif.Model.QuadratureTables
import Mathlib.Data.Real.Basic
/-
Model of the quadrature rules on single elements: lib/fiber/quadrature/quadrature.hpp and the regular part of
lib/fiber/numerical_quadrature.cpp.  Floating-point numbers are real numbers; the decimal literals of the tables are exact.
-/
namespace Verif.SingleQuad
noncomputable section

/-- What a call does: undefined behaviour (a read outside a table), an exception, or a result. -/
inductive Outcome (α : Type) where
  | undefined
  | throws (message : String)
  | ok (result : α)

/-- A quadrature point with its weight: a column of `points` and the element of `weights` (numerical_quadrature.cpp:37-39). -/
structure QPoint where
  x : ℝ
  y : ℝ
  w : ℝ

/-- The members of `QuadratureRule` (quadrature.hpp:139-144). -/
structure Rule where
  numOfPoints : Nat
  position : Nat

/-- A number of the triangle tables, which are in units of 1e-16. -/
def lit16 (z : Int) : ℝ := (z : ℝ) / 10 ^ 16

/-- A number of the tensor tables, which are in units of 1e-15. -/
def lit15 (z : Int) : ℝ := (z : ℝ) / 10 ^ 15

/-- The constructor for triangles (quadrature.hpp:158-167): the initialisers read the tables before the order is compared with
`highestOrder`.  `position` is unsigned. -/
def triaRule (order : Nat) : Outcome Rule :=
  match gTriaPointsPerOrder[order - 1]? with
  | none => .undefined
  | some count =>
    match gTriaAddress[count.toNat - 1]? with
    | none => .undefined
    | some address =>
      if order > 20 then .throws "quadrature rule of requested order is not available"
      else .ok ⟨count.toNat, (address % 2 ^ 32).toNat⟩

/-- `getPoint` for triangles (quadrature.hpp:169-175). -/
def triaPoint (r : Rule) (node : Nat) : Option (ℝ × ℝ) :=
  match gpTria[(r.position + node) * 3 + 1]?, gpTria[(r.position + node) * 3 + 2]? with
  | some b, some c => some (lit16 b + lit16 c, lit16 c)
  | _, _ => none

/-- `getWeight` for triangles (quadrature.hpp:177-181). -/
def triaWeight (r : Rule) (node : Nat) : Option ℝ := (gwTria[r.position + node]?).map fun w => 0.5 * lit16 w

/-- The constructor for quadrangles (quadrature.hpp:208-217). -/
def tensorRule (order : Nat) : Outcome Rule :=
  match gTensorAddress[order - 1]? with
  | none => .undefined
  | some address =>
    if order > 20 then .throws "quadrature rule of requested order is not available"
    else .ok ⟨order * order, address.toNat⟩

/-- `getPoint` for quadrangles (quadrature.hpp:219-224). -/
def tensorPoint (r : Rule) (node : Nat) : Option (ℝ × ℝ) :=
  match gpTensor[(r.position + node) * 2]?, gpTensor[(r.position + node) * 2 + 1]? with
  | some a, some b => some (lit15 a, lit15 b)
  | _, _ => none

/-- `getWeight` for quadrangles (quadrature.hpp:226-230). -/
def tensorWeight (r : Rule) (node : Nat) : Option ℝ := (gwTensor[r.position + node]?).map fun w => lit15 w

/-- The loops of `reallyFillPointsAndWeightsRegular` (numerical_quadrature.cpp:48-62); `remap` is the conditional statement of
lines 54-58.  A read outside the tables is undefined. -/
def collect (n : Nat) (point : Nat → Option (ℝ × ℝ)) (weight : Nat → Option ℝ) (remap : ℝ × ℝ → ℝ × ℝ) : Outcome (List QPoint) :=
  match (List.range n).mapM (fun i => match point i, weight i with
    | some p, some w => some (QPoint.mk (remap p).1 (remap p).2 w)
    | _, _ => none) with
  | some l => .ok l
  | none => .undefined

/-- `fillSingleQuadraturePointsAndWeights` and `reallyFillPointsAndWeightsRegular` (numerical_quadrature.cpp:37-63 and 251-265). -/
def fillSingle (elementCornerCount : Int) (accuracyOrder : Int) : Outcome (List QPoint) :=
  if elementCornerCount = 3 then
    let order := (max accuracyOrder 1).toNat
    match triaRule order with
    | .undefined => .undefined
    | .throws m => .throws m
    | .ok rule => collect rule.numOfPoints (triaPoint rule) (triaWeight rule) fun p => (p.1 - p.2, p.2)
  else if elementCornerCount = 4 then
    let order := (max (Int.tdiv (accuracyOrder + 1 + 1) 2) 1).toNat
    match tensorRule order with
    | .undefined => .undefined
    | .throws m => .throws m
    | .ok rule => collect rule.numOfPoints (tensorPoint rule) (tensorWeight rule) id
  else .throws "elementCornerCount must be either 3 or 4"

end
end Verif.SingleQuad
