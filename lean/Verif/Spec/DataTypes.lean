import Mathlib.Data.Rat.Defs
import Mathlib.Algebra.Order.Field.Rat
import Mathlib.Algebra.Order.Field.Power
import Verif.Model.DataTypes
/-
Which numbers the types hold: the finite floating point numbers of IEEE 754.
-/
namespace Verif.DataTypes

/-- The finite numbers of single precision. -/
def Single (r : ℚ) : Prop := ∃ m e : ℤ, |m| < 2 ^ 24 ∧ -149 ≤ e ∧ e ≤ 104 ∧ r = m * 2 ^ e

/-- The finite numbers of double precision. -/
def Double (r : ℚ) : Prop := ∃ m e : ℤ, |m| < 2 ^ 53 ∧ -1074 ≤ e ∧ e ≤ 971 ∧ r = m * 2 ^ e

/-- The type holds the number with this real and imaginary part. -/
def Holds : DType → ℚ × ℚ → Prop
  | .float32, z => Single z.1 ∧ z.2 = 0
  | .float64, z => Double z.1 ∧ z.2 = 0
  | .complex64, z => Single z.1 ∧ Single z.2
  | .complex128, z => Double z.1 ∧ Double z.2

/-- Every number of `a` is one of `b`. -/
def Fits (a b : DType) : Prop := ∀ z, Holds a z → Holds b z

/-- `d` holds all numbers of the types of the list, and no smaller type does. -/
def Least (types : List DType) (d : DType) : Prop :=
  (∀ a ∈ types, Fits a d) ∧ ∀ b, (∀ a ∈ types, Fits a b) → Fits d b

/-- The types of the blocks of an operator; an empty block counts as `float64`. -/
def Blocked.types : Blocked → List DType
  | .blocks types => types.map (·.getD .float64)
  | .sum op1 op2 => op1.types ++ op2.types
  | .product op1 op2 => op1.types ++ op2.types
  | .scaled op alpha _ => op.types ++ [alpha]

/-- The numbers of the type `complex` by which the operator is scaled have an imaginary part, and the numbers have one only if they are of a complex
type; single precision numbers are not used. -/
def Blocked.ProperNumbers : Blocked → Prop
  | .blocks _ => True
  | .sum op1 op2 => op1.ProperNumbers ∧ op2.ProperNumbers
  | .product op1 op2 => op1.ProperNumbers ∧ op2.ProperNumbers
  | .scaled op alpha imaginary => op.ProperNumbers ∧ alpha = if imaginary then .complex128 else .float64

end Verif.DataTypes
