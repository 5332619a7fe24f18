import Verif.Model.DiscreteMemory
/-
What the memory of a discrete operator should be.
-/
namespace Verif.DMem

/-- The object `i` occurs in the operator. -/
inductive Occurs (i : Nat) : DOp → Prop where
  | here : Occurs i (.elementary i)
  | inverse : Occurs i (.inverse i)
  | scaled {a} : Occurs i a → Occurs i (.scaled a)
  | sumLeft {a b} : Occurs i a → Occurs i (.sum a b)
  | sumRight {a b} : Occurs i b → Occurs i (.sum a b)
  | productLeft {a b} : Occurs i a → Occurs i (.product a b)
  | productRight {a b} : Occurs i b → Occurs i (.product a b)

/-- The operators made of assembled ones: neither zero nor rank-one nor blocked operators nor inverses of SciPy matrices. -/
inductive Assembled : DOp → Prop where
  | elementary (i) : Assembled (.elementary i)
  | inverse (i) : Assembled (.inverse i)
  | scaled {a} : Assembled a → Assembled (.scaled a)
  | sum {a b} : Assembled a → Assembled b → Assembled (.sum a b)
  | product {a b} : Assembled a → Assembled b → Assembled (.product a b)

/-- Each object that occurs has the size `kb i`. -/
def Sizes (store : Nat → Elementary) (op : DOp) (kb : Nat → Rat) : Prop :=
  ∀ i, Occurs i op → match store i with
    | .dense r c s => kb i * 1024 = r * c * s
    | .sparse d x p => kb i * 1024 = d + x + p
    | .hmatrix k => kb i = k
    | .otherNonlocal => False

/-- A zero or rank-one operator, possibly scaled. -/
inductive Trivial : DOp → Prop where
  | zero : Trivial .zero
  | rankOne : Trivial .rankOne
  | scaled {a} : Trivial a → Trivial (.scaled a)

/-- A zero or rank-one operator is a summand or factor somewhere. -/
inductive HasTrivialOperand : DOp → Prop where
  | sumLeft {a b} : Trivial a → HasTrivialOperand (.sum a b)
  | sumRight {a b} : Trivial b → HasTrivialOperand (.sum a b)
  | productLeft {a b} : Trivial a → HasTrivialOperand (.product a b)
  | productRight {a b} : Trivial b → HasTrivialOperand (.product a b)
  | scaled {a} : HasTrivialOperand a → HasTrivialOperand (.scaled a)
  | inSumLeft {a b} : HasTrivialOperand a → HasTrivialOperand (.sum a b)
  | inSumRight {a b} : HasTrivialOperand b → HasTrivialOperand (.sum a b)
  | inProductLeft {a b} : HasTrivialOperand a → HasTrivialOperand (.product a b)
  | inProductRight {a b} : HasTrivialOperand b → HasTrivialOperand (.product a b)

end Verif.DMem
