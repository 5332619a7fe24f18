/-
Model of the data types of blocked discrete operators and of vectors made from several parts: python/bempp/api/utils/data_types.py,
python/bempp/api/assembly/blocked_operator.py (the types only; the values are in Verif.Model.PyBlocked and Verif.Model.PyBlockedBoundary) and
python/bempp/api/assembly/discrete_boundary_operator.py:570-576.  NumPy's promotion of types is modelled as documented.
-/
namespace Verif.DataTypes

/-- The four types of `check_type` (`data_types.py:10`). -/
inductive DType where
  | float32
  | float64
  | complex64
  | complex128
deriving DecidableEq, Repr

/-- What `str` prints for a `numpy.dtype`. -/
def DType.name : DType → String
  | .float32 => "float32"
  | .float64 => "float64"
  | .complex64 => "complex64"
  | .complex128 => "complex128"

/-- `numpy.promote_types` on the four types; it is also the type of the product of two scalars or arrays of the types. -/
def promote : DType → DType → DType
  | .float32, d => d
  | d, .float32 => d
  | .float64, .float64 => .float64
  | .complex64, .complex64 => .complex64
  | _, _ => .complex128

/-- `numpy.iscomplexobj` of a value of the type. -/
def DType.isComplex : DType → Bool
  | .complex64 | .complex128 => true
  | _ => false

/-- What can be raised. -/
inductive Error where
  | valueError (message : String)
  | castingError
deriving DecidableEq, Repr

/-- `check_type` (`data_types.py:6-13`); the argument is `None` or what `str` prints for it. -/
def checkType (name : Option String) (default : String := "float64") : Except Error DType :=
  let value := name.getD default
  if value = "float32" then .ok .float32
  else if value = "float64" then .ok .float64
  else if value = "complex64" then .ok .complex64
  else if value = "complex128" then .ok .complex128
  else .error (.valueError ("Incorrect type (" ++ value ++ ")"))

/-- `combined_type` (`data_types.py:16-22`). -/
def combinedType (dtype1 dtype2 : Option String) : Except Error DType := do
  let newD1 ← checkType dtype1
  let newD2 ← checkType dtype2
  return promote newD1 newD2

/-- The type of a rank-one operator (`discrete_boundary_operator.py:573-576`). -/
def rankOneType (row column : DType) : DType :=
  if row = .complex128 ∨ column = .complex128 then .complex128 else .float64

/-- Discrete blocked operators: `BlockedDiscreteOperator` with the types of its blocks in the order of `ravel` (`none` for an empty block),
`BlockedDiscreteOperatorSum`, `BlockedDiscreteOperatorProduct`, `BlockedScaledDiscreteOperator` with the type of the number (`complex128` for a
Python `complex`, `float64` for a Python `float`) and whether its imaginary part is not zero. -/
inductive Blocked where
  | blocks (types : List (Option DType))
  | sum (op1 op2 : Blocked)
  | product (op1 op2 : Blocked)
  | scaled (op : Blocked) (alpha : DType) (imaginary : Bool)

/-- Empty blocks become zero operators, whose type is `float64` (`blocked_operator.py:628-632`, `discrete_boundary_operator.py:528-529`). -/
def fill (types : List (Option DType)) : List DType := types.map (·.getD .float64)

/-- The attribute `dtype` (`blocked_operator.py:637-643, 737-740, 782-785, 834-841`). -/
def Blocked.dtype : Blocked → Except Error DType
  | .blocks types => (fill types).foldlM (fun d obj => combinedType (some d.name) (some obj.name)) .float64
  | .sum op1 op2 => do combinedType (some (← op1.dtype).name) (some (← op2.dtype).name)
  | .product op1 op2 => do combinedType (some (← op1.dtype).name) (some (← op2.dtype).name)
  | .scaled op _ imaginary => if imaginary then .ok .complex128 else op.dtype

/-- The type of the vectors to which a block is applied (`blocked_operator.py:675-682`): a real block gets the real and the imaginary part of a complex
vector one after the other. -/
def appliedTo (op x : DType) : DType :=
  if x.isComplex ∧ ¬ op.isComplex then (if x = .complex64 then .float32 else .float64) else x

/-- The type of what is added for a block (`blocked_operator.py:675-682`): a block applied to a vector gives the promoted type, `1j` makes the
smallest complex type that is above. -/
def summand (op x : DType) : DType :=
  let part := promote op (appliedTo op x)
  if x.isComplex ∧ ¬ op.isComplex then promote part (promote .complex64 part) else part

/-- NumPy's rule `same_kind` for `+=`: complex numbers are not added to an array of real numbers. -/
def addInPlace (res x : DType) : Except Error Unit := if x.isComplex ∧ ¬ res.isComplex then .error .castingError else .ok ()

/-- The type of `op * x` (`blocked_operator.py:654-689, 742-743, 787-788, 843-844`), and what is raised; `x` is what `str` prints for the type of the
vector. -/
def Blocked.apply : Blocked → String → Except Error DType
  | .blocks types, x => do
    let res ← combinedType (some (← (Blocked.blocks types).dtype).name) (some x)
    let xType ← checkType (some x)
    (fill types).forM fun op => addInPlace res (summand op xType)
    return res
  | .sum op1 op2, x => do return promote (← op1.apply x) (← op2.apply x)
  | .product op1 op2, x => do op1.apply (← op2.apply x).name
  | .scaled op alpha _, x => do return promote alpha (← op.apply x)

/-- The type of the vectors of `coefficients_of_grid_function_list` and `projections_of_grid_function_list` (`blocked_operator.py:882-887, 917-922`). -/
def listType (items : List DType) : DType := items.foldl promote .float64

/-- The type of the vector to which a blocked boundary operator is applied (`blocked_operator.py:161-165`); an empty list of functions has no first
item. -/
def inputType : List DType → Option DType
  | [] => none
  | d :: items => some ((d :: items).foldl promote d)

end Verif.DataTypes
