import Verif.Spec.DiscreteOperator
import Mathlib.LinearAlgebra.Matrix.NonsingularInverse
import Mathlib.Analysis.Complex.Basic
/-
Model of python/bempp/api/assembly/discrete_boundary_operator.py and of the wrappers of C++ operators in
cython/bempp/core/assembly/discrete_boundary_operator.pyx.

Not modelled: logging, timing, memory statistics (`memory`, `elementary_operators`), SciPy older than 0.16, `numpy.matrix`, the MKL
solver, arrays with more than two dimensions and operands that are neither numbers, arrays nor operators of this module.  The methods
`matvec`, `matmat`, `rmatvec`, `adjoint`, `transpose` of SciPy's `LinearOperator` (which call the underscored methods below) are
modelled as SciPy documents them.
-/
namespace Verif.PyOp
open Verif.DiscreteOp
noncomputable section

/-- The Python exceptions. -/
inductive Exn where
  | ValueError | NotImplementedError | AttributeError | TypeError | RuntimeError | IndexError
deriving DecidableEq, Repr

/-- The result of a call: an exception or a value. -/
abbrev Res (α : Type) := Except Exn α

/-- A NumPy array: with two dimensions `rows × cols`, or (`twoD = false`) with one, of length `rows`; then `cols = 1`.  `complex`:
`dtype` is complex128 (otherwise float64). -/
structure Arr where
  twoD : Bool
  rows : Nat
  cols : Nat
  complex : Bool
  e : Nat → Nat → ℂ

/-- A number and whether its Python type is complex. -/
structure Scalar where
  value : ℂ
  complex : Bool

/-! ### NumPy and SciPy -/

/-- `A.dot(x)`, or `A * x` for a sparse matrix `A`. -/
def Arr.dot (A x : Arr) : Res Arr :=
  if x.rows ≠ A.cols then .error .ValueError
  else .ok ⟨x.twoD, A.rows, x.cols, A.complex || x.complex, fun i j => ∑ k ∈ Finset.range A.cols, A.e i k * x.e k j⟩

/-- The common length of two dimensions in NumPy's broadcasting. -/
def broadcast (m n : Nat) : Option Nat :=
  if m = n then some m else if m = 1 then some n else if n = 1 then some m else none

/-- `a + b` of NumPy arrays with the same number of dimensions, with broadcasting. -/
def Arr.add (a b : Arr) : Res Arr :=
  match broadcast a.rows b.rows, broadcast a.cols b.cols with
  | some r, some c => .ok ⟨a.twoD, r, c, a.complex || b.complex, fun i j =>
      a.e (if a.rows = 1 then 0 else i) (if a.cols = 1 then 0 else j) +
      b.e (if b.rows = 1 then 0 else i) (if b.cols = 1 then 0 else j)⟩
  | _, _ => .error .ValueError

/-- `c * a`. -/
def Arr.smul (c : Scalar) (a : Arr) : Arr := ⟨a.twoD, a.rows, a.cols, a.complex || c.complex, fun i j => c.value * a.e i j⟩

/-- `np.real(a)`. -/
def Arr.real (a : Arr) : Arr := ⟨a.twoD, a.rows, a.cols, false, fun i j => ((a.e i j).re : ℂ)⟩

/-- `np.imag(a)`. -/
def Arr.imag (a : Arr) : Arr := ⟨a.twoD, a.rows, a.cols, false, fun i j => ((a.e i j).im : ℂ)⟩

/-- `a.transpose()` of a two-dimensional array. -/
def Arr.transpose (a : Arr) : Arr := ⟨a.twoD, a.cols, a.rows, a.complex, fun i j => a.e j i⟩

/-- `a.conjugate()`. -/
def Arr.conjugate (a : Arr) : Arr := ⟨a.twoD, a.rows, a.cols, a.complex, fun i j => star (a.e i j)⟩

/-- The imaginary unit, `1j`. -/
def imaginaryUnit : Scalar := ⟨Complex.I, true⟩

/-- `y.reshape(M)` or `y.reshape(M, 1)`. -/
def Arr.reshape (y : Arr) (twoD : Bool) (M : Nat) : Res Arr :=
  if y.rows * y.cols ≠ M then .error .ValueError
  else .ok ⟨twoD, M, 1, y.complex, fun i _ => y.e (i / y.cols) (i % y.cols)⟩

/-- Column `j` as an array with one column. -/
def Arr.column (x : Arr) (j : Nat) : Arr := ⟨true, x.rows, 1, x.complex, fun i _ => x.e i j⟩

/-- SciPy's `LinearOperator.matvec` of an operator of shape `(M, N)`: check, call of `_matvec`, reshaping. -/
def wrapVec (M N : Nat) (raw : Arr → Res Arr) (x : Arr) : Res Arr :=
  if x.rows = N ∧ x.cols = 1 then do
    let y ← raw x
    y.reshape x.twoD M
  else .error .ValueError

/-- SciPy's `LinearOperator.matmat`. -/
def wrapMat (N : Nat) (raw : Arr → Res Arr) (x : Arr) : Res Arr :=
  if x.twoD = true ∧ x.rows = N then raw x else .error .ValueError

/-- SciPy's default `LinearOperator._matmat`: `np.hstack` of `matvec` for each column. -/
def defaultMatmat (M : Nat) (matvec : Arr → Res Arr) (x : Arr) : Res Arr :=
  if x.cols = 0 then .error .ValueError
  else do
    let ys ← (List.range x.cols).mapM fun j => matvec (x.column j)
    .ok ⟨true, M, x.cols, ys.any (·.complex), fun i j => ((ys[j]?).map fun y => y.e i 0).getD 0⟩

/-- `np.eye(n, n)`. -/
def eye (n : Nat) : Arr := ⟨true, n, n, false, fun i j => if i = j then 1 else 0⟩

/-! ### Wrappers of C++ operators -/

/-- `RealDiscreteBoundaryOperator` and (`complex = true`) `ComplexDiscreteBoundaryOperator`: a C++ operator, given by its matrix, and
the transposition mode (`discrete_boundary_operator.pyx:14-23, 129-138`). -/
structure Backend where
  complex : Bool
  rows : Nat
  cols : Nat
  e : Nat → Nat → ℂ
  mode : TranspositionMode

/-- `shape` (`discrete_boundary_operator.pyx:43-55, 158-170`). -/
def Backend.shape (b : Backend) : Nat × Nat :=
  if b.mode = .NO_TRANSPOSE ∨ b.mode = .CONJUGATE then (b.rows, b.cols) else (b.cols, b.rows)

/-- `matvec` without the split into real and imaginary part (`discrete_boundary_operator.pyx:74-100, 186-212`); the C++ operator
applies its matrix in the transposition mode (C51). -/
def Backend.apply (b : Backend) (x : Arr) : Res Arr :=
  if x.rows ≠ b.shape.2 then .error .ValueError
  else .ok ⟨x.twoD, b.shape.1, x.cols, b.complex, fun i j => ∑ k ∈ Finset.range b.shape.2, modeEntry b.mode b.e i k * x.e k j⟩

/-- `matvec` and `matmat` (`discrete_boundary_operator.pyx:69-103, 184-215`). -/
def Backend.matvec (b : Backend) (x : Arr) : Res Arr :=
  if b.complex = false ∧ x.complex = true then do
    let u ← b.apply x.real
    let v ← b.apply x.imag
    u.add (v.smul imaginaryUnit)
  else b.apply x

/-- `as_matrix` (`discrete_boundary_operator.pyx:57-67, 172-182`); `deref(self.impl_).asMatrix()` is the matrix (C51). -/
def Backend.asMatrix (b : Backend) : Arr :=
  let m : Arr := ⟨true, b.rows, b.cols, b.complex, b.e⟩
  match b.mode with
  | .NO_TRANSPOSE => m
  | .CONJUGATE => m.conjugate
  | .TRANSPOSE => m.transpose
  | .CONJUGATE_TRANSPOSE => m.transpose.conjugate

/-- `compute_transpose_mode` (`cython/bempp/core/utils/enum_types.pyx:51-83`). -/
def computeTransposeMode (current input : TranspositionMode) : TranspositionMode :=
  match current, input with
  | .NO_TRANSPOSE, m => m
  | .TRANSPOSE, .NO_TRANSPOSE => .TRANSPOSE
  | .TRANSPOSE, .TRANSPOSE => .NO_TRANSPOSE
  | .TRANSPOSE, .CONJUGATE => .CONJUGATE_TRANSPOSE
  | .TRANSPOSE, .CONJUGATE_TRANSPOSE => .TRANSPOSE
  | .CONJUGATE, .NO_TRANSPOSE => .CONJUGATE
  | .CONJUGATE, .TRANSPOSE => .CONJUGATE_TRANSPOSE
  | .CONJUGATE, .CONJUGATE => .NO_TRANSPOSE
  | .CONJUGATE, .CONJUGATE_TRANSPOSE => .TRANSPOSE
  | .CONJUGATE_TRANSPOSE, .NO_TRANSPOSE => .CONJUGATE_TRANSPOSE
  | .CONJUGATE_TRANSPOSE, .TRANSPOSE => .CONJUGATE
  | .CONJUGATE_TRANSPOSE, .CONJUGATE => .TRANSPOSE
  | .CONJUGATE_TRANSPOSE, .CONJUGATE_TRANSPOSE => .NO_TRANSPOSE

/-- `transpose` (`discrete_boundary_operator.pyx:105-111, 217-223`). -/
def Backend.transpose (b : Backend) : Backend := { b with mode := computeTransposeMode b.mode .TRANSPOSE }

/-- `adjoint` (`discrete_boundary_operator.pyx:113-119, 225-231`). -/
def Backend.adjoint (b : Backend) : Backend := { b with mode := computeTransposeMode b.mode .CONJUGATE_TRANSPOSE }

/-- `conjugate` (`discrete_boundary_operator.pyx:121-127, 233-239`). -/
def Backend.conjugate (b : Backend) : Backend :=
  { b with mode := computeTransposeMode b.mode (if b.complex then .CONJUGATE else .CONJUGATE_TRANSPOSE) }

/-! ### The solver of `InverseSparseDiscreteBoundaryOperator` -/

/-- The leading `r × c` part of a table of entries as a matrix. -/
def toM (r c : Nat) (f : Nat → Nat → ℂ) : Matrix (Fin r) (Fin c) ℂ := Matrix.of fun i j => f i j

/-- The square matrix that is factorised (`discrete_boundary_operator.py:681-702`). -/
def gram (A : Arr) : Res Arr :=
  if A.rows = A.cols then .ok A
  else if A.rows > A.cols then A.conjugate.transpose.dot A
  else A.dot A.conjugate.transpose

/-- `splu(S).solve(b)` for a nonsingular `S`: SciPy refuses complex right-hand sides of real factorisations. -/
def luSolve (S b : Arr) : Res Arr :=
  if S.complex = false ∧ b.complex = true then .error .TypeError
  else if b.rows ≠ S.rows then .error .ValueError
  else .ok ⟨b.twoD, S.rows, b.cols, S.complex, fun i j =>
    if h : i < S.rows then ((toM S.rows S.rows S.e)⁻¹.mulVec fun k : Fin S.rows => b.e k j) ⟨i, h⟩ else 0⟩

/-- `_solve_fun` (`discrete_boundary_operator.py:681-702`). -/
def solveFun (A x : Arr) : Res Arr := do
  let S ← gram A
  if A.rows = A.cols then luSolve S x
  else if A.rows > A.cols then do
    let b ← A.conjugate.transpose.dot x
    luSolve S b
  else do
    let z ← luSolve S x
    A.conjugate.transpose.dot z

/-- `_Solver.solve` without the split (`discrete_boundary_operator.py:718-723`): `squeeze` of an array with one entry has no dimension
left, which SciPy refuses; arrays with several columns are never passed. -/
def solveReal (A vec : Arr) : Res Arr :=
  if vec.cols ≠ 1 ∨ vec.rows = 1 then .error .ValueError
  else do
    let result ← solveFun A { vec with twoD := false }
    if vec.twoD then result.reshape true A.cols else .ok result

/-- `_Solver.solve` (`discrete_boundary_operator.py:711-723`). -/
def solve (A vec : Arr) : Res Arr :=
  if A.complex = false ∧ vec.complex = true then do
    let u ← solveReal A vec.real
    let v ← solveReal A vec.imag
    u.add (v.smul imaginaryUnit)
  else solveReal A vec

/-! ### Operators -/

/-- The classes of `discrete_boundary_operator.py`: `DiscreteBoundaryOperatorSum`, `DiscreteBoundaryOperatorProduct`,
`ScaledDiscreteBoundaryOperator`, `GeneralNonlocalDiscreteBoundaryOperator`, `DenseDiscreteBoundaryOperator`,
`SparseDiscreteBoundaryOperator` (with its SciPy matrix), `InverseSparseDiscreteBoundaryOperator` (with the matrix that is inverted),
`ZeroDiscreteBoundaryOperator` and `DiscreteRankOneOperator` (column and row, one-dimensional). -/
inductive Op where
  | sum (op1 op2 : Op)
  | product (op1 op2 : Op)
  | scaled (op : Op) (alpha : Scalar)
  | nonlocal (impl : Backend)
  | dense (impl : Arr)
  | sparse (impl : Arr)
  | inverse (operator : Arr)
  | zero (rows columns : Nat)
  | rankOne (column row : Arr)

/-- `shape` (the constructors, `discrete_boundary_operator.py:132-134, 178-180, 220-222, 256-257, 305-306, 377-378, 481-482, 528-529,
581-583`). -/
def Op.shape : Op → Nat × Nat
  | .sum a _ => a.shape
  | .product a b => (a.shape.1, b.shape.2)
  | .scaled a _ => a.shape
  | .nonlocal b => b.shape
  | .dense A => (A.rows, A.cols)
  | .sparse A => (A.rows, A.cols)
  | .inverse A => (A.cols, A.rows)
  | .zero r c => (r, c)
  | .rankOne c r => (c.rows, r.rows)

/-- `dtype` is complex128 (the same lines). -/
def Op.complex : Op → Bool
  | .sum a b => a.complex || b.complex
  | .product a b => a.complex || b.complex
  | .scaled a c => a.complex || c.complex
  | .nonlocal b => b.complex
  | .dense A => A.complex
  | .sparse A => A.complex
  | .inverse A => A.complex
  | .zero _ _ => false
  | .rankOne c r => r.complex || c.complex

/-- `_matvec` of a sparse operator (`discrete_boundary_operator.py:383-388`). -/
def sparseMatvec (A x : Arr) : Res Arr :=
  if A.complex = false ∧ x.complex = true then do
    let u ← A.dot x.real
    let v ← A.dot x.imag
    u.add (v.smul imaginaryUnit)
  else A.dot x

/-- `_matvec` of a rank-one operator (`discrete_boundary_operator.py:585-589`); in both cases entry `(i, j)` of the result is the
product of entry `i` of the column and entry `j` of the product of the row and `x`. -/
def rankOneMatvec (column row x : Arr) : Res Arr :=
  if x.rows ≠ row.rows then .error .ValueError
  else .ok ⟨x.twoD, column.rows, x.cols, column.complex || row.complex || x.complex, fun i j =>
    column.e i 0 * ∑ k ∈ Finset.range row.rows, row.e k 0 * x.e k j⟩

/-- `_matvec` of each class (`discrete_boundary_operator.py:137-138, 182-184, 224-225, 262-264, 308-309, 383-388, 485-488, 531-535,
585-589`). -/
def Op.rawMatvec : Op → Arr → Res Arr
  | .sum a b, x => do
    let u ← wrapVec a.shape.1 a.shape.2 a.rawMatvec x
    let v ← wrapVec b.shape.1 b.shape.2 b.rawMatvec x
    u.add v
  | .product a b, x => do
    let u ← wrapVec b.shape.1 b.shape.2 b.rawMatvec x
    wrapVec a.shape.1 a.shape.2 a.rawMatvec u
  | .scaled a c, x => do
    let u ← wrapVec a.shape.1 a.shape.2 a.rawMatvec x
    .ok (u.smul c)
  | .nonlocal b, x => b.matvec x
  | .dense A, x => A.dot x
  | .sparse A, x => sparseMatvec A x
  | .inverse A, x => solve A x
  | .zero r _, x => .ok ⟨x.twoD, r, x.cols, false, fun _ _ => 0⟩
  | .rankOne c r, x => rankOneMatvec c r x

/-- `matvec`. -/
def Op.matvec (op : Op) (x : Arr) : Res Arr := wrapVec op.shape.1 op.shape.2 op.rawMatvec x

/-- `_matmat` of each class (`discrete_boundary_operator.py:140-141, 186-188, 227-228, 270-271, 311-312, 390-392`); the other three
classes inherit it. -/
def Op.rawMatmat : Op → Arr → Res Arr
  | .sum a b, x => do
    let u ← wrapMat a.shape.2 a.rawMatmat x
    let v ← wrapMat b.shape.2 b.rawMatmat x
    u.add v
  | .product a b, x => do
    let u ← wrapMat b.shape.2 b.rawMatmat x
    wrapMat a.shape.2 a.rawMatmat u
  | .scaled a c, x => do
    let u ← wrapMat a.shape.2 a.rawMatmat x
    .ok (u.smul c)
  | .nonlocal b, x => b.matvec x
  | .dense A, x => A.dot x
  | .sparse A, x => sparseMatvec A x
  | .inverse A, x => defaultMatmat A.cols (Op.inverse A).matvec x
  | .zero r c, x => defaultMatmat r (Op.zero r c).matvec x
  | .rankOne c r, x => defaultMatmat c.rows (Op.rankOne c r).matvec x

/-- `matmat`. -/
def Op.matmat (op : Op) (x : Arr) : Res Arr := wrapMat op.shape.2 op.rawMatmat x

/-- `op * x`, `op.dot(x)`, `op(x)` for an array (`discrete_boundary_operator.py:35-54, 65-67, 326-335, 419-433`). -/
def Op.apply (op : Op) (x : Arr) : Res Arr := if x.cols = 1 then op.rawMatvec x else op.rawMatmat x

/-- `op1 + op2` (`discrete_boundary_operator.py:28-33, 119-134, 317-321, 408-414`); SciPy refuses the sum of sparse matrices of
different shapes. -/
def Op.add (op1 op2 : Op) : Res Op :=
  match op1, op2 with
  | .dense A, .dense B => do
    let C ← A.add B
    .ok (.dense C)
  | .sparse A, .sparse B =>
    if (A.rows, A.cols) ≠ (B.rows, B.cols) then .error .ValueError
    else .ok (.sparse ⟨true, A.rows, A.cols, A.complex || B.complex, fun i j => A.e i j + B.e i j⟩)
  | a, b => if a.shape ≠ b.shape then .error .ValueError else .ok (.sum a b)

/-- `op * c` and `c * op` (`discrete_boundary_operator.py:45-46, 56-63, 333-341, 430-439`). -/
def Op.smul (op : Op) (c : Scalar) : Op :=
  match op with
  | .dense A => .dense (A.smul c)
  | .sparse A => .sparse (A.smul c)
  | a => .scaled a c

/-- `-op` (`discrete_boundary_operator.py:76-78, 323-324, 416-417`). -/
def Op.neg (op : Op) : Op :=
  match op with
  | .dense A => .dense ⟨A.twoD, A.rows, A.cols, A.complex, fun i j => -A.e i j⟩
  | .sparse A => .sparse ⟨A.twoD, A.rows, A.cols, A.complex, fun i j => -A.e i j⟩
  | a => a.smul ⟨-1, false⟩

/-- `op1 - op2` (`discrete_boundary_operator.py:80-82`). -/
def Op.sub (op1 op2 : Op) : Res Op := op1.add op2.neg

/-- `op1 * op2`, `op1.dot(op2)` (`discrete_boundary_operator.py:35-42, 162-180, 329-332, 419-429`). -/
def Op.mul (op1 op2 : Op) : Res Op :=
  match op1, op2 with
  | .dense A, .dense B => do
    let C ← A.dot B
    .ok (.dense C)
  | .sparse A, .sparse B => do
    let C ← A.dot B
    .ok (.sparse C)
  | a, b => if a.shape.2 ≠ b.shape.1 then .error .ValueError else .ok (.product a b)

/-- `InverseSparseDiscreteBoundaryOperator(SparseDiscreteBoundaryOperator(A))` (`discrete_boundary_operator.py:476-482, 638-709`);
`splu` raises RuntimeError for singular matrices. -/
def mkInverse (A : Arr) : Res Op := do
  let S ← gram A
  if (toM S.rows S.rows S.e).det = 0 then .error .RuntimeError else .ok (.inverse A)

/-- `transpose()` (`discrete_boundary_operator.py:149-150, 197-199, 236-237, 277-279, 343-345, 394-396, 497-499, 546-547, 595-596`). -/
def Op.transpose : Op → Res Op
  | .sum a b => do
    let u ← a.transpose
    let v ← b.transpose
    u.add v
  | .product a b => do
    let v ← b.transpose
    let u ← a.transpose
    v.mul u
  | .scaled a c => do
    let u ← a.transpose
    .ok (u.smul c)
  | .nonlocal b => .ok (.nonlocal b.transpose)
  | .dense A => .ok (.dense A.transpose)
  | .sparse A => .ok (.sparse A.transpose)
  | .inverse A => mkInverse A.transpose
  | .zero _ _ => .error .NotImplementedError
  | .rankOne c r => .ok (.rankOne r c)

/-- `adjoint()` (`discrete_boundary_operator.py:146-147, 193-195, 233-234, 273-275, 347-350, 403-406, 501-503, 543-544, 598-600`). -/
def Op.adjoint : Op → Res Op
  | .sum a b => do
    let u ← a.adjoint
    let v ← b.adjoint
    u.add v
  | .product a b => do
    let v ← b.adjoint
    let u ← a.adjoint
    v.mul u
  | .scaled a c => do
    let u ← a.adjoint
    .ok (u.smul c)
  | .nonlocal b => .ok (.nonlocal b.adjoint)
  | .dense A => .ok (.dense A.conjugate.transpose)
  | .sparse A => .ok (.sparse A.transpose.conjugate)
  | .inverse A => mkInverse A.transpose.conjugate
  | .zero _ _ => .error .NotImplementedError
  | .rankOne c r => .ok (.rankOne r.conjugate c.conjugate)

/-- `x.dot(A)` for an array `x`: a one-dimensional `x` is a row, otherwise the product of matrices. -/
def dotLeft (x A : Arr) : Res Arr :=
  if x.twoD then x.dot A
  else if x.rows ≠ A.rows then .error .ValueError
  else .ok ⟨false, A.cols, 1, x.complex || A.complex, fun j _ => ∑ k ∈ Finset.range A.rows, x.e k 0 * A.e k j⟩

/-- `_rmatvec` of each class (`discrete_boundary_operator.py:143-144, 190-191, 230-231, 266-268, 314-315, 398-401, 490-495, 537-541,
591-593`): the wrappers of C++ operators have no method `rmatvec` and SciPy's sparse matrices have no method `adjoint`. -/
def Op.rawRmatvec : Op → Arr → Res Arr
  | .sum a b, x => do
    let u ← wrapVec a.shape.2 a.shape.1 a.rawRmatvec x
    let v ← wrapVec b.shape.2 b.shape.1 b.rawRmatvec x
    u.add v
  | .product a b, x => do
    let u ← wrapVec a.shape.2 a.shape.1 a.rawRmatvec x
    wrapVec b.shape.2 b.shape.1 b.rawRmatvec u
  | .scaled a c, x => do
    let u ← wrapVec a.shape.2 a.shape.1 a.rawRmatvec x
    .ok (u.smul c)
  | .nonlocal _, _ => .error .AttributeError
  | .dense A, x => dotLeft x A
  | .sparse _, _ => .error .AttributeError
  | .inverse A, x => do
    let op ← (Op.inverse A).adjoint
    op.apply x
  | .zero _ c, x => .ok (if x.twoD then ⟨true, x.rows, c, false, fun _ _ => 0⟩ else ⟨false, c, 1, false, fun _ _ => 0⟩)
  | .rankOne c r, x => (Op.rankOne r.conjugate c.conjugate).rawMatvec x

/-- `rmatvec(x)`, SciPy's name for the product of the adjoint and `x`. -/
def Op.rmatvec (op : Op) (x : Arr) : Res Arr := wrapVec op.shape.2 op.shape.1 op.rawRmatvec x

/-- `as_matrix(op)` (`discrete_boundary_operator.py:607-632`). -/
def asMatrix (op : Op) : Res Arr :=
  match op with
  | .dense A => .ok A
  | .sparse A => .ok A
  | a => a.apply (eye a.shape.2)

end

end Verif.PyOp
