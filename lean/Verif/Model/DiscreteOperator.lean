import Verif.Model.HMatrix
import Mathlib.Data.Complex.Basic
/-
Model of discrete boundary operators: the base class (lib/assembly/discrete_boundary_operator.cpp) and
the dense, sparse and H-matrix operators derived from it.

Vectors that are written (`y_inout`) have cells of type `Option K`: `none` stands for NaN /
uninitialised contents, which propagate through arithmetic.  Arithmetic is exact; the casts between
`float` and `double` of the sparse operator are not modelled.  `x_in` and `y_inout` do not alias.
-/
namespace Verif.DiscreteOp
open Verif.HMat

/-- `enum TranspositionMode { NO_TRANSPOSE, CONJUGATE, TRANSPOSE, CONJUGATE_TRANSPOSE }`
(`lib/assembly/transposition_mode.hpp:33-38`). -/
inductive TranspositionMode where
  | NO_TRANSPOSE | CONJUGATE | TRANSPOSE | CONJUGATE_TRANSPOSE
deriving DecidableEq, Repr

/-- The integer values of the enumerators (`lib/assembly/transposition_mode.hpp:33-38`). -/
def TranspositionMode.value : TranspositionMode → Nat
  | .NO_TRANSPOSE => 0
  | .CONJUGATE => 1
  | .TRANSPOSE => 2
  | .CONJUGATE_TRANSPOSE => 3

/-- A vector (`Vector<ValueType>` or a reference to a column): length and entries. -/
structure Vec (α : Type) where
  len : Nat
  e : Nat → α

/-- An object of a class derived from `DiscreteBoundaryOperator`: `rowCount()`, `columnCount()` and the
possible outcomes of the virtual function `applyBuiltInImpl(trans, x_in, y_inout, alpha, beta)`
(`discrete_boundary_operator.hpp`): the new contents of `y_inout`, or `none` for an assertion failure /
undefined behaviour. -/
structure DOp (K : Type) where
  rowCount : Nat
  columnCount : Nat
  run : TranspositionMode → Vec K → Vec (Option K) → K → K → Option (Vec (Option K)) → Prop

/-- The local variable `transposed` (`discrete_boundary_operator.cpp:62, 99`). -/
def transposedMode (trans : TranspositionMode) : Bool :=
  decide (trans = .TRANSPOSE ∨ trans = .CONJUGATE_TRANSPOSE)

section base
variable {K : Type}

/-- Column `j` of a matrix. -/
def col {α : Type} (M : Mx α) (j : Nat) : Vec α := ⟨M.rows, fun i => M.e i j⟩

/-- `result.col(j) = v` (an assertion failure if the lengths differ). -/
def setCol {α : Type} (M : Mx α) (j : Nat) (v : Vec α) : Option (Mx α) :=
  if v.len = M.rows then some { M with e := fun i k => if k = j then v.e i else M.e i k } else none

/-- The loop of the default `asMatrix` (`discrete_boundary_operator.cpp:44-53`): `unit` is modified in
place; `activeCol` is uninitialised (`g`) when `applyBuiltInImpl` is called with `beta = 0`. -/
inductive AsMatrixLoop [Zero K] [One K] (op : DOp K) :
    List Nat → Vec K → Mx (Option K) → Option (Mx (Option K)) → Prop where
  | done (unit : Vec K) (result : Mx (Option K)) : AsMatrixLoop op [] unit result (some result)
  | fails (i : Nat) (is : List Nat) (unit unit' : Vec K) (result : Mx (Option K)) (g : Nat → Option K)
      (hu : unit' = ⟨unit.len, Function.update
        (if i > 0 then Function.update unit.e (i - 1) 0 else unit.e) i 1⟩)
      (h : op.run .NO_TRANSPOSE unit' ⟨result.rows, g⟩ 1 0 none) :
      AsMatrixLoop op (i :: is) unit result none
  | mismatch (i : Nat) (is : List Nat) (unit unit' : Vec K) (result : Mx (Option K)) (g : Nat → Option K)
      (activeCol : Vec (Option K))
      (hu : unit' = ⟨unit.len, Function.update
        (if i > 0 then Function.update unit.e (i - 1) 0 else unit.e) i 1⟩)
      (h : op.run .NO_TRANSPOSE unit' ⟨result.rows, g⟩ 1 0 (some activeCol))
      (hc : setCol result i activeCol = none) : AsMatrixLoop op (i :: is) unit result none
  | step (i : Nat) (is : List Nat) (unit unit' : Vec K) (result result' : Mx (Option K)) (g : Nat → Option K)
      (activeCol : Vec (Option K)) (out : Option (Mx (Option K)))
      (hu : unit' = ⟨unit.len, Function.update
        (if i > 0 then Function.update unit.e (i - 1) 0 else unit.e) i 1⟩)
      (h : op.run .NO_TRANSPOSE unit' ⟨result.rows, g⟩ 1 0 (some activeCol))
      (hc : setCol result i activeCol = some result')
      (rest : AsMatrixLoop op is unit' result' out) : AsMatrixLoop op (i :: is) unit result out

/-- `DiscreteBoundaryOperator::asMatrix` (`discrete_boundary_operator.cpp:33-56`). -/
def AsMatrixRun [Zero K] [One K] (op : DOp K) (out : Option (Mx (Option K))) : Prop :=
  AsMatrixLoop op (List.range op.columnCount) ⟨op.columnCount, fun _ => 0⟩
    ⟨op.rowCount, op.columnCount, fun _ _ => some 0⟩ out

/-- Outcome of `apply` on matrices. -/
inductive Outcome (K : Type) where
  | invalidArgument
  | undefined
  | result (Y : Mx (Option K))

/-- The loop over the columns in `apply` (`discrete_boundary_operator.cpp:75-83`): each column of
`y_inout` is passed by reference. -/
inductive ApplyLoop (op : DOp K) (trans : TranspositionMode) (X : Mx K) (alpha beta : K) :
    List Nat → Mx (Option K) → Outcome K → Prop where
  | done (Y : Mx (Option K)) : ApplyLoop op trans X alpha beta [] Y (.result Y)
  | fails (i : Nat) (is : List Nat) (Y : Mx (Option K)) (h : op.run trans (col X i) (col Y i) alpha beta none) :
      ApplyLoop op trans X alpha beta (i :: is) Y .undefined
  | step (i : Nat) (is : List Nat) (Y : Mx (Option K)) (y : Vec (Option K)) (out : Outcome K)
      (h : op.run trans (col X i) (col Y i) alpha beta (some y))
      (rest : ApplyLoop op trans X alpha beta is { Y with e := fun r k => if k = i then y.e r else Y.e r k } out) :
      ApplyLoop op trans X alpha beta (i :: is) Y out

/-- `apply(trans, x_in, y_inout, alpha, beta)` on matrices (`discrete_boundary_operator.cpp:58-84`). -/
def ApplyRun (op : DOp K) (trans : TranspositionMode) (X : Mx K) (Y : Mx (Option K)) (alpha beta : K)
    (out : Outcome K) : Prop :=
  if X.rows ≠ (if transposedMode trans then op.rowCount else op.columnCount) then out = .invalidArgument
  else if Y.rows ≠ (if transposedMode trans then op.columnCount else op.rowCount) then out = .invalidArgument
  else if X.cols ≠ Y.cols then out = .invalidArgument
  else ApplyLoop op trans X alpha beta (List.range X.cols) Y out

/-- `apply(trans, x_in)` returning a new matrix (`discrete_boundary_operator.cpp:100-113`): the result
starts uninitialised and the previous function is called with `alpha = 1`, `beta = 0`. -/
def ApplyNewRun [Zero K] [One K] (op : DOp K) (trans : TranspositionMode) (X : Mx K) (out : Outcome K) : Prop :=
  ∃ g : Nat → Nat → Option K,
    ApplyRun op trans X ⟨if transposedMode trans then op.columnCount else op.rowCount, X.cols, g⟩ 1 0 out

end base

section dense
variable {K : Type} [CommRing K] [StarRing K] [DecidableEq K]

/-- `y_inout += alpha * A * x_in` (an assertion failure if the sizes do not fit). -/
def addMul (A : Mx K) (alpha : K) (x : Vec K) (y : Vec (Option K)) : Option (Vec (Option K)) :=
  if A.cols = x.len ∧ A.rows = y.len then
    some ⟨y.len, fun i => (y.e i).map (· + alpha * ∑ k ∈ Finset.range A.cols, A.e i k * x.e k)⟩
  else none

/-- `if (beta == 0) y.fill(0) else y *= beta` (`discrete_dense_boundary_operator.cpp:80-83`,
`discrete_sparse_boundary_operator.cpp:95-98, 152-155`). -/
def scaleBy (beta : K) (y : Vec (Option K)) : Vec (Option K) :=
  ⟨y.len, fun i => if beta = 0 then some 0 else (y.e i).map (beta * ·)⟩

/-- `DiscreteDenseBoundaryOperator::applyBuiltInImpl` (`discrete_dense_boundary_operator.cpp:75-105`). -/
def denseApply (m : Mx K) (trans : TranspositionMode) (x : Vec K) (y : Vec (Option K)) (alpha beta : K) :
    Option (Vec (Option K)) :=
  match trans with
  | .NO_TRANSPOSE => addMul m alpha x (scaleBy beta y)
  | .CONJUGATE => addMul m.conjugate alpha x (scaleBy beta y)
  | .TRANSPOSE => addMul m.transpose alpha x (scaleBy beta y)
  | .CONJUGATE_TRANSPOSE => addMul m.adjoint alpha x (scaleBy beta y)

/-- `DiscreteDenseBoundaryOperator` (`discrete_dense_boundary_operator.cpp:35-62`). -/
def denseOp (m : Mx K) : DOp K := ⟨m.rows, m.cols, fun t x y a b out => out = denseApply m t x y a b⟩

/-- `DiscreteDenseBoundaryOperator::asMatrix` (`discrete_dense_boundary_operator.cpp:44-47`). -/
def denseAsMatrix (m : Mx K) : Mx K := m

end dense

section sparse

/-- `reallyApplyBuiltInImpl<double>` (`discrete_sparse_boundary_operator.cpp:44-67`).  The real numbers
stand for `double`; a sparse matrix is given by its entries. -/
noncomputable def sparseRealApply (mat : Mx ℝ) (trans : TranspositionMode) (x : Vec ℝ) (y : Vec (Option ℝ))
    (alpha beta : ℝ) : Option (Vec (Option ℝ)) :=
  open Classical in
  let y : Vec (Option ℝ) := if beta = 0 then ⟨y.len, fun _ => some 0⟩ else y
  if transposedMode trans then
    if mat.rows = x.len ∧ mat.cols = y.len then
      some ⟨y.len, fun i => (y.e i).map fun v =>
        alpha * (∑ k ∈ Finset.range mat.rows, mat.e k i * x.e k) + beta * v⟩
    else none
  else
    if mat.cols = x.len ∧ mat.rows = y.len then
      some ⟨y.len, fun i => (y.e i).map fun v =>
        alpha * (∑ k ∈ Finset.range mat.cols, mat.e i k * x.e k) + beta * v⟩
    else none

/-- `reallyApplyBuiltInImpl<std::complex<double>>` (`discrete_sparse_boundary_operator.cpp:144-203`):
four real products on the real and imaginary parts. -/
noncomputable def sparseComplexApply (mat : Mx ℝ) (trans : TranspositionMode) (x : Vec ℂ) (y : Vec (Option ℂ))
    (alpha beta : ℂ) : Option (Vec (Option ℂ)) :=
  open Classical in
  let y := scaleBy beta y
  let xReal : Vec ℝ := ⟨x.len, fun i => (x.e i).re⟩
  let xImag : Vec ℝ := ⟨x.len, fun i => (x.e i).im⟩
  let yReal : Vec (Option ℝ) := ⟨y.len, fun i => (y.e i).map Complex.re⟩
  let yImag : Vec (Option ℝ) := ⟨y.len, fun i => (y.e i).map Complex.im⟩
  do
    let yReal ← sparseRealApply mat trans xReal yReal alpha.re 1
    let yReal ← sparseRealApply mat trans xImag yReal (-alpha.im) 1
    let yImag ← sparseRealApply mat trans xReal yImag alpha.im 1
    let yImag ← sparseRealApply mat trans xImag yImag alpha.re 1
    return ⟨y.len, fun i => (yReal.e i).bind fun r => (yImag.e i).map fun s => ⟨r, s⟩⟩

/-- `isTransposed`: `m_trans & (TRANSPOSE | CONJUGATE_TRANSPOSE)`
(`discrete_sparse_boundary_operator.cpp:269-272`). -/
def isTransposed (mode : TranspositionMode) : Bool :=
  mode.value &&& (TranspositionMode.TRANSPOSE.value ||| TranspositionMode.CONJUGATE_TRANSPOSE.value) != 0

/-- The `switch` of `applyBuiltInImpl` (`discrete_sparse_boundary_operator.cpp:279-296`). -/
def realTrans (mode trans : TranspositionMode) : TranspositionMode :=
  if isTransposed mode then
    match trans with
    | .NO_TRANSPOSE => .TRANSPOSE
    | .TRANSPOSE => .NO_TRANSPOSE
    | .CONJUGATE => .CONJUGATE_TRANSPOSE
    | .CONJUGATE_TRANSPOSE => .CONJUGATE
  else trans

/-- `DiscreteSparseBoundaryOperator<double>` built from `mat` and mode `mode`
(`discrete_sparse_boundary_operator.cpp:207-241, 274-299`). -/
noncomputable def sparseOpReal (mat : Mx ℝ) (mode : TranspositionMode) : DOp ℝ :=
  ⟨if isTransposed mode then mat.cols else mat.rows, if isTransposed mode then mat.rows else mat.cols,
    fun t x y a b out => out = sparseRealApply mat (realTrans mode t) x y a b⟩

/-- `DiscreteSparseBoundaryOperator<std::complex<double>>`
(`discrete_sparse_boundary_operator.cpp:207-241, 274-299`). -/
noncomputable def sparseOpComplex (mat : Mx ℝ) (mode : TranspositionMode) : DOp ℂ :=
  ⟨if isTransposed mode then mat.cols else mat.rows, if isTransposed mode then mat.rows else mat.cols,
    fun t x y a b out => out = sparseComplexApply mat (realTrans mode t) x y a b⟩

/-- `DiscreteSparseBoundaryOperator::asMatrix` (`discrete_sparse_boundary_operator.cpp:222-230`); `cast`
converts the entries to `ValueType`. -/
def sparseAsMatrix {K : Type} (cast : ℝ → K) (mat : Mx ℝ) (mode : TranspositionMode) : Mx K :=
  if isTransposed mode then ⟨mat.cols, mat.rows, fun i j => cast (mat.e j i)⟩
  else ⟨mat.rows, mat.cols, fun i j => cast (mat.e i j)⟩

end sparse

section hmat
variable {G K : Type} [CommRing K] [StarRing K] [DecidableEq K]

/-- The translation of modes in `DiscreteHMatBoundaryOperator::applyBuiltInImpl`
(`discrete_hmat_boundary_operator.cpp:71-79`). -/
def hmatTrans (trans : TranspositionMode) : TransposeMode :=
  if trans = .NO_TRANSPOSE then .NOTRANS
  else if trans = .TRANSPOSE then .TRANS
  else if trans = .CONJUGATE then .CONJ
  else .CONJTRANS

/-- A vector as a matrix with one column (`Eigen::Ref<Matrix<ValueType>> x_inMat = x_in`). -/
def Vec.toMx {α : Type} (v : Vec α) : Mx α := ⟨v.len, 1, fun i _ => v.e i⟩

/-- `DiscreteHMatBoundaryOperator` on a single process (`discrete_hmat_boundary_operator.cpp:38-86`);
`rows`, `columns` are those of the H-matrix.  What happens when sizes do not fit is not modelled (there
is then no outcome). -/
def hmatOp (h : HMatrix G K) (rows columns : Nat) : DOp K :=
  ⟨rows, columns, fun t x y a b out => ∃ Y' : Mx (Option K),
    HMatrix.Run [h] (hmatTrans t) a b x.toMx [y.toMx] Y' ∧ out = some ⟨Y'.rows, fun i => Y'.e i 0⟩⟩

end hmat
end Verif.DiscreteOp
