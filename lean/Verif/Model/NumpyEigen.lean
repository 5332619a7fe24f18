import Verif.Model.MatData
import Mathlib.Analysis.Complex.Basic
/-
Model of the conversions between NumPy arrays and Eigen matrices (cython/bempp/core/utils/eigen.pyx and `copy_buf_to_...` of
cython/bempp/core/utils/py_utils.hpp:60-92).  Entries are complex numbers; those of a `float64` array are real.  NumPy and Cython are
modelled as documented: `np.require`, its flag F_CONTIGUOUS, acquiring a typed memoryview, bounds checks.  The argument is an `ndarray`
(not `None`).  Addresses are counted in entries; misaligned strides only make `aligned` false.
-/
namespace Verif.NpEigen
open Verif.HMat

/-- The types of entries. -/
inductive DType where
  | float64 | complex128 | other
deriving DecidableEq, Repr

/-- A NumPy array: a view of some memory. -/
structure NdArray where
  dtype : DType
  shape : List Nat
  strides : List Int
  start : Int
  mem : Int → ℂ
  writeable : Bool
  aligned : Bool

/-- Address of an entry. -/
def address : List Int → List Nat → Int
  | s :: strides, i :: idx => s * (i : Int) + address strides idx
  | _, _ => 0

/-- `x[i, j, ...]`. -/
def NdArray.entry (x : NdArray) (idx : List Nat) : ℂ := x.mem (x.start + address x.strides idx)

/-- NumPy's flag F_CONTIGUOUS from the running product of the extents: extents of 1 do not count. -/
def fortranFrom : Int → List Nat → List Int → Bool
  | sd, n :: shape, s :: strides => (decide (n = 1) || decide (s = sd)) && fortranFrom (sd * (n : Int)) shape strides
  | _, _, _ => true

/-- The flag F_CONTIGUOUS; arrays without entries have it. -/
def NdArray.fortran (x : NdArray) : Bool := x.shape.contains 0 || fortranFrom 1 x.shape x.strides

/-- Conversion of an entry: from complex to real the imaginary part is discarded, with a warning. -/
def cast : DType → ℂ → ℂ
  | .float64, z => (z.re : ℂ)
  | _, z => z

/-- The strides of a new array in Fortran order. -/
def fortranStrides : Int → List Nat → List Int
  | _, [] => []
  | sd, n :: shape => sd :: fortranStrides (sd * (n : Int)) shape

/-- The index of the entry at position `p` of a new array in Fortran order. -/
def unravel : List Nat → Nat → List Nat
  | [], _ => []
  | n :: shape, p => p % n :: unravel shape (p / n)

/-- `np.require(x, dtype=target, requirements=['A','F'])`: the array itself if it meets the requirements, else a copy. -/
def require (target : DType) (x : NdArray) : NdArray :=
  if x.dtype = target ∧ x.fortran = true ∧ x.aligned = true then x
  else ⟨target, x.shape, fortranStrides 1 x.shape, 0, fun p => cast target (x.entry (unravel x.shape p.toNat)), true, true⟩

/-- What a conversion does. -/
inductive Res (α : Type) where
  | ok (a : α)
  | valueError
  | indexError
  | undefined

/-- `np_to_eigen_matrix_float64`, `np_to_eigen_matrix_complex128` (`eigen.pyx:7-13`) with `copy_buf_to_mat` (`py_utils.hpp:82-92`).
The memoryview wants two dimensions and a writeable array; `buf[0,0]` is checked; the extents and `j*m+i` are of type `int`. -/
def toMatrix (target : DType) (x : NdArray) : Res (Mx ℂ) :=
  let y := require target x
  match y.shape with
  | [m, n] =>
    if y.writeable = false then .valueError
    else if m = 0 ∨ n = 0 then .indexError
    else if m < 2 ^ 31 ∧ n < 2 ^ 31 ∧ m * n ≤ 2 ^ 31 then
      .ok ⟨m, n, fun i j => y.mem (y.start + ((j * m + i : Nat) : Int))⟩
    else .undefined
  | _ => .valueError

/-- A vector of given length. -/
structure EVec where
  len : Nat
  e : Nat → ℂ

/-- `np_to_eigen_vector_...`, `np_to_eigen_row_vector_...` (`eigen.pyx:15-29`) with `copy_buf_to_vec`, `copy_buf_to_row_vec`
(`py_utils.hpp:60-80`). -/
def toVector (target : DType) (x : NdArray) : Res EVec :=
  let y := require target x
  match y.shape with
  | [n] =>
    if y.writeable = false then .valueError
    else if n = 0 then .indexError
    else if n < 2 ^ 31 then .ok ⟨n, fun i => y.mem (y.start + (i : Int))⟩
    else .undefined
  | _ => .valueError

/-- The loops `for j in range(cols): for i in range(rows): res[i,j] = x.value(i,j)`. -/
def fillMatrix (x : Mx ℂ) (mem : Int → ℂ) : Int → ℂ :=
  (List.range x.cols).foldl (fun mem (j : Nat) => (List.range x.rows).foldl (fun mem (i : Nat) =>
    Function.update mem (address (fortranStrides 1 [x.rows, x.cols]) [i, j]) (x.e i j)) mem) mem

/-- `eigen_matrix_to_np_float64`, `eigen_matrix_to_np_complex128` (`eigen.pyx:31-61`); `mem` is what `np.empty` finds. -/
def fromMatrix (dtype : DType) (x : Mx ℂ) (mem : Int → ℂ) : NdArray :=
  ⟨dtype, [x.rows, x.cols], fortranStrides 1 [x.rows, x.cols], 0, fillMatrix x mem, true, true⟩

/-- `eigen_vector_to_np_...`, `eigen_row_vector_to_np_...` (`eigen.pyx:63-117`). -/
def fromVector (dtype : DType) (x : EVec) (mem : Int → ℂ) : NdArray :=
  ⟨dtype, [x.len], fortranStrides 1 [x.len], 0,
    (List.range x.len).foldl (fun mem (i : Nat) => Function.update mem (address (fortranStrides 1 [x.len]) [i]) (x.e i)) mem, true, true⟩

end Verif.NpEigen
