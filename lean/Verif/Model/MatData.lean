import Mathlib.Algebra.BigOperators.Group.Finset.Basic
import Mathlib.Algebra.Star.BigOperators
/-
Model of the leaf blocks of an H-matrix: dense blocks and low-rank blocks.
(lib/hmat/hmatrix_data.hpp, hmatrix_dense_data_impl.hpp, hmatrix_low_rank_data_impl.hpp)
-/
namespace Verif.HMat

/-- An Eigen matrix `Matrix<ValueType>`: dimensions and entries.  Entries outside the dimensions
have no meaning. -/
structure Mx (α : Type) where
  rows : Nat
  cols : Nat
  e : Nat → Nat → α

/-- `enum TransposeMode { NOTRANS, TRANS, CONJ, CONJTRANS }` (`lib/hmat/common.hpp:22`). -/
inductive TransposeMode where
  | NOTRANS | TRANS | CONJ | CONJTRANS
deriving DecidableEq, Repr

namespace Mx
variable {K : Type}

/-- `Matrix::Zero(r, c)`. -/
def zero [Zero K] (r c : Nat) : Mx K := ⟨r, c, fun _ _ => 0⟩

section
variable [CommSemiring K]
/-- Matrix product (Eigen `A * B`). -/
def mul (A B : Mx K) : Mx K := ⟨A.rows, B.cols, fun i j => ∑ k ∈ Finset.range A.cols, A.e i k * B.e k j⟩
/-- Scalar times matrix. -/
def smul (a : K) (A : Mx K) : Mx K := ⟨A.rows, A.cols, fun i j => a * A.e i j⟩
/-- Sum of two matrices of the same size. -/
def add (A B : Mx K) : Mx K := ⟨A.rows, A.cols, fun i j => A.e i j + B.e i j⟩
/-- `A.transpose()`. -/
def transpose (A : Mx K) : Mx K := ⟨A.cols, A.rows, fun i j => A.e j i⟩
end

section
variable [CommSemiring K] [StarRing K]
/-- `A.conjugate()`. -/
def conjugate (A : Mx K) : Mx K := ⟨A.rows, A.cols, fun i j => star (A.e i j)⟩
/-- `A.adjoint()`. -/
def adjoint (A : Mx K) : Mx K := ⟨A.cols, A.rows, fun i j => star (A.e j i)⟩
end
/-- `A.block(r0, c0, nr, nc)`. -/
def block (A : Mx K) (r0 c0 nr nc : Nat) : Mx K := ⟨nr, nc, fun i j => A.e (r0 + i) (c0 + j)⟩
end Mx

/-- `HMatrixDenseData` / `HMatrixLowRankData` (`hmatrix_dense_data.hpp`, `hmatrix_low_rank_data.hpp`). -/
inductive HData (K : Type) where
  | dense (A : Mx K)
  | lowRank (A B : Mx K)

section apply
variable {K : Type} [CommRing K] [StarRing K] [DecidableEq K]

/-- `HMatrixDenseData::apply` (`hmatrix_dense_data_impl.hpp:13-34`). -/
def denseApply (A X Y : Mx K) (trans : TransposeMode) (alpha beta : K) : Mx K :=
  let Y := if beta = 0 then Mx.zero Y.rows Y.cols else Y
  if alpha = 0 then Y.smul beta
  else match trans with
    | .NOTRANS => (((A.smul alpha).mul X).add (Y.smul beta))
    | .TRANS => ((A.transpose.smul alpha).mul X).add (Y.smul beta)
    | .CONJ => ((A.conjugate.smul alpha).mul X).add (Y.smul beta)
    | .CONJTRANS => ((A.adjoint.smul alpha).mul X).add (Y.smul beta)

/-- `HMatrixLowRankData::apply` (`hmatrix_low_rank_data_impl.hpp:92-112`); `rank()` is `m_A.cols()`
(line 48-51). -/
def lowRankApply (A B X Y : Mx K) (trans : TransposeMode) (alpha beta : K) : Mx K :=
  let Y := if beta = 0 then Mx.zero Y.rows Y.cols else Y
  if alpha = 0 ∨ A.cols = 0 then Y.smul beta
  else match trans with
    | .NOTRANS => ((A.smul alpha).mul (B.mul X)).add (Y.smul beta)
    | .TRANS => ((B.transpose.smul alpha).mul (A.transpose.mul X)).add (Y.smul beta)
    | .CONJ => ((A.conjugate.smul alpha).mul (B.conjugate.mul X)).add (Y.smul beta)
    | .CONJTRANS => ((B.adjoint.smul alpha).mul (A.adjoint.mul X)).add (Y.smul beta)

/-- The virtual call `HMatrixData::apply` (`hmatrix_data.hpp:16-18`). -/
def HData.apply (d : HData K) (X Y : Mx K) (trans : TransposeMode) (alpha beta : K) : Mx K :=
  match d with
  | .dense A => denseApply A X Y trans alpha beta
  | .lowRank A B => lowRankApply A B X Y trans alpha beta

end apply

/-- `rows()` of a block (`hmatrix_dense_data_impl.hpp:46-48`, `hmatrix_low_rank_data_impl.hpp:39-41`). -/
def HData.rows {K : Type} : HData K → Nat
  | .dense A => A.rows
  | .lowRank A _ => A.rows

/-- `cols()` of a block (`hmatrix_dense_data_impl.hpp:50-52`, `hmatrix_low_rank_data_impl.hpp:43-46`). -/
def HData.cols {K : Type} : HData K → Nat
  | .dense A => A.cols
  | .lowRank _ B => B.cols

/-- `type() == DENSE` (`hmatrix_dense_data_impl.hpp:58-62`, `hmatrix_low_rank_data_impl.hpp:80-84`). -/
def HData.isDense {K : Type} : HData K → Bool
  | .dense _ => true
  | .lowRank _ _ => false

/-- The number under the square root in `HMatrixDenseData::frobeniusNorm` (Eigen's `norm()`,
`hmatrix_dense_data_impl.hpp:70-74`): the sum of `|a|² = a * conj a`. -/
def denseNormSq {K : Type} [CommRing K] [StarRing K] (A : Mx K) : K :=
  ∑ i ∈ Finset.range A.rows, ∑ j ∈ Finset.range A.cols, star (A.e i j) * A.e i j

/-- The number under the square root in `HMatrixLowRankData::frobeniusNorm`
(`hmatrix_low_rank_data_impl.hpp:53-71`): the loop over the columns `b` of `B` accumulates
`b^H (A^H A) b`. -/
def lowRankNormSq {K : Type} [CommRing K] [StarRing K] (A B : Mx K) : K :=
  if A.cols = 0 then 0
  else
    let aHa := A.adjoint.mul A
    (List.range B.cols).foldl (fun result i =>
      let col : Mx K := B.block 0 i B.rows 1
      result + ((col.adjoint.mul aHa).mul col).e 0 0) 0

/-- `frobeniusNorm` squared of a leaf block. -/
def HData.normSq {K : Type} [CommRing K] [StarRing K] : HData K → K
  | .dense A => denseNormSq A
  | .lowRank A B => lowRankNormSq A B

end Verif.HMat
