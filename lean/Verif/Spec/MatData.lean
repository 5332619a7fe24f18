import Verif.Model.MatData
/-
Specification of matrix-vector products.
-/
namespace Verif.HMat
variable {K : Type}

/-- Entry `(i,j)` of the matrix a block stands for: the entry itself, or the entry of the product
`A B` of its factors. -/
def HData.entry [CommRing K] : HData K → Nat → Nat → K
  | .dense A, i, j => A.e i j
  | .lowRank A B, i, j => ∑ k ∈ Finset.range A.cols, A.e i k * B.e k j

/-- The block has `m` rows and `n` columns and its factors fit together. -/
def HData.Shape : HData K → Nat → Nat → Prop
  | .dense A, m, n => A.rows = m ∧ A.cols = n
  | .lowRank A B, m, n => A.rows = m ∧ B.cols = n ∧ B.rows = A.cols

/-- Entry `(i,j)` of `op(M)` for the four transposition modes. -/
def opEntry [Star K] (trans : TransposeMode) (M : Nat → Nat → K) (i j : Nat) : K :=
  match trans with
  | .NOTRANS => M i j
  | .TRANS => M j i
  | .CONJ => star (M i j)
  | .CONJTRANS => star (M j i)

/-- `op(M)` has the rows of `M` (rather than its columns). -/
def TransposeMode.keepsRows : TransposeMode → Bool
  | .NOTRANS => true
  | .CONJ => true
  | _ => false

end Verif.HMat
