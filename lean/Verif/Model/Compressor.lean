import Verif.Model.HMatrix
import Mathlib.Analysis.RCLike.Basic
/-
Model of the base class `HMatrixCompressor`, of the dense compressor and of the H-matrix norm
(lib/hmat/hmatrix_compressor_impl.hpp, hmatrix_dense_compressor_impl.hpp, hmatrix_impl.hpp:295-319).
-/
namespace Verif.HMat

/-- `HMatrixCompressor::compressBlock` (`hmatrix_compressor_impl.hpp:13-44`).  `dist` is the distance
of the bounding boxes of the two clusters, `impl` the virtual function `compressBlockImpl`, which
replaces `hMatrixData` by a new block.  The second component counts the calls of `compressBlockImpl`
(each of which evaluates matrix entries).  The final call (line 43) is unconditional. -/
def compressBlock {G K D : Type} [LE D] [DecidableLE D] [Zero K] (cutoff : D)
    (dist : BlockData G → D) (impl : BlockData G → HData K) (b : BlockData G) : HData K × Nat :=
  let first : HData K × Nat :=
    if dist b ≤ cutoff ∨ b.adm = false then (impl b, 1)
    else (.lowRank (Mx.zero (b.row.data.hi - b.row.data.lo) 0)
            (Mx.zero (b.col.data.hi - b.col.data.lo) 0), 0)
  (impl b, first.2 + 1)

/-- `HMatrixDenseCompressor::compressBlockImpl` (`hmatrix_dense_compressor_impl.hpp:16-34`).
`entry I J` is the entry `DataAccessor::computeMatrixBlock` delivers for the H-matrix indices
`I`, `J` (`data_accessor.hpp:13-17`). -/
def denseCompress {G K : Type} (entry : Nat → Nat → K) (b : BlockData G) : HData K :=
  .dense ⟨b.row.data.hi - b.row.data.lo, b.col.data.hi - b.col.data.lo,
    fun i j => entry (b.row.data.lo + i) (b.col.data.lo + j)⟩

/-- The ranges of a block.  They identify a node among the leaves (two different leaves never have
the same ranges, see `leaf_key_inj`); the C++ code identifies it by its address. -/
def BlockData.key {G : Type} (b : BlockData G) : Nat × Nat × Nat × Nat :=
  (b.row.data.lo, b.row.data.hi, b.col.data.lo, b.col.data.hi)

namespace HMatrix
variable {G K : Type}

/-- `m_hMatrixData.at(node)`: `none` is the exception `std::out_of_range`. -/
def dataAt (h : HMatrix G K) (b : BlockData G) : Option (HData K) :=
  ((List.range h.tree.leafNodes.length).find? fun k =>
    (h.tree.leafNodes[k]?.map fun l => l.data.key) == some b.key).bind h.data

section
variable [RCLike K]

/-- `HMatrixData::frobeniusNorm` of a leaf block: `std::sqrt(std::real(...))`
(`hmatrix_low_rank_data_impl.hpp:53-71`, `hmatrix_dense_data_impl.hpp:70-74`). -/
noncomputable def leafNorm (d : HData K) : ℝ := Real.sqrt (RCLike.re d.normSq)

mutual
/-- `HMatrix::frobeniusNorm_impl` (`hmatrix_impl.hpp:295-319`).  The four tasks write to different
variables, so their order does not matter.  (Inner nodes have four children.) -/
noncomputable def frobeniusNormImpl (h : HMatrix G K) : NTree (BlockData G) → Option ℝ
  | .node b [] => (h.dataAt b).map leafNorm
  | .node _ (c :: cs) => (frobeniusSquares h (c :: cs)).map Real.sqrt
/-- `res0 * res0 + res1 * res1 + ...` over the children (line 316). -/
noncomputable def frobeniusSquares (h : HMatrix G K) : List (NTree (BlockData G)) → Option ℝ
  | [] => some 0
  | c :: cs => (frobeniusNormImpl h c).bind fun r =>
      (frobeniusSquares h cs).map fun acc => r * r + acc
end

/-- `HMatrix::frobeniusNorm` (`hmatrix_impl.hpp:46-49`). -/
noncomputable def frobeniusNorm (h : HMatrix G K) : Option ℝ := frobeniusNormImpl h h.tree

end
end HMatrix
end Verif.HMat
