import Verif.Model.Compressor
import Mathlib.Data.Rat.Floor
/-
Model of the inspection interface of H-matrices (python/bempp/api/hmat/hmatrix_interface.py,
cython/bempp/core/hmat/*.pyx) and of the statistics of lib/hmat/hmatrix_impl.hpp.
-/
namespace Verif.HMat
open NTree

mutual
/-- `iterate_leafs(node)` of `BlockClusterTree.leaf_nodes`
(`cython/bempp/core/hmat/block_cluster_tree.pyx:170-187`): depth first; at an inner node
`node.children` asks for `child(0)`, ..., `child(3)` (lines 40-45).  A node without the child asked for
would be a null pointer, on which `is_leaf` is undefined behaviour (`none`). -/
def iterateLeafs {α : Type} : NTree α → Option (List (NTree α))
  | .node d [] => some [.node d []]
  | .node _ (c :: cs) => if (c :: cs).length = 4 then iterateLeafsL (c :: cs) else none
/-- The loop `for child in node.children`. -/
def iterateLeafsL {α : Type} : List (NTree α) → Option (List (NTree α))
  | [] => some []
  | c :: cs => do
    let a ← iterateLeafs c
    let b ← iterateLeafsL cs
    pure (a ++ b)
end

/-- `node.row_cluster_range` (`block_cluster_tree.pyx:47-53`). -/
def BlockData.rowRange {G : Type} (b : BlockData G) : Nat × Nat := (b.row.data.lo, b.row.data.hi)
/-- `node.column_cluster_range` (`block_cluster_tree.pyx:55-61`). -/
def BlockData.columnRange {G : Type} (b : BlockData G) : Nat × Nat := (b.col.data.lo, b.col.data.hi)
/-- `node.shape` (`block_cluster_tree.pyx:63-68`). -/
def BlockData.shape {G : Type} (b : BlockData G) : Nat × Nat :=
  (b.rowRange.2 - b.rowRange.1, b.columnRange.2 - b.columnRange.1)

/-- `rank()` of a block: number of columns of `A` for low rank (`hmatrix_low_rank_data_impl.hpp:48-51`).
(For a dense block `rank()` is its number of columns and not used below.) -/
def HData.rank {K : Type} : HData K → Nat
  | .dense A => A.cols
  | .lowRank A _ => A.cols

/-- `memSizeKb()` of a block (`hmatrix_dense_data_impl.hpp:76-79`,
`hmatrix_low_rank_data_impl.hpp:73-78`); `bytes` is `sizeof(ValueType)`.  The quotient by `1024.0` is
exact in floating point. -/
def HData.memSizeKb {K : Type} (bytes : Nat) : HData K → ℚ
  | .dense A => (bytes * A.rows * A.cols : ℕ) / 1024
  | .lowRank A B => (bytes * (A.rows + B.cols) * A.cols : ℕ) / 1024

/-- Conversion of a `double` to `int`: the fraction is discarded. -/
def truncToInt (q : ℚ) : ℤ := if 0 ≤ q then ⌊q⌋ else ⌈q⌉

namespace HMatrix
variable {G K : Type}

/-- `data_block(op, node)` (`hmatrix_interface.pyx:110-139`, `hmatrix_impl.hpp:153-158`): `none` is
the `ValueError` into which every exception is turned. -/
def dataBlock (h : HMatrix G K) (node : NTree (BlockData G)) : Option (HData K) := h.dataAt node.data

/-- `number_of_blocks` (`hmatrix_impl.hpp:64-67`). -/
def numberOfBlocks (h : HMatrix G K) : Nat := h.numLowRank + h.numDense

/-- The statement `m_memSizeKb += elem.second->memSizeKb()` of the statistics loop
(`hmatrix_impl.hpp:126-134`), where `m_memSizeKb` is an `int` (`hmatrix.hpp:88`), for the entries of the
map in the order `order` in which the hash map happens to enumerate its keys. -/
def memLoop (bytes : Nat) (data : Nat → Option (HData K)) (order : List Nat) (m0 : ℤ) : ℤ :=
  order.foldl (fun m k =>
    match data k with
    | none => m
    | some d => truncToInt ((m : ℚ) + d.memSizeKb bytes)) m0

/-- `mem_size(op)` of an operator that was initialised once: `n` is a possible value, for some
enumeration of the stored blocks. -/
def MemSize (bytes : Nat) (h : HMatrix G K) (n : ℤ) : Prop :=
  ∃ order : List Nat, order.Perm ((List.range h.tree.leafNodes.length).filter fun k => (h.data k).isSome) ∧
    n = memLoop bytes h.data order 0

end HMatrix

/-- `compression_rate` (`hmatrix_interface.py:77-84`): `mem` is the value of `mem_size`, `isFloat64` says
whether `dtype == 'float64'`. -/
def compressionRate (mem : ℤ) (isFloat64 : Bool) (rows cols : Nat) : ℚ :=
  mem / ((if isFloat64 then 8 else 16) * (rows * cols / 1024))

end Verif.HMat
