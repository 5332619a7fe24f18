import Verif.Model.MatData
import Verif.Model.BlockClusterTree
/-
Model of `hmat::HMatrix<ValueType,2>` (lib/hmat/hmatrix.hpp, hmatrix_impl.hpp).
-/
namespace Verif.HMat

/-- The loop `for (i = 0; i < mat.rows(); ++i) for (j ...) out(map(i), j) = mat(i, j)` of
`permuteMatToHMatDofs` and `permuteMatToOriginalDofs` (`hmatrix_impl.hpp:160-204`).  `out` starts as
an uninitialised Eigen matrix: `garbage` is its arbitrary contents.  `map i` is a vector access
(`dof_permutation_impl.hpp:14-24`); outside the vector it is undefined behaviour, the outcome `none`. -/
def permuteRows {α : Type} (map : List Nat) (mat : Mx α) (garbage : Nat → Nat → α) : Option (Mx α) :=
  (List.range mat.rows).foldlM (fun (out : Mx α) i => do
    let p ← map[i]?
    pure { out with e := fun r j => if r = p ∧ j < mat.cols then mat.e i j else out.e r j })
    ⟨mat.rows, mat.cols, garbage⟩

/-- `enum RowColSelector { ROW, COL }` (`common.hpp:20`). -/
inductive RowColSelector where
  | ROW | COL
deriving DecidableEq, Repr

/-- The state of an `HMatrix` object on one MPI process (`hmatrix.hpp:83-93`).
The block cluster tree is immutable; a leaf is identified (in C++ by its address) by its position in
`leafNodes()`.  `data` models `m_hMatrixData` (a map from leaves to blocks), `myLeafs` models
`m_myLeafs`.  `m_memSizeKb` is not modelled. -/
structure HMatrix (G K : Type) where
  tree : NTree (BlockData G)
  rowPerm : DofPermutation
  colPerm : DofPermutation
  nproc : Nat
  rank : Nat
  data : Nat → Option (HData K) := fun _ => none
  myLeafs : List Nat := []
  numDense : Nat := 0
  numLowRank : Nat := 0

namespace HMatrix
variable {G K : Type}

/-- The constructor that does not initialise (`hmatrix_impl.hpp:20-28`). -/
def new (tree : NTree (BlockData G)) (rowPerm colPerm : DofPermutation) (nproc rank : Nat) :
    HMatrix G K := { tree, rowPerm, colPerm, nproc, rank }

/-- `HMatrix::reset` (`hmatrix_impl.hpp:138-140`): only the blocks are cleared. -/
def reset (h : HMatrix G K) : HMatrix G K := { h with data := fun _ => none }

/-- `isInitialized` (`hmatrix_impl.hpp:142-145`). -/
def isInitialized (h : HMatrix G K) : Bool :=
  (List.range h.tree.leafNodes.length).any fun k => (h.data k).isSome

/-- The loop `for (index = m_rank; index < leafNodes.size(); index += m_nproc)`
(`hmatrix_impl.hpp:109-110`): the positions pushed.  (MPI guarantees `nproc > 0`; with `nproc = 0` the
C++ loop would not terminate, here it is cut off.) -/
def roundRobin (index nleafs nproc : Nat) : List Nat :=
  if _h : index < nleafs ∧ 0 < nproc then index :: roundRobin (index + nproc) nleafs nproc else []
termination_by nleafs - index

/-- The parallel loop of `initialize` (`hmatrix_impl.hpp:114-122`): for each entry of `m_myLeafs` the
compressed block of that leaf is stored in the map.  As equal entries write equal values, the order
does not matter. -/
def storeBlocks (leafs : List (NTree (BlockData G))) (compress : BlockData G → HData K)
    (mine : List Nat) (m : Nat → Option (HData K)) : Nat → Option (HData K) :=
  mine.foldl (fun (m : Nat → Option (HData K)) k =>
    match leafs[k]? with
    | some b => Function.update m k (some (compress b.data))
    | none => m) m

/-- `HMatrix::initialize(compressor)` (`hmatrix_impl.hpp:73-136`).  `compress` models
`HMatrixCompressor::compressBlock` as a function of the block.  The statistics loop runs over the map and adds to the counters without resetting them. -/
def init (compress : BlockData G → HData K) (h : HMatrix G K) : HMatrix G K :=
  let h := h.reset
  let leafs := h.tree.leafNodes
  let mine := h.myLeafs ++ roundRobin h.rank leafs.length h.nproc
  let data := storeBlocks leafs compress mine h.data
  { h with
    myLeafs := mine
    data := data
    numDense := h.numDense +
      (List.range leafs.length).countP (fun k => (data k).any (fun d => d.isDense))
    numLowRank := h.numLowRank +
      (List.range leafs.length).countP (fun k => (data k).any (fun d => !d.isDense)) }

/-- `permuteMatToHMatDofs` (`hmatrix_impl.hpp:160-181`). -/
def permuteMatToHMatDofs {α : Type} (h : HMatrix G K) (mat : Mx α) (sel : RowColSelector)
    (garbage : Nat → Nat → α) : Option (Mx α) :=
  permuteRows (match sel with | .ROW => h.rowPerm.o2h | .COL => h.colPerm.o2h) mat garbage

/-- `permuteMatToOriginalDofs` (`hmatrix_impl.hpp:183-204`). -/
def permuteMatToOriginalDofs {α : Type} (h : HMatrix G K) (mat : Mx α) (sel : RowColSelector)
    (garbage : Nat → Nat → α) : Option (Mx α) :=
  permuteRows (match sel with | .ROW => h.rowPerm.h2o | .COL => h.colPerm.h2o) mat garbage

section apply
variable [CommRing K] [StarRing K] [DecidableEq K]

/-- One critical section of the parallel loop of `apply`: the row and the values added to it
(`hmatrix_impl.hpp:259-263, 272-276`). -/
structure RowUpdate (K : Type) where
  row : Nat
  val : Nat → K

/-- The body of the parallel loop for one leaf (`hmatrix_impl.hpp:246-277`): the block is applied to
the slice of `xPermuted` with `alpha = beta = 1` on a zero result, which is then added row by row. -/
def leafUpdates (trans : TransposeMode) (b : BlockData G) (d : HData K) (xPermuted : Mx K) :
    List (RowUpdate K) :=
  let r0 := b.row.data.lo
  let r1 := b.row.data.hi
  let c0 := b.col.data.lo
  let c1 := b.col.data.hi
  let cols := xPermuted.cols
  if trans = .NOTRANS ∨ trans = .CONJ then
    let x := xPermuted.block c0 0 (c1 - c0) cols
    let result := d.apply x (Mx.zero (r1 - r0) cols) trans 1 1
    (List.range' r0 (r1 - r0)).map fun i => ⟨i, fun j => result.e (i - r0) j⟩
  else
    let x := xPermuted.block r0 0 (r1 - r0) cols
    let result := d.apply x (Mx.zero (c1 - c0) cols) trans 1 1
    (List.range' c0 (c1 - c0)).map fun i => ⟨i, fun j => result.e (i - c0) j⟩

/-- The tasks of the parallel loop: for each leaf of this process its row updates.
`m_hMatrixData.at(leaf)` throws `std::out_of_range` if there is no block (`none`). -/
def tasks (h : HMatrix G K) (trans : TransposeMode) (xPermuted : Mx K) :
    Option (List (List (RowUpdate K))) :=
  h.myLeafs.mapM fun k => do
    let b ← h.tree.leafNodes[k]?
    let d ← h.data k
    pure (leafUpdates trans b.data d xPermuted)

/-- Contents of the output matrix: `none` stands for NaN / uninitialised contents, which propagate
through arithmetic. -/
abbrev Cell (K : Type) := Option K

/-- One locked row update `yPermuted(i, j) += result(i - r0, j)` for all `j`
(`hmatrix_impl.hpp:259-263`). -/
def rowAdd (y : Mx (Cell K)) (u : RowUpdate K) : Mx (Cell K) :=
  { y with e := fun r j => if r = u.row ∧ j < y.cols then (y.e r j).map (· + u.val j) else y.e r j }

/-- `Interleaving ts l`: `l` is an interleaving of the lists `ts` (each list in its own order). -/
inductive Interleaving {α : Type} : List (List α) → List α → Prop where
  | done : Interleaving [] []
  | drop (ts₁ ts₂ : List (List α)) (l : List α) :
      Interleaving (ts₁ ++ ts₂) l → Interleaving (ts₁ ++ [] :: ts₂) l
  | step (ts₁ ts₂ : List (List α)) (x : α) (t : List α) (l : List α) :
      Interleaving (ts₁ ++ t :: ts₂) l → Interleaving (ts₁ ++ (x :: t) :: ts₂) (x :: l)

/-- `HMatrix::apply` on one process up to (not including) the all-reduce
(`hmatrix_impl.hpp:206-284`): `LocalRun h trans alpha beta X Y Y'` says that some schedule of the
parallel loop, and some contents of uninitialised memory, produce `Y'`.  `X`, `Y` are given in
original dof ordering. -/
def LocalRun (h : HMatrix G K) (trans : TransposeMode) (alpha beta : K) (X : Mx K)
    (Y Y' : Mx (Cell K)) : Prop :=
  let Y₁ : Mx (Cell K) :=
    if beta = 0 ∨ h.rank ≠ 0 then ⟨Y.rows, Y.cols, fun _ _ => some 0⟩
    else ⟨Y.rows, Y.cols, fun i j => (Y.e i j).map (beta * ·)⟩
  let plain := trans = .NOTRANS ∨ trans = .CONJ
  ∃ g₁ g₂ g₃ xP yP ts sched,
    h.permuteMatToHMatDofs X (if plain then .COL else .ROW) g₁ = some xP ∧
    h.permuteMatToHMatDofs Y₁ (if plain then .ROW else .COL) g₂ = some yP ∧
    h.tasks trans (xP.smul alpha) = some ts ∧
    Interleaving ts sched ∧
    h.permuteMatToOriginalDofs (sched.foldl rowAdd yP) (if plain then .ROW else .COL) g₃ = some Y'

/-- `MPI_Allreduce(..., MPI_SUM, ...)` over the processes' matrices (`hmatrix_impl.hpp:286-292`). -/
def allReduce (Ys : List (Mx (Cell K))) (rows cols : Nat) : Mx (Cell K) :=
  ⟨rows, cols, fun i j => Ys.foldl (fun acc Y => acc.bind fun a => (Y.e i j).map (a + ·)) (some 0)⟩

/-- `HMatrix::apply` on all processes: process `r` holds the object `hs[r]` and calls `apply` with its
own `Y`.  With a single process there is no all-reduce (`hmatrix_impl.hpp:286`). -/
def Run (hs : List (HMatrix G K)) (trans : TransposeMode) (alpha beta : K) (X : Mx K)
    (Ys : List (Mx (Cell K))) (Y' : Mx (Cell K)) : Prop :=
  ∃ Ls : List (Mx (Cell K)), Ls.length = hs.length ∧ Ys.length = hs.length ∧
    (∀ r (h₁ : r < hs.length) (h₂ : r < Ls.length) (h₃ : r < Ys.length),
      LocalRun hs[r] trans alpha beta X Ys[r] Ls[r]) ∧
    (if 1 < hs.length then ∃ L ∈ Ls, Y' = allReduce Ls L.rows L.cols else Ls = [Y'])

end apply
end HMatrix
end Verif.HMat
