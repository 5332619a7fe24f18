import Verif.Model.Space
import Verif.Model.HMatrix
/-
Model of the dense assembly of weak forms and potential operators and of the assembly of local
operators (lib/assembly/dense_global_assembler.cpp, dense_global_block_assembler.cpp,
elementary_local_operator.cpp).

Simplifications.  One ring `K` with conjugation `star` stands for `BasisFunctionType` and `ResultType`
(a real basis type is embedded).  Arithmetic is exact.  The local assembler is a pure function `form`:
`form e e' a b` is the entry `(a, b)` of the local matrix of test element `e` and trial element `e'`.
Writes outside a matrix are undefined behaviour, the outcome `none`.
-/
namespace Verif.Assembly
open Verif.Space Verif.HMat

/-- A space as seen by the assemblers: the dof maps with the weights that `getGlobalDofs` reports for
the local dofs of each element, and the weights that `global2localDofs` reports for the local dofs of each
global dof (`lib/space/space.hpp`, `getGlobalDofs`, `global2localDofs`). -/
structure ASpace (K : Type) where
  maps : DofMaps
  elementWeights : List (List K)
  dofWeights : List (List K)

namespace ASpace
variable {K : Type}

/-- `view.entityCount(0)`. -/
def elementCount (sp : ASpace K) : Nat := sp.maps.local2global.length

/-- Global dofs of an element, the first output of `getGlobalDofs`. -/
def gdofs (sp : ASpace K) (e : Nat) : List Int := sp.maps.getGlobalDofs e

/-- `localDofWeights[e][a]` as returned by `getGlobalDofs`. -/
def weight [Zero K] (sp : ASpace K) (e a : Nat) : K := (sp.elementWeights.getD e []).getD a 0

/-- `globalDofCount()`. -/
def globalDofCount (sp : ASpace K) : Nat := sp.maps.globalDofCount

end ASpace

section
variable {K : Type} [CommRing K]

/-- `m_result(i, j) += x`. -/
def addAt (m : Mx K) (u : Int × Int × K) : Option (Mx K) :=
  if 0 ≤ u.1 ∧ u.1 < m.rows ∧ 0 ≤ u.2.1 ∧ u.2.1 < m.cols then
    some { m with e := fun i j => if i = u.1.toNat ∧ j = u.2.1.toNat then m.e i j + u.2.2 else m.e i j }
  else none

/-- A sequence of updates. -/
def addAll (m : Mx K) (us : List (Int × Int × K)) : Option (Mx K) := us.foldlM addAt m

/-- The element contributes to at least one global dof (`dense_global_assembler.cpp:84-95, 284-296`). -/
def contributes (ds : List Int) : Bool := ds.any fun d => decide (0 ≤ d)

/-- The loops over local trial and test dofs of one pair of elements
(`dense_global_assembler.cpp:109-126`). -/
def pairUpdates (testDofs trialDofs : List Int) (f : Nat → Nat → K) : List (Int × Int × K) :=
  trialDofs.zipIdx.flatMap fun q =>
    if q.1 < 0 then [] else
      testDofs.zipIdx.flatMap fun p => if p.1 < 0 then [] else [(p.1, q.1, f p.2 q.2)]

variable [StarRing K]

/-- `testIndices` (`dense_global_assembler.cpp:284-296`). -/
def testIndices (T : ASpace K) : List Nat :=
  (List.range T.elementCount).filter fun e => contributes (T.gdofs e)

/-- The body of the parallel loop for one trial element (`dense_global_assembler.cpp:80-129`); all its
updates are made under one lock. -/
def trialUpdates (T U : ASpace K) (form : Nat → Nat → Nat → Nat → K) (t : Nat) : List (Int × Int × K) :=
  if contributes (U.gdofs t) then
    (testIndices T).flatMap fun e =>
      pairUpdates (T.gdofs e) (U.gdofs t) fun a b => star (T.weight e a) * U.weight t b * form e t a b
  else []

/-- The critical sections of the trial elements, executed in the order `sched`. -/
def assembleInOrder (T U : ASpace K) (form : Nat → Nat → Nat → Nat → K) (sched : List Nat) :
    Option (Mx K) :=
  sched.foldlM (fun (m : Mx K) t => addAll m (trialUpdates T U form t))
    (Mx.zero T.globalDofCount U.globalDofCount)

/-- `DenseGlobalAssembler::assembleDetachedWeakForm` (`dense_global_assembler.cpp:262-343`):
`tbb::parallel_for` cuts the range of trial elements into consecutive chunks, which run concurrently;
`out` is a possible outcome. -/
def DenseRun (T U : ASpace K) (form : Nat → Nat → Nat → Nat → K) (out : Option (Mx K)) : Prop :=
  ∃ (chunks : List (List Nat)) (sched : List Nat), chunks.flatten = List.range U.elementCount ∧
    HMatrix.Interleaving chunks sched ∧ out = assembleInOrder T U form sched

/-- The body of the parallel loop of the potential assembly for one trial element
(`dense_global_assembler.cpp:165-213`); `form p t c b` is entry `(c, b)` of the local matrix of point `p`
and element `t`. -/
def potentialUpdates (points components : Nat) (U : ASpace K) (form : Nat → Nat → Nat → Nat → K)
    (t : Nat) : List (Int × Int × K) :=
  if contributes (U.gdofs t) then
    (U.gdofs t).zipIdx.flatMap fun q =>
      if q.1 < 0 then [] else
        (List.range points).flatMap fun p => (List.range components).map fun c =>
          (((p * components + c : Nat) : Int), q.1, U.weight t q.2 * form p t c q.2)
  else []

/-- `DenseGlobalAssembler::assemblePotentialOperator` (`dense_global_assembler.cpp:345-385`). -/
def PotentialRun (points components : Nat) (U : ASpace K) (form : Nat → Nat → Nat → Nat → K)
    (out : Option (Mx K)) : Prop :=
  ∃ (chunks : List (List Nat)) (sched : List Nat), chunks.flatten = List.range U.elementCount ∧
    HMatrix.Interleaving chunks sched ∧
    out = sched.foldlM (fun (m : Mx K) t => addAll m (potentialUpdates points components U form t))
      (Mx.zero (points * components) U.globalDofCount)

/-! ### Sub-blocks -/

/-- The keys of `indexMap` in order of insertion (`dense_global_block_assembler.cpp:149-179`). -/
def gatherElements (sp : ASpace K) (start stop : Nat) : List Nat :=
  (List.range' start (stop - start)).foldl (fun (keys : List Nat) g =>
    (sp.maps.globalToLocal g).foldl (fun (keys : List Nat) ld =>
      if ld.entityIndex ∈ keys then keys else keys ++ [ld.entityIndex]) keys) []

/-- `indexMap.at(e)`: global dofs outside the range are replaced by -1
(`dense_global_block_assembler.cpp:172-177`). -/
def maskedDofs (sp : ASpace K) (start stop : Nat) (e : Nat) : List Int :=
  (sp.gdofs e).map fun d : Int => if d < (start : Int) ∨ d ≥ (stop : Int) then -1 else d

/-- The body of the parallel loop for one trial element (`dense_global_block_assembler.cpp:87-126`);
`testOrder` is the iteration order of the `unordered_map` `testIndexMap`, which is the same for the
list `testIndices` passed to the local assembler (lines 216-218) and the loop over the map (line 103). -/
def blockUpdates (T U : ASpace K) (form : Nat → Nat → Nat → Nat → K) (r0 r1 c0 c1 : Nat)
    (testOrder : List Nat) (t : Nat) : List (Int × Int × K) :=
  testOrder.flatMap fun e =>
    (pairUpdates (maskedDofs T r0 r1 e) (maskedDofs U c0 c1 t) fun a b =>
      star (T.weight e a) * U.weight t b * form e t a b).map fun u => (u.1 - r0, u.2.1 - c0, u.2.2)

/-- Outcomes of `assembleDenseBlock`. -/
inductive BlockOutcome (K : Type) where
  /-- `std::runtime_error` -/
  | throws
  /-- undefined behaviour -/
  | undefined
  | result (m : Mx K)

/-- `assembleDenseBlock` (`dense_global_block_assembler.cpp:183-235`).  The iteration orders of the two
`unordered_map`s and the schedule are arbitrary: `testOrder`, `sched` are arbitrary permutations of the keys.
A range with `end < start` is not rejected, the matrix is then created with a negative size (line 202):
undefined. -/
def DenseBlockRun (T U : ASpace K) (form : Nat → Nat → Nat → Nat → K) (rowStart rowEnd colStart colEnd : Int)
    (out : BlockOutcome K) : Prop :=
  if colEnd > U.globalDofCount ∨ rowEnd > T.globalDofCount ∨ colStart < 0 ∨ rowStart < 0 then out = .throws
  else if rowEnd < rowStart ∨ colEnd < colStart then out = .undefined
  else ∃ testOrder sched : List Nat,
    testOrder.Perm (gatherElements T rowStart.toNat rowEnd.toNat) ∧
    sched.Perm (gatherElements U colStart.toNat colEnd.toNat) ∧
    out = match sched.foldlM (fun (m : Mx K) t => addAll m
        (blockUpdates T U form rowStart.toNat rowEnd.toNat colStart.toNat colEnd.toNat testOrder t))
        (Mx.zero (rowEnd - rowStart).toNat (colEnd - colStart).toNat) with
      | some m => .result m
      | none => .undefined

/-! ### Local operators -/

/-- `ElementaryLocalOperator::assembleWeakFormInDenseMode` (`elementary_local_operator.cpp:236-285`);
`form e a b` is entry `(a, b)` of the local matrix of element `e`.  Both spaces live on the same grid. -/
def localDense (T U : ASpace K) (form : Nat → Nat → Nat → K) : Option (Mx K) :=
  addAll (Mx.zero T.globalDofCount U.globalDofCount) ((List.range T.elementCount).flatMap fun e =>
    pairUpdates (T.gdofs e) (U.gdofs e) fun a b => star (T.weight e a) * U.weight e b * form e a b)

/-- The matrix built by Eigen's `setFromTriplets`: duplicates are added; entries outside the matrix are
undefined behaviour (`elementary_local_operator.cpp:342-349`). -/
def setFromTriplets (rows cols : Nat) (ts : List (Int × Int × K)) : Option (Mx K) :=
  addAll (Mx.zero rows cols) ts

/-- `ElementaryLocalOperator::assembleWeakFormInSparseMode` (`elementary_local_operator.cpp:287-357`).
`complexBasis`: `BasisFunctionType` is complex.  The local matrices are multiplied by the weights, converted
to `double` (for complex result types by taking real parts, `re`) and added up
(`generateTriplets`, lines 100-191).  `none` in the first component is the `runtime_error`. -/
def localSparse (complexBasis : Bool) (re : K → K) (T U : ASpace K) (form : Nat → Nat → Nat → K) :
    Except SpaceThrows (Option (Mx K)) :=
  if complexBasis then .error .runtimeError
  else .ok (setFromTriplets T.globalDofCount U.globalDofCount ((List.range T.elementCount).flatMap fun e =>
    pairUpdates (T.gdofs e) (U.gdofs e) fun a b =>
      re (form e a b * (star (T.weight e a) * U.weight e b))))

end
end Verif.Assembly
