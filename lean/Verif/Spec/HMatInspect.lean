import Verif.Model.HMatInspect
import Verif.Spec.HMatrix
/-
What a user does with the inspection interface.
-/
namespace Verif.HMat
open NTree

/-- The script
```
D = zeros(shape)
for node in block_cluster_tree(op).leaf_nodes:
    block = data_block(op, node)
    D[r0:r1, c0:c1] = block.A   or   block.A.dot(block.B)
```
`none`: an exception is raised. -/
def reassemble {G K : Type} [CommRing K] (h : HMatrix G K) (D : Nat → Nat → K) :
    List (NTree (BlockData G)) → Option (Nat → Nat → K)
  | [] => some D
  | nd :: rest => do
    let d ← h.dataBlock nd
    reassemble h (fun I J =>
      if nd.data.rowRange.1 ≤ I ∧ I < nd.data.rowRange.2 ∧
        nd.data.columnRange.1 ≤ J ∧ J < nd.data.columnRange.2
      then d.entry (I - nd.data.rowRange.1) (J - nd.data.columnRange.1) else D I J) rest

/-- The number of matrix entries a block stores: those of the dense block, or those of both factors. -/
def HData.storedEntries {K : Type} : HData K → Nat
  | .dense A => A.rows * A.cols
  | .lowRank A B => A.rows * A.cols + B.rows * B.cols

/-- The memory of the stored blocks in kB. -/
def trueMemKb {G K : Type} (bytes : Nat) (h : HMatrix G K) : ℚ :=
  ((List.range h.tree.leafNodes.length).map fun k =>
    match h.data k with
    | none => 0
    | some d => (bytes * d.storedEntries : ℚ) / 1024).sum

end Verif.HMat
