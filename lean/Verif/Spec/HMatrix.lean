import Verif.Model.HMatrix
import Verif.Spec.MatData
import Verif.Spec.Block
/-
Vocabulary for statements about H-matrices.
-/
namespace Verif.HMat
open NTree

/-- Everything that determines the block structure of an H-matrix: two geometries with their cluster
trees and dof permutations, the admissibility function and the maximal block size. -/
structure HSetup (G : Type) where
  (geoR geoC : List Nat → G)
  (srtR srtC : Sorter G)
  (minR minC : Int)
  (rows cols : Nat)
  (admFun : NodeData G → NodeData G → Bool)
  (maxB : Int)
  (pR pC : DofPermutation)
  hR : dofPermutation geoR srtR minR rows = some pR
  hC : dofPermutation geoC srtC minC cols = some pC

namespace HSetup
variable {G K : Type}

/-- The block cluster tree. -/
def tree (s : HSetup G) : NTree (BlockData G) :=
  blockClusterTree s.admFun s.maxB (clusterTree s.geoR s.srtR s.minR s.rows)
    (clusterTree s.geoC s.srtC s.minC s.cols)

/-- The compressor returns blocks of the right size. -/
def CompressorFits (s : HSetup G) (compress : BlockData G → HData K) : Prop :=
  ∀ b ∈ leafNodes s.tree, (compress b.data).Shape b.data.row.size b.data.col.size

/-- `M` (in original dof numbering) is the matrix stored in the blocks: whenever the leaf block `b`
covers the H-matrix indices `I`, `J` of the dofs `i`, `j`, the entry of the block at `(I,J)`,
counted from the block's first row and column, is `M i j`. -/
def Represents [CommRing K] (s : HSetup G) (compress : BlockData G → HData K) (M : Nat → Nat → K) :
    Prop :=
  ∀ b ∈ leafNodes s.tree, ∀ i j I J, s.pR.o2h[i]? = some I → s.pC.o2h[j]? = some J →
    b.data.covers I J = true →
    M i j = (compress b.data).entry (I - b.data.row.data.lo) (J - b.data.col.data.lo)

/-- The initialised H-matrix object on process `r` of `p`. -/
def process (s : HSetup G) (compress : BlockData G → HData K) (p r : Nat) : HMatrix G K :=
  (HMatrix.new s.tree s.pR s.pC p r).init compress

/-- Number of rows of `op(M)`. -/
def outRows (s : HSetup G) (t : TransposeMode) : Nat := if t.keepsRows then s.rows else s.cols
/-- Number of columns of `op(M)`. -/
def inRows (s : HSetup G) (t : TransposeMode) : Nat := if t.keepsRows then s.cols else s.rows

end HSetup

/-- The matrix contains only numbers (no NaN, nothing uninitialised) within its dimensions. -/
def Mx.Defined {α : Type} (Y : Mx (Option α)) : Prop :=
  ∀ i j, i < Y.rows → j < Y.cols → (Y.e i j).isSome = true

end Verif.HMat
