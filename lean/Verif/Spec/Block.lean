import Verif.Model.BlockClusterTree
/-
Vocabulary for blocks.
-/
namespace Verif.HMat
variable {G : Type}

/-- The block contains the matrix entry `(i,j)` (in H-matrix numbering). -/
def BlockData.covers (i j : Nat) (b : BlockData G) : Bool :=
  decide (b.row.data.lo ≤ i ∧ i < b.row.data.hi ∧ b.col.data.lo ≤ j ∧ j < b.col.data.hi)

/-- Range of the cluster `a` is contained in the range of the cluster `b`. -/
def CTree.Inside (a b : CTree G) : Prop := b.data.lo ≤ a.data.lo ∧ a.data.hi ≤ b.data.hi

end Verif.HMat
