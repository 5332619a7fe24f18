import Verif.Model.ClusterTree
/-
Small vocabulary used in the statements about cluster trees.
-/
namespace Verif.HMat.CTree
variable {G : Type}

/-- All nodes of the tree (each as the subtree hanging below it). -/
def subtrees : CTree G → List (CTree G)
  | .leaf d ix => [.leaf d ix]
  | .node d ix l r => .node d ix l r :: (subtrees l ++ subtrees r)

/-- The leaves from left to right. -/
def leaves : CTree G → List (CTree G)
  | .leaf d ix => [.leaf d ix]
  | .node _ _ l r => leaves l ++ leaves r

/-- Number of edges on the longest path from the root to a leaf. -/
def depth : CTree G → Nat
  | .leaf _ _ => 0
  | .node _ _ l r => max (depth l) (depth r) + 1

/-- The indices of the node's range, in order. -/
def rangeList (t : CTree G) : List Nat := List.range' t.data.lo (t.data.hi - t.data.lo)

end Verif.HMat.CTree
