import Verif.Model.TreeNode
/-
Vocabulary for general trees: the nodes at a given depth, and all leaves, defined by recursion on
the tree (not by the queue of the implementation).
-/
namespace Verif.HMat.NTree
variable {α : Type}

mutual
/-- All leaves, depth first. -/
def allLeaves : NTree α → List (NTree α)
  | node d [] => [node d []]
  | node _ (c :: cs) => allLeavesL (c :: cs)
/-- All leaves of a forest. -/
def allLeavesL : List (NTree α) → List (NTree α)
  | [] => []
  | c :: cs => allLeaves c ++ allLeavesL cs
end

/-- The nodes at distance `k` from the root, left to right. -/
def nodesAt : Nat → NTree α → List (NTree α)
  | 0, t => [t]
  | k + 1, t => t.children.flatMap (nodesAt k)

mutual
/-- Number of levels of the tree (1 for a single node). -/
def levels : NTree α → Nat
  | node _ cs => 1 + levelsL cs
/-- Largest number of levels in a forest. -/
def levelsL : List (NTree α) → Nat
  | [] => 0
  | c :: cs => max (levels c) (levelsL cs)
end

mutual
/-- All nodes of the tree. -/
def allNodes : NTree α → List (NTree α)
  | node d cs => node d cs :: allNodesL cs
/-- All nodes of a forest. -/
def allNodesL : List (NTree α) → List (NTree α)
  | [] => []
  | c :: cs => allNodes c ++ allNodesL cs
end

end Verif.HMat.NTree
