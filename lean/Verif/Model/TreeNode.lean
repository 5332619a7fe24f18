/-
Model of `hmat::SimpleTreeNode<T,N>` (lib/hmat/simple_tree_node.hpp, simple_tree_node_impl.hpp).
-/
namespace Verif.HMat

/-- `SimpleTreeNode<T,N>` (`lib/hmat/simple_tree_node.hpp:14-55`).  `children` lists the non-null
entries of `m_children[0..N-1]` in index order: all functions below skip null children
(`simple_tree_node_impl.hpp:79-81, 105-107, 188-191`), so the null slots are dropped.  Parent links
are not modelled. -/
inductive NTree (α : Type) where
  | node (data : α) (children : List (NTree α))

namespace NTree
variable {α : Type}

/-- `SimpleTreeNode::data()` (`simple_tree_node_impl.hpp:48-52`). -/
def data : NTree α → α
  | node d _ => d

/-- The non-null children in index order (`simple_tree_node_impl.hpp:36-46`). -/
def children : NTree α → List (NTree α)
  | node _ cs => cs

/-- `SimpleTreeNode::isLeaf` (`simple_tree_node_impl.hpp:77-84`). -/
def isLeaf (t : NTree α) : Bool := t.children.isEmpty

mutual
/-- Number of nodes (only used to show that the loops terminate). -/
def count : NTree α → Nat
  | node _ cs => 1 + countL cs
/-- Number of nodes of a forest. -/
def countL : List (NTree α) → Nat
  | [] => 0
  | c :: cs => count c + countL cs
end

theorem countL_append (a b : List (NTree α)) : countL (a ++ b) = countL a + countL b := by
  induction a with
  | nil => simp [countL]
  | cons x a ih => simp [countL, ih]; omega

/-- The loop `while (!nodeQueue.empty())` of `SimpleTreeNode::leafNodes`
(`simple_tree_node_impl.hpp:98-108, 124-134`): `queue` is `nodeQueue` (front first), `acc` is
`leafVector`. -/
def leafLoop (queue acc : List (NTree α)) : List (NTree α) :=
  match queue with
  | [] => acc
  | current :: rest =>
    if current.isLeaf then leafLoop rest (acc ++ [current])
    else leafLoop (rest ++ current.children) acc
termination_by countL queue
decreasing_by
  · cases current; simp [countL, count]; omega
  · cases current; simp only [countL_append, countL, count, children]; omega

/-- `SimpleTreeNode::leafNodes` (`simple_tree_node_impl.hpp:86-136`). -/
def leafNodes (t : NTree α) : List (NTree α) := leafLoop [t] []

mutual
/-- `SimpleTreeNode::numberOfLeafs` (`simple_tree_node_impl.hpp:181-193`). -/
def numberOfLeafs : NTree α → Nat
  | node _ [] => 1
  | node _ (c :: cs) => numberOfLeafsL (c :: cs)
/-- The loop over the children in `numberOfLeafs` (lines 187-192). -/
def numberOfLeafsL : List (NTree α) → Nat
  | [] => 0
  | c :: cs => numberOfLeafs c + numberOfLeafsL cs
end

end NTree
end Verif.HMat
