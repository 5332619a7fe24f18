import Verif.Lemmas.TreeNode
/-
Property C09: enumeration of the leaves of a tree.
-/
namespace Verif.HMat
open NTree

/-- **C09** `leafNodes()` lists, level after level and from left to right within a level, the nodes
without children; so it is ordered by non-decreasing depth. -/
theorem C09_leafNodes_level_order {α : Type} (t : NTree α) :
    leafNodes t = (List.range t.levels).flatMap (fun d => (nodesAt d t).filter isLeaf) := by
  have := leafLoop_levels t.levels [t] [] (by simp [levelsL])
  simpa [leafNodes] using this

/-- **C09** `leafNodes()` contains every leaf exactly as often as it occurs in the tree (once per
position), nothing else, and `numberOfLeafs()` is its length. -/
theorem C09_leafNodes_complete {α : Type} (t : NTree α) :
    (leafNodes t).Perm (allLeaves t) ∧ (∀ s ∈ leafNodes t, s.isLeaf = true) ∧
    (leafNodes t).length = numberOfLeafs t := by
  have h := leafNodes_perm t
  refine ⟨h, fun s hs => allLeaves_isLeaf t s (h.mem_iff.mp hs), ?_⟩
  rw [h.length_eq, numberOfLeafs_eq]

/-- Example: an unbalanced tree; the depth-first order of its leaves (2, 3, 1) differs from the
order of `leafNodes` (1, 2, 3). -/
example : (leafNodes (node 0 [node 9 [node 2 [], node 3 []], node 1 []])).map data = [1, 2, 3] ∧
    (allLeaves (node 0 [node 9 [node 2 [], node 3 []], node 1 []])).map data = [2, 3, 1] := by
  simp [leafNodes, leafLoop, isLeaf, children, data, allLeaves, allLeavesL]

end Verif.HMat
