import Verif.Model.Morton
import Mathlib.Logic.Function.Basic
/-
Model of the FMM octree (lib/fmm/octree_impl.hpp) and its interaction lists
(lib/fmm/interaction_list_impl.hpp).
-/
namespace Verif.Fmm

/-- The octree object.  `nodes k` is `m_Nodes[k]` (a set, given by a list of its members), `leafs n` is
`m_leafsToEntities[n]`. -/
structure Octree where
  levels : Nat
  nodes : Nat → List ULong
  leafs : ULong → List Nat

/-- `m_Nodes[k].insert(n)`. -/
def insertNode (nodes : Nat → List ULong) (k : Nat) (n : ULong) : Nat → List ULong :=
  Function.update nodes k (if n ∈ nodes k then nodes k else n :: nodes k)

/-- The loop `for (int level = m_levels; level >= 1; level--)` of the constructor
(`octree_impl.hpp:66-69`). -/
def markParents : (level : Nat) → (parent : ULong) → (nodes : Nat → List ULong) → Nat → List ULong
  | 0, _, nodes => nodes
  | level + 1, parent, nodes =>
    let parent := getParent parent
    markParents level parent (insertNode nodes level parent)

/-- The body of the loop over the elements (`octree_impl.hpp:45-78`) once the leaf `nodeIndex` that
contains the centroid is known. -/
def addElement (o : Octree) (entityIndex : Nat) (nodeIndex : ULong) : Octree :=
  let nodes :=
    if nodeIndex ∈ o.nodes (o.levels - 1) then o.nodes
    else markParents o.levels nodeIndex (insertNode o.nodes (o.levels - 1) nodeIndex)
  { o with
    nodes := nodes
    leafs := Function.update o.leafs nodeIndex (o.leafs nodeIndex ++ [entityIndex]) }

/-- What the constructor can do: return an octree, access `m_Nodes[-1]`, or fail to allocate
`2^32 - k` sets. -/
inductive CtorResult where
  | ok (o : Octree)
  | undefinedBehaviour
  | allocationFailure

/-- The constructor (`octree_impl.hpp:9-79`).  `maxLevels` is `trunc(log2(width / (2 * diam)))`;
`leafOf` lists for each element, in iteration order, the leaf `getLeafContainingPoint(centroid)`
for the final number of levels (see `leafContainingPoint`). -/
def construct (levels maxLevels : Int) (leafOf : Nat → List (Nat × ULong)) : CtorResult :=
  let m := if levels < 0 ∨ levels > maxLevels then maxLevels else levels
  if m < 0 then .allocationFailure
  else
    let l := m.toNat
    if l = 0 ∧ leafOf l ≠ [] then .undefinedBehaviour
    else .ok ((leafOf l).foldl (fun o en => addElement o en.1 en.2) ⟨l, fun _ => [], fun _ => []⟩)

/-- `Octree::isEmpty` (`octree_impl.hpp:131-134`) for `1 ≤ level ≤ levels` (elsewhere it reads outside
the vector `m_Nodes`). -/
def Octree.isEmpty (o : Octree) (n : ULong) (level : Nat) : Bool := !decide (n ∈ o.nodes (level - 1))

/-- The loop `for (index = firstChild; index <= lastChild; index++)`
(`interaction_list_impl.hpp:30`). -/
def childLoop (first last : ULong) : List ULong :=
  (List.range (last.toNat - first.toNat + 1)).map fun i => first + BitVec.ofNat 64 i

/-- `InteractionList::InteractionList` (`interaction_list_impl.hpp:9-36`): the list `m_interaction`. -/
def interactionList (o : Octree) (index : ULong) (level : Nat) : Except Err (List ULong) :=
  if level > 1 then do
    let parentNeighbors ← getNeighbors (getParent index) (level - 1)
    let neighborSet ← getNeighbors index level
    return parentNeighbors.flatMap fun nb =>
      (childLoop (getFirstChild nb) (getLastChild nb)).filter fun c =>
        !o.isEmpty c level && !decide (c ∈ neighborSet)
  else return []

end Verif.Fmm
