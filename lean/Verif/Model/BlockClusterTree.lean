import Verif.Model.ClusterTree
import Verif.Model.TreeNode
import Verif.Model.BoundingBox
/-
Model of `hmat::BlockClusterTree<2>` (lib/hmat/block_cluster_tree.hpp, block_cluster_tree_impl.hpp).
-/
namespace Verif.HMat

/-- `BlockClusterTreeNodeData<2>` (`block_cluster_tree_impl.hpp:15-21`): references to the row and
the column cluster (here the subtrees) and the flag `admissible`. -/
structure BlockData (G : Type) where
  row : CTree G
  col : CTree G
  adm : Bool

/-- `columnBlockSize > maxBlockSize || rowBlockSize > maxBlockSize`
(`block_cluster_tree_impl.hpp:148-153`); the `int` is converted to `std::size_t`. -/
def oversized {G : Type} (maxB : Int) (row col : CTree G) : Bool :=
  decide (col.size > toSizeT maxB) || decide (row.size > toSizeT maxB)

/-- `splittingFunction` of `BlockClusterTree<2>::initializeBlockClusterTree`
(`block_cluster_tree_impl.hpp:135-188`): the tree grown below a block with clusters `row`, `col` and
stored flag `flag`.  `nodeData` is a *copy* (line 139), so the assignment of line 154 only influences
this call and not the flag stored in the node.  The children's flag is the admissibility function
evaluated on the clusters of the *current* node (lines 161-162, 177-179). -/
def splitBlock {G : Type} (admFun : NodeData G → NodeData G → Bool) (maxB : Int)
    (row col : CTree G) (flag : Bool) : NTree (BlockData G) :=
  if (if oversized maxB row col then false else flag) then .node ⟨row, col, flag⟩ []
  else
    match row, col with
    | .node d ix r0 r1, .node d' ix' c0 c1 =>
      .node ⟨.node d ix r0 r1, .node d' ix' c0 c1, flag⟩
        [splitBlock admFun maxB r0 c0 (admFun d d'), splitBlock admFun maxB r0 c1 (admFun d d'),
         splitBlock admFun maxB r1 c0 (admFun d d'), splitBlock admFun maxB r1 c1 (admFun d d')]
    | row, col => .node ⟨row, col, flag⟩ []

/-- `BlockClusterTree<2>::BlockClusterTree(rowClusterTree, columnClusterTree, maxBlockSize,
admissibilityFunction)` (`block_cluster_tree_impl.hpp:23-31, 190-195`). -/
def blockClusterTree {G : Type} (admFun : NodeData G → NodeData G → Bool) (maxB : Int)
    (row col : CTree G) : NTree (BlockData G) :=
  splitBlock admFun maxB row col (admFun row.data col.data)

/-- The geometric payload of a cluster: the bounding box computed by `geometryData`
(`cluster_tree_impl.hpp:76-90`) and the diameter (lines 92-96, an arbitrary function of the dofs of
the node here because it depends on an eigenvector computation). -/
structure GeoData (K : Type) where
  box : Option (Box K)
  diameter : K

/-- `ClusterTreeNodeData(indexRange, centerPoints, dofBoundingPoints)` for the dofs `ix`
(`cluster_tree_impl.hpp:20-26`). -/
def geoOf {K : Type} [LinearOrder K] (boxes : Nat → Box K) (diam : List Nat → K) (ix : List Nat) :
    GeoData K := ⟨clusterBox boxes ix, diam ix⟩

open Classical in
/-- `WeakAdmissibility::operator()` (`block_cluster_tree_impl.hpp:225-230`).  (A cluster without a
box, i.e. without dofs, is undefined behaviour in C++ and counted as not admissible here.) -/
noncomputable def weakAdm (c1 c2 : NodeData (GeoData ℝ)) : Bool :=
  match c1.geo.box, c2.geo.box with
  | some a, some b => decide (a.distance b > 0)
  | _, _ => false

open Classical in
/-- `StrongAdmissibility::operator()` (`block_cluster_tree_impl.hpp:212-223`). -/
noncomputable def strongAdm (eta : ℝ) (c1 c2 : NodeData (GeoData ℝ)) : Bool :=
  match c1.geo.box, c2.geo.box with
  | some a, some b => decide (min c1.geo.diameter c2.geo.diameter < eta * a.distance b)
  | _, _ => false

end Verif.HMat
