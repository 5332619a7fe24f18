/-
Model of the cluster tree of lib/hmat: `ClusterTree<2>`, `ClusterTreeNodeData`, `DofPermutation`.
-/
namespace Verif.HMat

/-- Models `std::sort(begin(sortedIndices), end(sortedIndices), cmp)` of
`lib/hmat/cluster_tree_impl.hpp:196-200`.  The comparator depends on the node's geometric data
(`centroid`, `mainDirection`); `std::sort` is not stable, so all that is assumed about it here is
that the result is a permutation of its input.  (That the result is ordered by projection is a
separate hypothesis where it is needed.) -/
structure Sorter (G : Type) where
  run : G → List Nat → List Nat
  perm : ∀ g l, (run g l).Perm l

/-- Models `ClusterTreeNodeData` (`lib/hmat/cluster_tree.hpp`, members `indexRange`, and
`centroid`, `mainDirection`, `boundingBox`, `diameter` collected in the abstract payload `geo`). -/
structure NodeData (G : Type) where
  lo : Nat
  hi : Nat
  geo : G
deriving Repr, DecidableEq

/-- Models `ClusterTreeNode<2>` = `SimpleTreeNode<ClusterTreeNodeData, 2>`
(`lib/hmat/cluster_tree.hpp`, `simple_tree_node.hpp`).  A node has either no child or both
(`splitClusterTreeByGeometry` always adds child 0 and child 1 together, lines 245-252).
`ix` is the `indexSet` argument with which `splittingFun` was called on the node; it is not stored
in C++ and kept here for leaves because the leaf writes it into the permutation. -/
inductive CTree (G : Type) where
  | leaf (d : NodeData G) (ix : List Nat)
  | node (d : NodeData G) (ix : List Nat) (l r : CTree G)
deriving Repr

namespace CTree
variable {G : Type}
/-- `node->data()` (`simple_tree_node_impl.hpp:48-52`). -/
def data : CTree G → NodeData G
  | leaf d _ => d
  | node d _ _ _ => d
/-- The dofs handled by the node: the `indexSet` argument of `splittingFun`
(`cluster_tree_impl.hpp:153-155`). -/
def ix : CTree G → List Nat
  | leaf _ i => i
  | node _ i _ _ => i
/-- `SimpleTreeNode::isLeaf` (`simple_tree_node_impl.hpp:77-84`). -/
def isLeaf : CTree G → Bool
  | leaf .. => true
  | node .. => false
/-- Number of indices of the node: `indexRange[1]-indexRange[0]`. -/
def size (t : CTree G) : Nat := t.data.hi - t.data.lo
end CTree

/-- The dealing loop `while (i1 <= i2)` of `cluster_tree_impl.hpp:202-228`: indices from the front
of the sorted list go to the first set, indices from the back to the second one.  Reads outside the
list would be undefined behaviour in C++; here such a read appends nothing (that it never happens
is part of lemma `deal_eq`). -/
def dealLoop (s : List Nat) (i1 i2 : Int) (first second : List Nat) : List Nat × List Nat :=
  if i1 ≤ i2 then
    if i1 = i2 then
      dealLoop s (i1 + 1) (i2 - 1) (first ++ s[i1.toNat]?.toList) second
    else
      dealLoop s (i1 + 1) (i2 - 1) (first ++ s[i1.toNat]?.toList) (second ++ s[i2.toNat]?.toList)
  else (first, second)
termination_by (i2 + 1 - i1).toNat
decreasing_by all_goals omega

/-- `firstIndexSet`, `secondIndexSet` after the loop (`cluster_tree_impl.hpp:202-228`). -/
def deal (s : List Nat) : List Nat × List Nat :=
  dealLoop s 0 ((s.length : Int) - 1) [] []

/-- `int minBlockSize` is compared with a `std::size_t` (`cluster_tree_impl.hpp:164`), so it is
converted to an unsigned 64-bit number first: negative values become huge. -/
def toSizeT (m : Int) : Nat := (m % (2 ^ 64)).toNat

theorem dealLoop_eq (s : List Nat) (i1 i2 : Int) (f g : List Nat)
    (h1 : 0 ≤ i1) (h2 : i2 < s.length) (h3 : i1 ≤ i2 + 1) :
    dealLoop s i1 i2 f g =
      (f ++ (s.drop i1.toNat).take ((i2 + 2 - i1).toNat / 2),
       g ++ ((s.drop (i1.toNat + (i2 + 2 - i1).toNat / 2)).take ((i2 + 1 - i1).toNat / 2)).reverse) := by
  fun_induction dealLoop s i1 i2 f g with
  | case1 i1 f g hle ih =>
    rw [dealLoop]
    rw [if_neg (by omega)]
    have e1 : (i1 + 2 - i1).toNat / 2 = 1 := by omega
    have e2 : (i1 + 1 - i1).toNat / 2 = 0 := by omega
    have hlt : i1.toNat < s.length := by omega
    rw [e1, e2]
    simp [List.take_one, List.head?_drop]
  | case2 i1 i2 f g hle hne ih =>
    rw [ih (by omega) (by omega) (by omega)]
    have hlt : i1.toNat < s.length := by omega
    have hlt2 : i2.toNat < s.length := by omega
    have e0 : (i1 + 1).toNat = i1.toNat + 1 := by omega
    have e1 : (i2 + 2 - i1).toNat / 2 = (i2 - 1 + 2 - (i1 + 1)).toNat / 2 + 1 := by omega
    have e2 : (i2 + 1 - i1).toNat / 2 = (i2 - 1 + 1 - (i1 + 1)).toNat / 2 + 1 := by omega
    have d1 : s.drop i1.toNat = s[i1.toNat] :: s.drop (i1.toNat + 1) := List.drop_eq_getElem_cons hlt
    rw [e1, e2, e0, d1]
    simp only [List.getElem?_eq_getElem hlt, List.getElem?_eq_getElem hlt2, Option.toList_some,
      List.take_succ_cons, List.append_assoc, List.cons_append, List.nil_append, Prod.mk.injEq,
      true_and]
    congr 1
    generalize hm : (i2 - 1 + 2 - (i1 + 1)).toNat / 2 = m
    generalize hk : (i2 - 1 + 1 - (i1 + 1)).toNat / 2 = k
    have e3 : i1.toNat + 1 + m + k = i2.toNat := by omega
    rw [show i1.toNat + (m + 1) = i1.toNat + 1 + m by omega]
    rw [List.take_add_one]
    simp [List.getElem?_drop, e3, List.getElem?_eq_getElem hlt2]
  | case3 i1 i2 f g hnle =>
    have e1 : (i2 + 2 - i1).toNat / 2 = 0 := by omega
    have e2 : (i2 + 1 - i1).toNat / 2 = 0 := by omega
    simp [e1, e2]

/-- The loop deals the first ⌈n/2⌉ sorted indices to the first set and the others, from the back,
to the second set; every index is read exactly once. -/
theorem deal_eq (s : List Nat) :
    deal s = (s.take ((s.length + 1) / 2), (s.drop ((s.length + 1) / 2)).reverse) := by
  unfold deal
  rw [dealLoop_eq s 0 _ [] [] (by omega) (by omega) (by omega)]
  have e1 : ((s.length : Int) - 1 + 2 - 0).toNat / 2 = (s.length + 1) / 2 := by omega
  have e2 : ((s.length : Int) - 1 + 1 - 0).toNat / 2 = s.length / 2 := by omega
  rw [e1, e2]
  simp only [Int.toNat_zero, List.drop_zero, List.nil_append, Nat.zero_add, Prod.mk.injEq, true_and]
  rw [List.take_of_length_le]
  simp; omega

theorem deal_fst_length (s : List Nat) : (deal s).1.length = (s.length + 1) / 2 := by
  rw [deal_eq]; simp; omega

theorem deal_snd_length (s : List Nat) : (deal s).2.length = s.length / 2 := by
  rw [deal_eq]; simp; omega

/-- `splittingFun` of `ClusterTree<2>::splitClusterTreeByGeometry`
(`cluster_tree_impl.hpp:153-268`): the tree it grows below a node with range `[lo,hi)` when called
with index set `ix`.  `geo` models the construction of `ClusterTreeNodeData` from the point lists of
an index set (lines 20-26, 36-97, 174-224).  The writes into the dof permutation, made by the same
recursion at its leaves, are modelled by `writes`, in the same (depth first) order. -/
def splitTree {G : Type} (geo : List Nat → G) (srt : Sorter G) (minB : Int)
    (lo hi : Nat) (ix : List Nat) : CTree G :=
  if ix.length ≤ toSizeT minB then
    .leaf ⟨lo, hi, geo ix⟩ ix
  else
    if _h : (deal (srt.run (geo ix) ix)).1.length = 0 ∨ (deal (srt.run (geo ix) ix)).2.length = 0 then
      .leaf ⟨lo, hi, geo ix⟩ ix
    else
      .node ⟨lo, hi, geo ix⟩ ix
        (splitTree geo srt minB lo (lo + (deal (srt.run (geo ix) ix)).1.length)
          (deal (srt.run (geo ix) ix)).1)
        (splitTree geo srt minB (lo + (deal (srt.run (geo ix) ix)).1.length) hi
          (deal (srt.run (geo ix) ix)).2)
termination_by ix.length
decreasing_by
  all_goals
    have hp := (srt.perm (geo ix) ix).length_eq
    simp only [deal_fst_length, deal_snd_length, hp] at _h ⊢
    omega

/-- `ClusterTree<2>::ClusterTree(geometry, minBlockSize)` (`cluster_tree_impl.hpp:28-34, 112-130,
269`): root with range `[0,n)`, split with the index set `fillIndexRange(0,n)` = `[0,...,n-1]`
(`common_impl.hpp:10-16`). -/
def clusterTree {G : Type} (geo : List Nat → G) (srt : Sorter G) (minB : Int) (n : Nat) : CTree G :=
  splitTree geo srt minB 0 n (List.range n)

/-- `DofPermutation` (`lib/hmat/dof_permutation.hpp`, `dof_permutation_impl.hpp`). -/
structure DofPermutation where
  o2h : List Nat
  h2o : List Nat
deriving Repr, DecidableEq

/-- `DofPermutation::DofPermutation(n)`: two zero-initialised vectors
(`dof_permutation_impl.hpp:10-12`). -/
def DofPermutation.init (n : Nat) : DofPermutation := ⟨List.replicate n 0, List.replicate n 0⟩

/-- `DofPermutation::addDofIndexPair` (`dof_permutation_impl.hpp:30-35`); an index outside the
vectors is undefined behaviour, the outcome `none`. -/
def DofPermutation.add (p : DofPermutation) (orig hmat : Nat) : Option DofPermutation :=
  if orig < p.o2h.length ∧ hmat < p.h2o.length then
    some ⟨p.o2h.set orig hmat, p.h2o.set hmat orig⟩
  else none

/-- The leaf loop `for (hMatDof = indexRange[0]; hMatDof < indexRange[1]; ++hMatDof)`
(`cluster_tree_impl.hpp:260-265`); reading `indexSet` out of range is undefined behaviour (`none`). -/
def leafWrites (lo hi : Nat) (ix : List Nat) (p : DofPermutation) : Option DofPermutation :=
  (List.range (hi - lo)).foldlM (fun p k => do
    let o ← ix[k]?
    p.add o (lo + k)) p

/-- The writes of the recursion, leaves visited depth first, child 0 before child 1
(`cluster_tree_impl.hpp:253-254, 258-266`). -/
def writes {G : Type} : CTree G → DofPermutation → Option DofPermutation
  | .leaf d ix, p => leafWrites d.lo d.hi ix p
  | .node _ _ l r, p => (writes l p).bind (writes r)

/-- The dof permutation of the constructed cluster tree (`cluster_tree_impl.hpp:28-34`). -/
def dofPermutation {G : Type} (geo : List Nat → G) (srt : Sorter G) (minB : Int) (n : Nat) :
    Option DofPermutation :=
  writes (clusterTree geo srt minB n) (DofPermutation.init n)

end Verif.HMat
