import Verif.Spec.NTree
/-
Lemmas about the breadth-first leaf enumeration.
-/
namespace Verif.HMat.NTree
variable {α : Type}

theorem leafLoop_step (xs ys acc : List (NTree α)) :
    leafLoop (xs ++ ys) acc = leafLoop (ys ++ xs.flatMap children) (acc ++ xs.filter isLeaf) := by
  induction xs generalizing ys acc with
  | nil => simp
  | cons x xs ih =>
    rw [List.cons_append, leafLoop]
    by_cases h : x.isLeaf
    · have hc : x.children = [] := by simpa [isLeaf] using h
      rw [if_pos h, ih]
      simp [h, hc]
    · rw [if_neg h, List.append_assoc, ih]
      simp [h]

theorem levelsL_append (a b : List (NTree α)) : levelsL (a ++ b) = max (levelsL a) (levelsL b) := by
  induction a with
  | nil => simp [levelsL]
  | cons x a ih => simp [levelsL, ih]

theorem levelsL_children (xs : List (NTree α)) : levelsL (xs.flatMap children) ≤ levelsL xs - 1 := by
  induction xs with
  | nil => simp [levelsL]
  | cons x xs ih =>
    cases x with
    | node d cs => simp only [List.flatMap_cons, levelsL_append, children, levelsL, levels]; omega

theorem leafLoop_levels (k : Nat) (xs acc : List (NTree α)) (h : levelsL xs ≤ k) :
    leafLoop xs acc = acc ++ (List.range k).flatMap
      (fun d => (xs.flatMap (nodesAt d)).filter isLeaf) := by
  induction k generalizing xs acc with
  | zero =>
    cases xs with
    | nil => simp [leafLoop]
    | cons x xs => cases x; simp [levelsL, levels] at h
  | succ k ih =>
    have := leafLoop_step xs [] acc
    rw [List.append_nil, List.nil_append] at this
    rw [this, ih _ _ (by have := levelsL_children xs; omega)]
    rw [List.range_succ_eq_map, List.flatMap_cons]
    have e : ∀ d, (xs.flatMap children).flatMap (nodesAt d) = xs.flatMap (nodesAt (d + 1)) := by
      intro d
      rw [List.flatMap_assoc]
      rfl
    simp [e, nodesAt, List.flatMap_map]

theorem allLeavesL_append (a b : List (NTree α)) :
    allLeavesL (a ++ b) = allLeavesL a ++ allLeavesL b := by
  induction a with
  | nil => simp [allLeavesL]
  | cons x a ih => simp [allLeavesL, ih]

theorem leafLoop_perm (xs acc : List (NTree α)) :
    (leafLoop xs acc).Perm (acc ++ allLeavesL xs) := by
  fun_induction leafLoop xs acc with
  | case1 acc => simp [allLeavesL]
  | case2 acc c rest h ih =>
    cases c with
    | node d cs =>
      have : cs = [] := by simpa [isLeaf, children] using h
      subst this
      simpa [allLeavesL, allLeaves] using ih
  | case3 acc c rest h ih =>
    cases c with
    | node d cs =>
      cases cs with
      | nil => simp [isLeaf, children] at h
      | cons c cs =>
        simp only [children] at ih
        refine ih.trans ?_
        rw [allLeavesL_append]
        rw [show allLeavesL (node d (c :: cs) :: rest) = allLeavesL (c :: cs) ++ allLeavesL rest by
          simp only [allLeavesL, allLeaves]]
        exact List.Perm.append_left _ List.perm_append_comm

mutual
theorem numberOfLeafs_eq (t : NTree α) : numberOfLeafs t = (allLeaves t).length := by
  cases t with
  | node d cs =>
    cases cs with
    | nil => simp [numberOfLeafs, allLeaves]
    | cons c cs => rw [numberOfLeafs, allLeaves]; exact numberOfLeafsL_eq (c :: cs)
theorem numberOfLeafsL_eq (ts : List (NTree α)) : numberOfLeafsL ts = (allLeavesL ts).length := by
  cases ts with
  | nil => simp [numberOfLeafsL, allLeavesL]
  | cons c cs =>
    rw [numberOfLeafsL, allLeavesL, numberOfLeafs_eq c, numberOfLeafsL_eq cs, List.length_append]
end

mutual
theorem allLeaves_isLeaf (t : NTree α) : ∀ s ∈ allLeaves t, s.isLeaf = true := by
  cases t with
  | node d cs =>
    cases cs with
    | nil => simp [allLeaves, isLeaf, children]
    | cons c cs => rw [allLeaves]; exact allLeavesL_isLeaf (c :: cs)
theorem allLeavesL_isLeaf (ts : List (NTree α)) : ∀ s ∈ allLeavesL ts, s.isLeaf = true := by
  cases ts with
  | nil => simp [allLeavesL]
  | cons c cs =>
    intro s hs
    rw [allLeavesL, List.mem_append] at hs
    rcases hs with hs | hs
    · exact allLeaves_isLeaf c s hs
    · exact allLeavesL_isLeaf cs s hs
end

theorem leafNodes_perm (t : NTree α) : (leafNodes t).Perm (allLeaves t) := by
  have := leafLoop_perm [t] []
  simpa [leafNodes, allLeavesL] using this

end Verif.HMat.NTree
