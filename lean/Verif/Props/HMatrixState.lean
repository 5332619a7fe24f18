import Verif.Props.HMatrix
/-
Properties C14, C17, C21: re-initialisation, cutoff and norm of H-matrices.
-/
set_option linter.unusedSectionVars false
namespace Verif.HMat
open Finset NTree CTree HMatrix

/-! ### C14 -/

/-- What a user may call on an H-matrix object. -/
inductive HOp (G K : Type) where
  | init (compress : BlockData G → HData K)
  | reset

/-- Effect of a call. -/
def HOp.exec {G K : Type} (h : HMatrix G K) : HOp G K → HMatrix G K
  | .init c => h.init c
  | .reset => h.reset

section
variable {G K : Type}

theorem history_inv (tree : NTree (BlockData G)) (pr pc : DofPermutation) (nproc rank : Nat)
    (ops : List (HOp G K)) (h : HMatrix G K)
    (h0 : h.tree = tree ∧ h.rowPerm = pr ∧ h.colPerm = pc ∧ h.nproc = nproc ∧ h.rank = rank ∧
      ∀ k ∈ h.myLeafs, k ∈ roundRobin rank tree.leafNodes.length nproc) :
    (fun h' : HMatrix G K => h'.tree = tree ∧ h'.rowPerm = pr ∧ h'.colPerm = pc ∧ h'.nproc = nproc ∧
      h'.rank = rank ∧ ∀ k ∈ h'.myLeafs, k ∈ roundRobin rank tree.leafNodes.length nproc)
      (ops.foldl HOp.exec h) := by
  induction ops generalizing h with
  | nil => exact h0
  | cons o ops ih =>
    rw [List.foldl_cons]
    apply ih
    obtain ⟨rfl, rfl, rfl, rfl, rfl, h6⟩ := h0
    cases o with
    | reset => exact ⟨rfl, rfl, rfl, rfl, rfl, h6⟩
    | init c =>
      refine ⟨rfl, rfl, rfl, rfl, rfl, ?_⟩
      intro k hk
      have : k ∈ h.myLeafs ++ roundRobin h.rank h.tree.leafNodes.length h.nproc := hk
      rcases List.mem_append.mp this with h' | h'
      · exact h6 k h'
      · exact h'

/-- **C14**, partial: after any history of `initialize` and `reset` calls, `initialize c` stores
exactly the blocks a freshly constructed H-matrix initialised with `c` stores, `reset` leaves a matrix
that reports not being initialised.  Missing for the full property (and false, see the
counterexamples): the list of leaves that `apply` loops over and the block counters are not cleared. -/
theorem C14_reinit_replaces_blocks_partial (tree : NTree (BlockData G)) (pr pc : DofPermutation)
    (nproc rank : Nat) (ops : List (HOp G K)) (c : BlockData G → HData K) :
    ((ops.foldl HOp.exec (HMatrix.new tree pr pc nproc rank)).init c).data =
      ((HMatrix.new tree pr pc nproc rank).init c).data ∧
    ((ops.foldl HOp.exec (HMatrix.new tree pr pc nproc rank) : HMatrix G K).reset).isInitialized =
      false := by
  obtain ⟨h1, h2, h3, h4, h5, h6⟩ := history_inv tree pr pc nproc rank ops
    (HMatrix.new tree pr pc nproc rank : HMatrix G K) ⟨rfl, rfl, rfl, rfl, rfl, by simp [HMatrix.new]⟩
  constructor
  · funext k
    show storeBlocks _ c _ _ k = storeBlocks _ c _ _ k
    rw [init_data_fold, init_data_fold]
    generalize List.foldl HOp.exec (HMatrix.new tree pr pc nproc rank : HMatrix G K) ops = h at *
    obtain ⟨ht, hrp, hcp, hn, hr, hd, hm, hnd, hnl⟩ := h
    simp only at h1 h4 h5 h6
    subst h1 h4 h5
    by_cases hk : k ∈ roundRobin hr ht.leafNodes.length hn
    · rw [if_pos, if_pos]
      · rfl
      · exact List.mem_append.mpr (Or.inr hk)
      · exact List.mem_append.mpr (Or.inr hk)
    · rw [if_neg, if_neg]
      · rfl
      · intro h; rcases List.mem_append.mp h with h | h
        · simp [HMatrix.new, HMatrix.reset] at h
        · exact hk h
      · intro h; rcases List.mem_append.mp h with h | h
        · exact hk (h6 k h)
        · exact hk h
  · simp [HMatrix.isInitialized, HMatrix.reset]

/-- Example: a history with three calls. -/
example (c c' : BlockData G → HData K) (t : NTree (BlockData G)) (p q : DofPermutation) :
    (([HOp.init c', HOp.reset, HOp.init c].foldl HOp.exec (HMatrix.new t p q 1 0)).init c).data =
      ((HMatrix.new t p q 1 0).init c).data :=
  (C14_reinit_replaces_blocks_partial t p q 1 0 [.init c', .reset, .init c] c).1

/-- The 1 × 1 set-up used by the counterexamples: one leaf block. -/
theorem setup_one : ∃ s : HSetup Unit, s.rows = 1 ∧ s.cols = 1 ∧ s.pR = ⟨[0], [0]⟩ ∧
    s.pC = ⟨[0], [0]⟩ ∧ ∃ d, s.tree = .node d [] ∧ d.row.data.lo = 0 ∧ d.row.data.hi = 1 ∧
      d.col.data.lo = 0 ∧ d.col.data.hi = 1 := by
  obtain ⟨s, h1, h2, h3, h4, h5, h6, h7, h8, h9, h10⟩ := exists_setup (fun _ => ()) (fun _ => ())
    (revSorter Unit) (revSorter Unit) 1 1 1 1 (fun _ _ => false) 100
  have hR := s.hR
  have hC := s.hC
  rw [h1, h3, h5, h7] at hR
  rw [h2, h4, h6, h8] at hC
  have hperm : ∀ p, dofPermutation (fun _ => ()) (revSorter Unit) 1 1 = some p → p = ⟨[0], [0]⟩ := by
    intro p hp
    have ok := permOK_of_dofPermutation hp
    have e1 := List.perm_singleton.mp ok.o2h
    have e2 := List.perm_singleton.mp ok.h2o
    cases p; simp only at e1 e2; subst e1 e2; rfl
  refine ⟨s, h7, h8, hperm _ hR, hperm _ hC, ?_⟩
  unfold HSetup.tree
  rw [h1, h2, h3, h4, h5, h6, h7, h8, h9, h10]
  simp [blockClusterTree, splitBlock, clusterTree, splitTree, toSizeT]

end

/-- **C14 is false of the code** (1): initialising twice with the same compressor doubles the matrix.
For the 1 × 1 matrix `(1)`, `apply` to the vector `(1)` gives 1 after the first and 2 after the second
`initialize`. -/
theorem C14_reinit_doubles_result_counterexample :
    ∃ (s : HSetup Unit) (c : BlockData Unit → HData ℤ) (X : Mx ℤ) (Y : Mx (Cell ℤ)),
      (∀ Y', Run [s.process c 1 0] .NOTRANS 1 0 X [Y] Y' → Y'.e 0 0 = some 1) ∧
      ∃ Y', Run [(s.process c 1 0).init c] .NOTRANS 1 0 X [Y] Y' ∧ Y'.e 0 0 = some 2 := by
  obtain ⟨s, h1, h2, h3, h4, d, hd, d1, d2, d3, d4⟩ := setup_one
  have hleaf : s.tree.leafNodes = [.node d []] := by
    rw [hd]; simp [leafNodes, leafLoop, NTree.isLeaf, children]
  refine ⟨s, denseCompress (fun _ _ => 1), ⟨1, 1, fun _ _ => 1⟩, ⟨1, 1, fun _ _ => none⟩, ?_, ?_⟩
  · intro Y' hY'
    have rep : s.Represents (denseCompress fun _ _ => (1 : ℤ)) (fun _ _ => 1) :=
      denseCompress_represents s (fun _ _ => 1)
    have := ((C11_apply_correct s (denseCompress fun _ _ => (1 : ℤ)) (fun _ _ => 1)
      (denseCompress_fits s _) rep .NOTRANS 1 0 ⟨1, 1, fun _ _ => 1⟩ ⟨1, 1, fun _ _ => none⟩
      h2.symm h1.symm rfl (by simp)).2 Y' hY').2.2 0 0 (by rw [HSetup.outRows]; simp [TransposeMode.keepsRows, h1]) (by simp)
    rw [this]
    simp [HSetup.inRows, TransposeMode.keepsRows, h2, opEntry]
  · have hml : ((s.process (denseCompress fun _ _ => (1 : ℤ)) 1 0).init
        (denseCompress fun _ _ => 1)).myLeafs = [0, 0] := by
      show ((([] : List Nat) ++ roundRobin 0 s.tree.leafNodes.length 1) ++
        roundRobin 0 s.tree.leafNodes.length 1) = [0, 0]
      rw [hleaf]
      simp [roundRobin]
    have hdata : ((s.process (denseCompress fun _ _ => (1 : ℤ)) 1 0).init
        (denseCompress fun _ _ => 1)).data 0 = some (denseCompress (fun _ _ => 1) d) := by
      show storeBlocks s.tree.leafNodes _ _ _ 0 = _
      rw [init_data_fold, if_pos, hleaf]
      · rfl
      · show 0 ∈ ((s.process (denseCompress fun _ _ => (1 : ℤ)) 1 0).init
          (denseCompress fun _ _ => 1)).myLeafs
        rw [hml]; simp
    set h := ((s.process (denseCompress fun _ _ => (1 : ℤ)) 1 0).init (denseCompress fun _ _ => 1))
    have hrp : h.rowPerm = ⟨[0], [0]⟩ := h3
    have hcp : h.colPerm = ⟨[0], [0]⟩ := h4
    have htree : h.tree = s.tree := rfl
    have hrank : h.rank = 0 := rfl
    obtain ⟨v, hv, hlu⟩ : ∃ v : Nat → ℤ, v 0 = 1 ∧ leafUpdates .NOTRANS d
        (denseCompress (fun _ _ => 1) d) ⟨1, 1, fun r j => if r = 0 ∧ j = 0 then 1 else 0⟩ =
        [⟨0, v⟩] := by
      refine ⟨fun j => if j = 0 then 1 else 0, rfl, ?_⟩
      simp [leafUpdates, d1, d2, d3, d4, HData.apply, denseCompress, denseApply, Mx.mul, Mx.smul,
        Mx.add, Mx.zero, Mx.block]
      funext j
      by_cases hj : j = 0 <;> simp [hj, Finset.filter_singleton]
    have hts : h.tasks .NOTRANS ⟨1, 1, fun r j => if r = 0 ∧ j = 0 then 1 else 0⟩ =
        some [[⟨0, v⟩], [⟨0, v⟩]] := by
      unfold HMatrix.tasks
      rw [hml, ← hlu]
      simp only [htree, hleaf, hdata, List.mapM_cons, List.mapM_nil, List.getElem?_cons_zero]
      rfl
    refine ⟨⟨1, 1, fun r j => if r = 0 ∧ j = 0 then some 2 else none⟩, ?_, by simp⟩
    refine ⟨[⟨1, 1, fun r j => if r = 0 ∧ j = 0 then some 2 else none⟩], rfl, rfl, ?_, ?_⟩
    · intro r hr1 hr2 hr3
      have : r = 0 := by simp at hr1; exact hr1
      subst this
      refine ⟨fun _ _ => 0, fun _ _ => none, fun _ _ => none,
        ⟨1, 1, fun r j => if r = 0 ∧ j = 0 then 1 else 0⟩,
        ⟨1, 1, fun r j => if r = 0 ∧ j = 0 then some 0 else none⟩, _, [⟨0, v⟩, ⟨0, v⟩], ?_, ?_, ?_,
        interleaving_flatten ([[⟨0, v⟩], [⟨0, v⟩]] : List (List (RowUpdate ℤ))), ?_⟩
      · simp [HMatrix.permuteMatToHMatDofs, permuteRows, hcp, List.range_succ]
      · simp [HMatrix.permuteMatToHMatDofs, permuteRows, hrp, List.range_succ]
      · simpa [Mx.smul] using hts
      · simp [HMatrix.permuteMatToOriginalDofs, permuteRows, hrp, List.range_succ, rowAdd, hv]
        funext r j
        by_cases hr : r = 0 <;> by_cases hj : j = 0 <;> simp [hr, hj, hv]
    · simp

/-- **C14 is false of the code** (2): after `reset`, `apply` throws instead of behaving like the
uninitialised matrix (whose `apply` returns `beta * Y`): no run exists. -/
theorem C14_apply_after_reset_counterexample :
    ∃ (s : HSetup Unit) (c : BlockData Unit → HData ℤ) (X : Mx ℤ) (Y : Mx (Cell ℤ)),
      (∃ Y', Run [(HMatrix.new s.tree s.pR s.pC 1 0 : HMatrix Unit ℤ)] .NOTRANS 1 0 X [Y] Y') ∧
      ∀ Y', ¬ Run [(s.process c 1 0).reset] .NOTRANS 1 0 X [Y] Y' := by
  obtain ⟨s, h1, h2, h3, h4, d, hd, d1, d2, d3, d4⟩ := setup_one
  have hleaf : s.tree.leafNodes = [.node d []] := by
    rw [hd]; simp [leafNodes, leafLoop, NTree.isLeaf, children]
  refine ⟨s, denseCompress (fun _ _ => 1), ⟨1, 1, fun _ _ => 1⟩, ⟨1, 1, fun _ _ => none⟩, ?_, ?_⟩
  · refine ⟨⟨1, 1, fun r j => if r = 0 ∧ j = 0 then some 0 else none⟩,
      [⟨1, 1, fun r j => if r = 0 ∧ j = 0 then some 0 else none⟩], rfl, rfl, ?_, by simp⟩
    intro r hr1 hr2 hr3
    have : r = 0 := by simp at hr1; exact hr1
    subst this
    refine ⟨fun _ _ => 0, fun _ _ => none, fun _ _ => none,
        ⟨1, 1, fun r j => if r = 0 ∧ j = 0 then 1 else 0⟩,
        ⟨1, 1, fun r j => if r = 0 ∧ j = 0 then some 0 else none⟩, [], [], ?_, ?_, ?_, .done, ?_⟩
    · simp [HMatrix.permuteMatToHMatDofs, permuteRows, HMatrix.new, h4, List.range_succ]
    · simp [HMatrix.permuteMatToHMatDofs, permuteRows, HMatrix.new, h3, List.range_succ]
    · simp [HMatrix.tasks, HMatrix.new]
    · simp [HMatrix.permuteMatToOriginalDofs, permuteRows, HMatrix.new, h3, List.range_succ]
      funext r j
      by_cases hr : r = 0 <;> by_cases hj : j = 0 <;> simp [hr, hj]
  · rintro Y' ⟨Ls, hL, _, hrun, _⟩
    have h0 := hrun 0 (by simp) (by rw [hL]; simp) (by simp)
    obtain ⟨g1, g2, g3, xP, yP, ts, sched, _, _, h5, _⟩ := h0
    have hml : (s.process (denseCompress fun _ _ => (1 : ℤ)) 1 0).reset.myLeafs = [0] := by
      show (([] : List Nat) ++ roundRobin 0 s.tree.leafNodes.length 1) = [0]
      rw [hleaf]; simp [roundRobin]
    simp only [List.getElem_cons_zero] at h5
    unfold HMatrix.tasks at h5
    rw [hml] at h5
    simp [HMatrix.reset] at h5

/-! ### C17 -/

/-- **C17 is false of the code**: the zero block created for an admissible block beyond the cutoff is
always overwritten by the unconditional second call; for *every* block beyond the cutoff the
compressor evaluates the entries and stores its own block. -/
theorem C17_cutoff_ineffective_counterexample {G K D : Type} [LE D] [DecidableLE D] [Zero K]
    (cutoff : D) (dist : BlockData G → D) (impl : BlockData G → HData K) (b : BlockData G)
    (_ : b.adm = true) (h : ¬ dist b ≤ cutoff) :
    compressBlock cutoff dist impl b = (impl b, 1) := by
  simp_all [compressBlock]

/-- **C17**, partial: within the cutoff, or for a block that is not admissible, the stored block is the
compressor's block (computed twice).  Missing: the zero block beyond the cutoff, see the
counterexample. -/
theorem C17_within_cutoff_partial {G K D : Type} [LE D] [DecidableLE D] [Zero K]
    (cutoff : D) (dist : BlockData G → D) (impl : BlockData G → HData K) (b : BlockData G)
    (h : dist b ≤ cutoff ∨ b.adm = false) :
    (compressBlock cutoff dist impl b).1 = impl b := by
  simp [compressBlock]

/-- Example: a 1 × 1 admissible block at distance 7 with cutoff 5 is stored as the dense entry 3
after one call of `compressBlockImpl`, instead of as a zero block after none. -/
example : compressBlock (G := Unit) (K := ℤ) (D := ℕ) 5 (fun _ => 7) (denseCompress fun _ _ => 3)
    ⟨.leaf ⟨0, 1, ()⟩ [0], .leaf ⟨0, 1, ()⟩ [0], true⟩ =
    (.dense ⟨1, 1, fun _ _ => 3⟩, 1) :=
  C17_cutoff_ineffective_counterexample 5 _ _ _ rfl (by decide)

/-! ### C21 -/

/-- **C21**, partial: on a single process `frobeniusNorm` returns the Frobenius norm of the matrix
represented by the blocks.  Missing: several processes, where the function throws, see the
counterexample. -/
theorem C21_frobenius_norm_partial {G K : Type} [RCLike K] (s : HSetup G)
    (compress : BlockData G → HData K) (M : Nat → Nat → K)
    (fits : s.CompressorFits compress) (rep : s.Represents compress M) :
    (s.process compress 1 0).frobeniusNorm =
      some (Real.sqrt (∑ i ∈ range s.rows, ∑ j ∈ range s.cols, ‖M i j‖ ^ 2)) := by
  have okR : PermOK s.rows s.pR := permOK_of_dofPermutation s.hR
  have okC : PermOK s.cols s.pC := permOK_of_dofPermutation s.hC
  unfold HMatrix.frobeniusNorm
  have htree : (s.process compress 1 0).tree = s.tree := rfl
  rw [htree]
  rw [frobeniusNormImpl_eq _ (fun b => RCLike.re (compress b).normSq)]
  · congr 2
    rw [← ((leafNodes_perm s.tree).map _).sum_eq]
    have e1 : (leafNodes s.tree).map (fun b => RCLike.re (compress b.data).normSq) =
        (leafNodes s.tree).map (fun b => ∑ i ∈ range b.data.row.size, ∑ j ∈ range b.data.col.size,
          (fun I J => ‖M (s.pR.h2o[I]?.getD 0) (s.pC.h2o[J]?.getD 0)‖ ^ 2)
            (b.data.row.data.lo + i) (b.data.col.data.lo + j)) := by
      apply List.map_congr_left
      intro b hb
      rw [re_normSq _ _ _ (fits b hb)]
      have hr := leaf_ranges s b hb
      refine Finset.sum_congr rfl fun i hi => Finset.sum_congr rfl fun j hj => ?_
      rw [Finset.mem_range] at hi hj
      unfold CTree.size at hi hj
      obtain ⟨i', _, a1, a2⟩ := okR.bwd (b.data.row.data.lo + i) (by omega)
      obtain ⟨j', _, b1, b2⟩ := okC.bwd (b.data.col.data.lo + j) (by omega)
      have := rep b hb i' j' _ _ a2 b2 (decide_eq_true ⟨by omega, by omega, by omega, by omega⟩)
      simp only [a1, b1, Option.getD_some]
      rw [this]
      congr 3 <;> omega
    rw [e1, sum_leaves (s := s) (F := fun I J => ‖M (s.pR.h2o[I]?.getD 0) (s.pC.h2o[J]?.getD 0)‖ ^ 2)]
    have e2 : ∀ I, ∑ J ∈ range s.cols, ‖M I (s.pC.h2o[J]?.getD 0)‖ ^ 2 =
        ∑ j ∈ range s.cols, ‖M I j‖ ^ 2 := fun I =>
      sum_perm_list (K := ℝ) s.cols s.pC.h2o okC.h2o (fun j => ‖M I j‖ ^ 2)
    simp only [e2]
    exact sum_perm_list (K := ℝ) s.rows s.pR.h2o okR.h2o
      (fun i => ∑ j ∈ range s.cols, ‖M i j‖ ^ 2)
  · intro b hb
    have hb' := (leafNodes_perm s.tree).mem_iff.mpr hb
    constructor
    · rw [re_normSq _ _ _ (fits b hb')]
      exact Finset.sum_nonneg fun _ _ => Finset.sum_nonneg fun _ _ => sq_nonneg _
    · rw [dataAt_single s compress b hb']; rfl

/-- Example: the 5 × 3 matrix of ones stored in four blocks has norm `sqrt 15`. -/
example : ∃ (s : HSetup Unit) (c : BlockData Unit → HData ℝ), (leafNodes s.tree).length = 4 ∧
    (s.process c 1 0).frobeniusNorm = some (Real.sqrt 15) := by
  obtain ⟨s, h5, h3, h4, c, hf, hr⟩ := example_setup (fun _ _ => (1 : ℝ))
  refine ⟨s, c, h4, ?_⟩
  rw [C21_frobenius_norm_partial s c _ hf hr, h5, h3]
  norm_num

/-- **C21 is false of the code** for several processes: each process holds only its own blocks, but
the recursion looks up every leaf, so `frobeniusNorm` throws.  Here: process 1 of 2 with a matrix
that consists of a single block. -/
theorem C21_norm_throws_on_two_processes_counterexample :
    ∃ (s : HSetup Unit) (c : BlockData Unit → HData ℝ) (M : Nat → Nat → ℝ),
      s.CompressorFits c ∧ s.Represents c M ∧ (s.process c 2 0).frobeniusNorm = some 1 ∧
      (s.process c 2 1).frobeniusNorm = none := by
  obtain ⟨s, h1, h2, h3, h4, d, hd, d1, d2, d3, d4⟩ := setup_one
  have hleaf : s.tree.leafNodes = [.node d []] := by
    rw [hd]; simp [leafNodes, leafLoop, NTree.isLeaf, children]
  refine ⟨s, denseCompress (fun _ _ => 1), fun _ _ => 1, denseCompress_fits s _,
    denseCompress_represents s (fun _ _ => 1), ?_, ?_⟩
  · have e : (s.process (denseCompress fun _ _ => (1 : ℝ)) 2 0).dataAt d =
        some (denseCompress (fun _ _ => 1) d) := by
      unfold HMatrix.dataAt
      have ht : (s.process (denseCompress fun _ _ => (1 : ℝ)) 2 0).tree = s.tree := rfl
      rw [ht, hleaf]
      simp only [List.length_singleton, List.range_one, List.find?_cons, List.getElem?_cons_zero,
        Option.map_some, NTree.data, beq_self_eq_true, Option.bind_some]
      show storeBlocks s.tree.leafNodes _ (([] : List Nat) ++ roundRobin 0 s.tree.leafNodes.length 2) _ 0 = _
      rw [init_data_fold, hleaf]
      simp [roundRobin, NTree.data]
    unfold HMatrix.frobeniusNorm
    have ht : (s.process (denseCompress fun _ _ => (1 : ℝ)) 2 0).tree = s.tree := rfl
    rw [ht, hd, frobeniusNormImpl, e]
    simp [leafNorm, HData.normSq, denseCompress, denseNormSq, d1, d2, d3, d4]
  · unfold HMatrix.frobeniusNorm
    have ht : (s.process (denseCompress fun _ _ => (1 : ℝ)) 2 1).tree = s.tree := rfl
    rw [ht, hd, frobeniusNormImpl]
    have e : (s.process (denseCompress fun _ _ => (1 : ℝ)) 2 1).dataAt d = none := by
      unfold HMatrix.dataAt
      rw [ht, hleaf]
      simp only [List.length_singleton, List.range_one, List.find?_cons, List.getElem?_cons_zero,
        Option.map_some, NTree.data, beq_self_eq_true, Option.bind_some]
      show storeBlocks s.tree.leafNodes _ (([] : List Nat) ++ roundRobin 1 s.tree.leafNodes.length 2) _ 0 = _
      rw [init_data_fold, hleaf]
      simp [roundRobin, HMatrix.new, HMatrix.reset]
    rw [e]; rfl

end Verif.HMat
