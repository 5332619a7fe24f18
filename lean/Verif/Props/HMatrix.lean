import Verif.Lemmas.Compressor
import Verif.Lemmas.RowLocks
/-
Properties C11 - C17 and C21: H-matrices.
-/
set_option linter.unusedSectionVars false
namespace Verif.HMat
open Finset NTree CTree HMatrix

/-- For any two geometries, sorts, block sizes and admissibility function there is an H-matrix
set-up (the cluster trees and their permutations exist by C01). -/
theorem exists_setup {G : Type} (geoR geoC : List Nat → G) (srtR srtC : Sorter G) (minR minC : Int)
    (rows cols : Nat) (admFun : NodeData G → NodeData G → Bool) (maxB : Int) :
    ∃ s : HSetup G, s.geoR = geoR ∧ s.geoC = geoC ∧ s.srtR = srtR ∧ s.srtC = srtC ∧ s.minR = minR ∧
      s.minC = minC ∧ s.rows = rows ∧ s.cols = cols ∧ s.admFun = admFun ∧ s.maxB = maxB := by
  obtain ⟨pR, hR, _⟩ := C01_dof_permutation_bijective geoR srtR minR rows
  obtain ⟨pC, hC, _⟩ := C01_dof_permutation_bijective geoC srtC minC cols
  exact ⟨⟨geoR, geoC, srtR, srtC, minR, minC, rows, cols, admFun, maxB, pR, pC, hR, hC⟩,
    rfl, rfl, rfl, rfl, rfl, rfl, rfl, rfl, rfl, rfl⟩

/-- Example used below: a 5 × 3 matrix with four leaf blocks, stored densely, meets the hypotheses
`CompressorFits` and `Represents` of C11, C13 and C21 (for any matrix `M`). -/
theorem example_setup {K : Type} [CommRing K] (M : Nat → Nat → K) :
    ∃ s : HSetup Unit, s.rows = 5 ∧ s.cols = 3 ∧ (leafNodes s.tree).length = 4 ∧
      ∃ compress : BlockData Unit → HData K, s.CompressorFits compress ∧ s.Represents compress M := by
  obtain ⟨s, h1, h2, h3, h4, h5, h6, h7, h8, h9, h10⟩ := exists_setup (fun _ => ()) (fun _ => ())
    (revSorter Unit) (revSorter Unit) 3 2 5 3 (fun _ _ => false) 100
  refine ⟨s, h7, h8, ?_, _, denseCompress_fits s _, denseCompress_represents s M⟩
  unfold HSetup.tree
  rw [h1, h2, h3, h4, h5, h6, h7, h8, h9, h10]
  simp [blockClusterTree, splitBlock, clusterTree, splitTree, deal_eq, revSorter, toSizeT,
    List.range_succ, leafNodes, leafLoop, NTree.isLeaf, children]

section apply
variable {G K : Type} [CommRing K] [StarRing K] [DecidableEq K]

/-! ### C11 -/

/-- **C11** On a single process, for every H-matrix whose blocks represent `M`, every transposition
mode, all scalars, every `X` of matching size and every `Y` (which may be uninitialised if
`beta = 0`): `apply` does not fail, and whatever the schedule and the contents of uninitialised
memory, the result is `beta * Y + alpha * op(M) * X` in original dof ordering. -/
theorem C11_apply_correct (s : HSetup G) (compress : BlockData G → HData K) (M : Nat → Nat → K)
    (fits : s.CompressorFits compress) (rep : s.Represents compress M)
    (t : TransposeMode) (α β : K) (X : Mx K) (Y : Mx (Cell K)) (hX : X.rows = s.inRows t)
    (hY : Y.rows = s.outRows t) (hq : Y.cols = X.cols) (hdef : β ≠ 0 → Y.Defined) :
    (∃ Y', Run [s.process compress 1 0] t α β X [Y] Y') ∧
    ∀ Y', Run [s.process compress 1 0] t α β X [Y] Y' →
      Y'.rows = s.outRows t ∧ Y'.cols = X.cols ∧
      ∀ i j, i < s.outRows t → j < X.cols →
        Y'.e i j = some (β * (Y.e i j).getD 0 +
          α * ∑ l ∈ range (s.inRows t), opEntry t M i l * X.e l j) :=
  run_spec s compress M fits rep 1 Nat.one_pos t α β X [Y] rfl hX (by simp [hY, hq]) Y rfl hdef

/-- Example: `beta = 0`, `Y` entirely undefined, conjugate transpose, over `ℂ`-like rings: the
hypotheses hold for the 5 × 3 example. -/
example (M : Nat → Nat → K) (X : Mx K) (hX : X.rows = 5) : ∃ (s : HSetup Unit) (compress : _),
    (leafNodes s.tree).length = 4 ∧ ∃ Y', Run [s.process compress 1 0] .CONJTRANS 1 0 X
      [⟨3, X.cols, fun _ _ => none⟩] Y' := by
  obtain ⟨s, h5, h3, h4, c, hf, hr⟩ := example_setup M
  exact ⟨s, c, h4, (C11_apply_correct s c M hf hr .CONJTRANS 1 0 X ⟨3, X.cols, fun _ _ => none⟩
    (by rw [hX]; exact h5.symm) (by exact h3.symm) rfl (by simp)).1⟩

/-! ### C12 -/

/-- **C12** Whole critical sections: any two interleavings of the same tasks give the same matrix. -/
theorem C12_interleavings_agree (ts : List (List (RowUpdate K))) (s₁ s₂ : List (RowUpdate K))
    (h₁ : Interleaving ts s₁) (h₂ : Interleaving ts s₂) (y : Mx (Cell K)) :
    s₁.foldl rowAdd y = s₂.foldl rowAdd y := by
  have hp : s₁.Perm s₂ := h₁.perm.trans h₂.perm.symm
  have comm : ∀ (y : Mx (Cell K)) (a b : RowUpdate K), rowAdd (rowAdd y a) b = rowAdd (rowAdd y b) a := by
    intro y a b
    unfold rowAdd
    congr 1
    funext r j
    simp only
    split_ifs <;> simp only [Option.map_map, Function.comp_def, add_right_comm]
  exact hp.foldl_eq' (fun x _ z _ w => comm w x z) y

/-- **C12** Single memory accesses: `n` threads add their row updates `work t` to the shared matrix,
taking the lock of a row, reading and writing its cells one at a time and releasing the lock.  In
every state reachable by any schedule in which all threads have finished, every cell holds its
initial value plus the sum of all updates to it.  (So the result does not depend on the schedule,
nor on how the updates were distributed over the threads.) -/
theorem C12_row_locks_result {n : Nat} (cols : Nat) (y0 : Nat → Nat → Option K)
    (work : Fin n → List (RowUpdate K)) (s : RowLocks.State K n)
    (h : RowLocks.Reach cols (RowLocks.start y0 work) s) (hf : RowLocks.Finished s) (i j : Nat) :
    s.y i j = if j < cols then
        (y0 i j).map (· + ∑ t, ((work t).map (fun u => if u.row = i then u.val j else 0)).sum)
      else y0 i j := by
  have inv := RowLocks.inv_reach cols y0 work h
  split
  · rename_i hj
    obtain ⟨c, h1, h2⟩ := inv.cell i j hj
    have : ∑ t, RowLocks.pending (s.th t) i j = 0 := by
      refine Finset.sum_eq_zero fun t _ => ?_
      simp [RowLocks.pending, hf t]
    rw [this, add_zero] at h2
    rw [h1, h2]; rfl
  · exact inv.out i j (by omega)

/-- **C12** The lock protocol does not deadlock and finishes: from every reachable state in which some
thread has not finished a step is possible, and every step decreases a natural number, so
every schedule ends (in a state to which `C12_row_locks_result` applies). -/
theorem C12_row_locks_finish {n : Nat} (cols : Nat) (y0 : Nat → Nat → Option K)
    (work : Fin n → List (RowUpdate K)) :
    (∀ s, RowLocks.Reach cols (RowLocks.start y0 work) s → ¬ RowLocks.Finished s →
      ∃ s', RowLocks.Step cols s s') ∧
    ∃ measure : RowLocks.State K n → Nat,
      ∀ s s', RowLocks.Reach cols (RowLocks.start y0 work) s → RowLocks.Step cols s s' →
        measure s' < measure s :=
  ⟨fun _ hs hf => RowLocks.progress cols y0 work (RowLocks.inv_reach cols y0 work hs) hf,
   RowLocks.work_left cols, fun _ _ hs st =>
    RowLocks.work_left_step cols y0 work (RowLocks.inv_reach cols y0 work hs) st⟩

/-- **C12** Mutual exclusion: two threads are never in the critical section of the same row. -/
theorem C12_row_locks_exclusive {n : Nat} (cols : Nat) (y0 : Nat → Nat → Option K)
    (work : Fin n → List (RowUpdate K)) (s : RowLocks.State K n)
    (h : RowLocks.Reach cols (RowLocks.start y0 work) s) (t t' : Fin n) (u u' : RowUpdate K)
    (rest rest' : List (RowUpdate K)) (h₁ : (s.th t).todo = u :: rest)
    (h₂ : (s.th t').todo = u' :: rest') (p₁ : (s.th t).phase ≠ .idle) (p₂ : (s.th t').phase ≠ .idle)
    (hrow : u.row = u'.row) : t = t' := by
  have inv := RowLocks.inv_reach cols y0 work h
  have a := inv.owns t u rest h₁ p₁
  have b := inv.owns t' u' rest' h₂ p₂
  rw [hrow, b] at a
  exact (Option.some.inj a).symm

/-- **C12** The fine-grained execution refines the coarse one used in C11 and C13: distributing the
updates of a schedule over threads in any way and running the threads in any way gives the matrix
obtained by performing the updates one after the other. -/
theorem C12_row_locks_refine {n : Nat} (y : Mx (Cell K))
    (work : Fin n → List (RowUpdate K)) (sched : List (RowUpdate K))
    (hw : sched.Perm ((List.finRange n).flatMap work)) (s : RowLocks.State K n)
    (h : RowLocks.Reach y.cols (RowLocks.start y.e work) s) (hf : RowLocks.Finished s) :
    s.y = (sched.foldl rowAdd y).e := by
  funext i j
  rw [C12_row_locks_result y.cols y.e work s h hf]
  obtain ⟨_, hc, he⟩ := foldl_rowAdd sched y i j
  have out : ∀ (l : List (RowUpdate K)) (y : Mx (Cell K)), ¬ j < y.cols →
      (l.foldl rowAdd y).e i j = y.e i j := by
    intro l
    induction l with
    | nil => intro y _; rfl
    | cons a l ih =>
      intro y hy
      rw [List.foldl_cons, ih (rowAdd y a) (by exact hy)]
      simp [rowAdd, hy]
  split
  · rename_i hj
    rw [he hj]
    congr 1
    funext z
    congr 1
    rw [(hw.map _).sum_eq, List.map_flatMap]
    rw [← List.sum_ofFn (f := fun t => ((work t).map (fun u => if u.row = i then u.val j else 0)).sum),
      List.ofFn_eq_map]
    induction (List.finRange n) with
    | nil => rfl
    | cons a l ih =>
      simp only [List.map_cons, List.sum_cons, List.flatMap_cons, List.sum_append, ih]
  · rename_i hj
    exact (out sched y hj).symm

/-- Example: two threads updating the same row of a one-column matrix; a complete execution exists
in which thread 1 goes first, and the cell ends up as `5 + 1 + 2`. -/
example : ∃ s, RowLocks.Reach 1 (RowLocks.start (n := 2) (fun _ _ => some (5 : ℤ))
      ![[⟨0, fun _ => 1⟩], [⟨0, fun _ => 2⟩]]) s ∧ RowLocks.Finished s ∧ s.y 0 0 = some 8 := by
  set w : Fin 2 → List (RowUpdate ℤ) := ![[⟨0, fun _ => 1⟩], [⟨0, fun _ => 2⟩]] with hw
  have ex : ∀ k (s : RowLocks.State ℤ 2), RowLocks.work_left 1 s ≤ k →
      RowLocks.Reach 1 (RowLocks.start (fun _ _ => some 5) w) s →
      ∃ s', RowLocks.Reach 1 (RowLocks.start (fun _ _ => some 5) w) s' ∧ RowLocks.Finished s' := by
    intro k
    induction k with
    | zero =>
      intro s hk hs
      by_cases hf : RowLocks.Finished s
      · exact ⟨s, hs, hf⟩
      · obtain ⟨s', st⟩ := (C12_row_locks_finish 1 _ w).1 s hs hf
        have := RowLocks.work_left_step 1 _ w (RowLocks.inv_reach 1 _ w hs) st
        omega
    | succ k ih =>
      intro s hk hs
      by_cases hf : RowLocks.Finished s
      · exact ⟨s, hs, hf⟩
      · obtain ⟨s', st⟩ := (C12_row_locks_finish 1 _ w).1 s hs hf
        have := RowLocks.work_left_step 1 _ w (RowLocks.inv_reach 1 _ w hs) st
        exact ih s' (by omega) (hs.tail st)
  obtain ⟨s, h1, h2⟩ := ex _ _ le_rfl RowLocks.Reach.refl
  refine ⟨s, h1, h2, ?_⟩
  rw [C12_row_locks_result 1 _ w s h1 h2, hw]
  simp [Fin.sum_univ_two]

/-! ### C13 -/

/-- **C13** With `p ≥ 1` processes, each holding its share of the blocks and calling `apply` with its
own output matrix (only that of process 0 matters; the others may be uninitialised), the all-reduced
result is `beta * Y + alpha * op(M) * X` with the `Y` of process 0: the single-process result of C11. -/
theorem C13_apply_any_number_of_processes (s : HSetup G) (compress : BlockData G → HData K)
    (M : Nat → Nat → K) (fits : s.CompressorFits compress) (rep : s.Represents compress M)
    (p : Nat) (hp : 0 < p) (t : TransposeMode) (α β : K) (X : Mx K) (Ys : List (Mx (Cell K)))
    (hl : Ys.length = p) (hX : X.rows = s.inRows t)
    (hY : ∀ Y ∈ Ys, Y.rows = s.outRows t ∧ Y.cols = X.cols)
    (Y0 : Mx (Cell K)) (h0 : Ys[0]? = some Y0) (hdef : β ≠ 0 → Y0.Defined) :
    (∃ Y', Run ((List.range p).map (s.process compress p)) t α β X Ys Y') ∧
    ∀ Y', Run ((List.range p).map (s.process compress p)) t α β X Ys Y' →
      Y'.rows = s.outRows t ∧ Y'.cols = X.cols ∧
      ∀ i j, i < s.outRows t → j < X.cols →
        Y'.e i j = some (β * (Y0.e i j).getD 0 +
          α * ∑ l ∈ range (s.inRows t), opEntry t M i l * X.e l j) :=
  run_spec s compress M fits rep p hp t α β X Ys hl hX hY Y0 h0 hdef

/-- **C13** Each leaf block is held by exactly one process, once, together with its data. -/
theorem C13_leaf_on_one_process (s : HSetup G) (compress : BlockData G → HData K) (p : Nat)
    (hp : 0 < p) (k : Nat) (hk : k < (leafNodes s.tree).length) :
    ∃ r, r < p ∧ (s.process compress p r).myLeafs.count k = 1 ∧
      ((s.process compress p r).data k).isSome = true ∧
      ∀ r', r' < p → r' ≠ r → (s.process compress p r').myLeafs.count k = 0 ∧
        (s.process compress p r').data k = none := by
  have hml : ∀ r, (s.process compress p r).myLeafs = roundRobin r (leafNodes s.tree).length p :=
    fun r => (process_spec s compress p r hp).1
  have hmem : k ∈ (s.process compress p (k % p)).myLeafs := by
    rw [hml, mem_roundRobin _ _ _ _ hp]
    refine ⟨Nat.mod_le _ _, hk, ?_⟩
    have := Nat.div_add_mod k p
    have e : k - k % p = p * (k / p) := by omega
    rw [e]; simp
  refine ⟨k % p, Nat.mod_lt _ hp, ?_, ?_, ?_⟩
  · refine List.count_eq_one_of_mem ?_ hmem
    rw [hml]; exact nodup_roundRobin _ _ _ hp
  · obtain ⟨b, _, h2⟩ := (process_spec s compress p (k % p) hp).2.2.2.2.2 k hmem
    rw [h2]; rfl
  · intro r' hr' hne
    have hnm : k ∉ roundRobin r' (leafNodes s.tree).length p := by
      rw [mem_roundRobin _ _ _ _ hp]
      rintro ⟨h1, _, h3⟩
      apply hne
      obtain ⟨q, hq⟩ := Nat.dvd_of_mod_eq_zero h3
      have : k = r' + p * q := by omega
      rw [this, Nat.add_mul_mod_self_left, Nat.mod_eq_of_lt hr']
    refine ⟨by rw [hml]; exact List.count_eq_zero.mpr hnm, ?_⟩
    show storeBlocks _ _ _ _ k = none
    rw [init_data_fold, if_neg]
    · rfl
    · simpa [HMatrix.new, HMatrix.reset] using hnm

/-- Example: three processes share the four blocks of the 5 × 3 example; processes 1 and 2 pass
undefined output matrices. -/
example (M : Nat → Nat → K) (X : Mx K) (hX : X.rows = 3) (y : K) :
    ∃ (s : HSetup Unit) (compress : _), (leafNodes s.tree).length = 4 ∧
      ∃ Y', Run ((List.range 3).map (s.process compress 3)) .NOTRANS 1 2 X
        [⟨5, X.cols, fun _ _ => some y⟩, ⟨5, X.cols, fun _ _ => none⟩, ⟨5, X.cols, fun _ _ => none⟩]
        Y' := by
  obtain ⟨s, h5, h3, h4, c, hf, hr⟩ := example_setup M
  refine ⟨s, c, h4, (C13_apply_any_number_of_processes s c M hf hr 3 (by omega) .NOTRANS 1 2 X _ rfl
    (by rw [hX]; exact h3.symm) ?_ _ rfl ?_).1⟩
  · intro Y hY
    have : s.outRows .NOTRANS = 5 := h5
    simp only [List.mem_cons, List.not_mem_nil, or_false] at hY
    rcases hY with rfl | rfl | rfl <;> exact ⟨this.symm, rfl⟩
  · intro _ i j _ _; rfl

/-! ### C15 -/

/-- **C15** For the row and the column ordering: reordering a matrix to H-matrix dofs and back, or
back and forth, never fails and returns the same entries, whatever the uninitialised memory held. -/
theorem C15_permute_roundtrip {α : Type} (s : HSetup G) (compress : BlockData G → HData K)
    (p r : Nat) (hp : 0 < p) (sel : RowColSelector) (mat : Mx α)
    (hrows : mat.rows = match sel with | .ROW => s.rows | .COL => s.cols)
    (g₁ g₂ : Nat → Nat → α) :
    (∃ m₁ m₂, (s.process compress p r).permuteMatToHMatDofs mat sel g₁ = some m₁ ∧
      (s.process compress p r).permuteMatToOriginalDofs m₁ sel g₂ = some m₂ ∧
      m₂.rows = mat.rows ∧ m₂.cols = mat.cols ∧
      ∀ i j, i < mat.rows → j < mat.cols → m₂.e i j = mat.e i j) ∧
    (∃ m₁ m₂, (s.process compress p r).permuteMatToOriginalDofs mat sel g₁ = some m₁ ∧
      (s.process compress p r).permuteMatToHMatDofs m₁ sel g₂ = some m₂ ∧
      m₂.rows = mat.rows ∧ m₂.cols = mat.cols ∧
      ∀ i j, i < mat.rows → j < mat.cols → m₂.e i j = mat.e i j) := by
  obtain ⟨_, _, hrp, hcp, _, _⟩ := process_spec s compress p r hp
  have okR : PermOK s.rows s.pR := permOK_of_dofPermutation s.hR
  have okC : PermOK s.cols s.pC := permOK_of_dofPermutation s.hC
  obtain ⟨n, P, ok, hn, e1, e2⟩ : ∃ n P, PermOK n P ∧ mat.rows = n ∧
      (∀ (m : Mx α) g, (s.process compress p r).permuteMatToHMatDofs m sel g =
        permuteRows P.o2h m g) ∧
      (∀ (m : Mx α) g, (s.process compress p r).permuteMatToOriginalDofs m sel g =
        permuteRows P.h2o m g) := by
    cases sel
    · exact ⟨_, s.pR, okR, hrows, fun _ _ => rfl, fun _ _ => rfl⟩
    · exact ⟨_, s.pC, okC, hrows, fun _ _ => rfl, fun _ _ => rfl⟩
  simp only [e1, e2]
  constructor
  · obtain ⟨m₁, a1, a2, a3, a4⟩ := permuteRows_spec _ _ ok.o2h mat hn g₁
    obtain ⟨m₂, b1, b2, b3, b4⟩ := permuteRows_spec _ _ ok.h2o m₁ a2 g₂
    refine ⟨m₁, m₂, a1, b1, by rw [b2, hn], by rw [b3, a3], ?_⟩
    intro i j hi hj
    obtain ⟨I, _, c1, c2⟩ := ok.fwd i (by omega)
    rw [b4 I i c2 j (by rw [a3]; exact hj), a4 i I c1 j hj]
  · obtain ⟨m₁, a1, a2, a3, a4⟩ := permuteRows_spec _ _ ok.h2o mat hn g₁
    obtain ⟨m₂, b1, b2, b3, b4⟩ := permuteRows_spec _ _ ok.o2h m₁ a2 g₂
    refine ⟨m₁, m₂, a1, b1, by rw [b2, hn], by rw [b3, a3], ?_⟩
    intro i j hi hj
    obtain ⟨I, _, c1, c2⟩ := ok.bwd i (by omega)
    rw [b4 I i c2 j (by rw [a3]; exact hj), a4 i I c1 j hj]

/-! ### C16 -/

/-- **C16** A low-rank block with factors `A` (`m × k`), `B` (`k × n`) acts as a dense block that holds
the product `A B`, in every mode and for all scalars; `rank = 0` is included (the product is then
zero). -/
theorem C16_lowrank_apply (A B X Y : Mx K) (hB : B.rows = A.cols) (t : TransposeMode) (α β : K) (i j : Nat) :
    (lowRankApply A B X Y t α β).e i j = (denseApply (A.mul B) X Y t α β).e i j := by
  have h1 := HData.apply_entry (.lowRank A B) A.rows B.cols ⟨rfl, rfl, hB⟩ X Y t α β i j
  have h2 := HData.apply_entry (.dense (A.mul B)) A.rows B.cols ⟨rfl, rfl⟩ X Y t α β i j
  exact h1.trans h2.symm

/-- **C16** The squared Frobenius norm computed for a low-rank block is that of the product `A B`. -/
theorem C16_lowrank_norm (A B : Mx K) (hB : B.rows = A.cols) :
    lowRankNormSq A B = denseNormSq (A.mul B) := by
  rw [lowRankNormSq_eq A B hB]; rfl

/-- **C16** What both compute: `beta * Y + alpha * op(M) * X`. -/
theorem C16_block_apply (d : HData K) (m n : Nat) (h : d.Shape m n) (X Y : Mx K) (t : TransposeMode)
    (α β : K) (i j : Nat) :
    (d.apply X Y t α β).e i j =
      β * Y.e i j + α * ∑ l ∈ range (if t.keepsRows then n else m),
        opEntry t d.entry i l * X.e l j := by
  rw [HData.apply_entry d m n h X Y t α β i j]

/-- Example: a rank-0 block of size 2 × 3 is the zero matrix. -/
example (X Y : Mx K) (α β : K) (i j : Nat) :
    (lowRankApply (Mx.zero 2 0) (Mx.zero 0 3) X Y .NOTRANS α β).e i j = β * Y.e i j := by
  rw [C16_lowrank_apply _ _ _ _ rfl .NOTRANS α β]
  by_cases hb : β = 0 <;> by_cases ha : α = 0 <;>
    simp [denseApply, Mx.mul, Mx.smul, Mx.add, Mx.zero, ha, hb]

end apply
end Verif.HMat
