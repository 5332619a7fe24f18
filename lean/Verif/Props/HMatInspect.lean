import Verif.Lemmas.HMatInspect
/-
Property C105: inspecting an H-matrix (`bempp.api.hmat.hmatrix_interface`).
-/
set_option linter.unusedSectionVars false
namespace Verif.HMat
open NTree HMatrix

variable {G K : Type}

/-- **C105** Iterating over `block_cluster_tree(op).leaf_nodes` never fails and yields every leaf of the
tree exactly once: only leaves, each matrix entry in the ranges of exactly one of them, and no entry
outside the matrix. -/
theorem C105_leaf_nodes (s : HSetup G) :
    ∃ l, iterateLeafs s.tree = some l ∧ l.Perm (leafNodes s.tree) ∧
      (∀ b ∈ l, b.isLeaf = true ∧ b.data.rowRange.2 ≤ s.rows ∧ b.data.columnRange.2 ≤ s.cols) ∧
      ∀ I J, I < s.rows → J < s.cols →
        l.countP (fun b => decide (b.data.rowRange.1 ≤ I ∧ I < b.data.rowRange.2 ∧
          b.data.columnRange.1 ≤ J ∧ J < b.data.columnRange.2)) = 1 := by
  refine ⟨allLeaves s.tree, splitBlock_iterate _ _ _ _ _, (leafNodes_perm _).symm, ?_, ?_⟩
  · intro b hb
    have := leaf_ranges s b ((leafNodes_perm _).mem_iff.mpr hb)
    exact ⟨allLeaves_isLeaf _ b hb, this.2.1, this.2.2.2⟩
  · intro I J hI hJ
    have := C05_leaves_tile_matrix s.geoR s.geoC s.srtR s.srtC s.minR s.minC s.rows s.cols s.admFun
      s.maxB I J hI hJ
    rw [(leafNodes_perm _).countP_eq] at this
    exact this

/-- **C105** On one process the blocks returned by `data_block` for the leaf nodes are the blocks `apply`
uses: every leaf node has one, of the node's shape, and the matrix put together from them
(`A`, or `A B` for low rank, written at the row and column ranges of the node) is the matrix `M` of C11,
in H-matrix numbering. -/
theorem C105_reassembled [CommRing K] (s : HSetup G) (compress : BlockData G → HData K)
    (M : Nat → Nat → K) (fits : s.CompressorFits compress) (rep : s.Represents compress M) :
    ∃ l D, iterateLeafs (s.process compress 1 0).tree = some l ∧
      (∀ b ∈ l, ∃ d, (s.process compress 1 0).dataBlock b = some d ∧ (d.rows, d.cols) = b.data.shape) ∧
      reassemble (s.process compress 1 0) (fun _ _ => 0) l = some D ∧
      ∀ i j I J, s.pR.o2h[i]? = some I → s.pC.o2h[j]? = some J → D I J = M i j := by
  have hv : ∀ b ∈ allLeaves s.tree, (s.process compress 1 0).dataBlock b = some (compress b.data) :=
    fun b hb => dataAt_single s compress b ((leafNodes_perm _).mem_iff.mpr hb)
  obtain ⟨D, h1, h2⟩ := reassemble_spec (s.process compress 1 0) (fun b => compress b.data)
    (allLeaves s.tree) hv (fun _ _ => 0)
  refine ⟨allLeaves s.tree, D, splitBlock_iterate _ _ _ _ _, ?_, h1, ?_⟩
  · intro b hb
    refine ⟨_, hv b hb, ?_⟩
    have := fits b ((leafNodes_perm _).mem_iff.mpr hb)
    cases hd : compress b.data with
    | dense A => rw [hd] at this; exact Prod.ext this.1 this.2
    | lowRank A B => rw [hd] at this; exact Prod.ext this.1 this.2.1
  · intro i j I J hI hJ
    have okR : PermOK s.rows s.pR := permOK_of_dofPermutation s.hR
    have okC : PermOK s.cols s.pC := permOK_of_dofPermutation s.hC
    have hIr : I < s.rows := by
      have := (okR.o2h.mem_iff).mp (List.mem_of_getElem? hI); simpa using this
    have hJc : J < s.cols := by
      have := (okC.o2h.mem_iff).mp (List.mem_of_getElem? hJ); simpa using this
    have hc := C05_leaves_tile_matrix s.geoR s.geoC s.srtR s.srtC s.minR s.minC s.rows s.cols s.admFun
      s.maxB I J hIr hJc
    have hc' := hc
    rw [(leafNodes_perm _).countP_eq] at hc'
    obtain ⟨b, hb, hbc⟩ := List.countP_pos_iff.mp (by rw [hc]; exact Nat.one_pos)
    have := (h2 I J).2 b ((leafNodes_perm _).mem_iff.mp hb) hbc hc'
    rw [this, rep b hb i j I J hI hJ hbc]

/-- **C105** The counts: on one process `number_of_dense_blocks` and `number_of_low_rank_blocks` are the
numbers of leaf nodes whose data block is dense / of low rank, and `number_of_blocks` is the number of
leaf nodes. -/
theorem C105_counts (s : HSetup G) (compress : BlockData G → HData K) :
    (s.process compress 1 0).numDense =
      (leafNodes s.tree).countP (fun b => ((s.process compress 1 0).dataBlock b).any (·.isDense)) ∧
    (s.process compress 1 0).numLowRank =
      (leafNodes s.tree).countP (fun b => ((s.process compress 1 0).dataBlock b).any (!·.isDense)) ∧
    (s.process compress 1 0).numberOfBlocks = (leafNodes s.tree).length := by
  have key : ∀ (p : HData K → Bool),
      (List.range s.tree.leafNodes.length).countP
        (fun k => ((s.process compress 1 0).data k).any p) =
      (leafNodes s.tree).countP (fun b => ((s.process compress 1 0).dataBlock b).any p) := by
    intro p
    have e : (List.range s.tree.leafNodes.length).countP
        (fun k => ((s.process compress 1 0).data k).any p) =
        (List.range s.tree.leafNodes.length).countP
        (fun k => (s.tree.leafNodes[k]?).any (fun b => p (compress b.data))) := by
      apply List.countP_congr
      intro k hk
      have hk' : k < s.tree.leafNodes.length := by simpa using hk
      rw [process_data s compress k hk', List.getElem?_eq_getElem hk']
      rfl
    rw [e]
    have e2 : (leafNodes s.tree).countP (fun b => ((s.process compress 1 0).dataBlock b).any p) =
        (leafNodes s.tree).countP (fun b => p (compress b.data)) := by
      apply List.countP_congr
      intro b hb
      have : (s.process compress 1 0).dataBlock b = some (compress b.data) := dataAt_single s compress b hb
      rw [this]; rfl
    rw [e2]
    generalize leafNodes s.tree = l
    clear e e2
    induction l with
    | nil => rfl
    | cons a l ih =>
      rw [List.length_cons, List.range_succ_eq_map, List.countP_cons, List.countP_cons, List.countP_map]
      rw [← ih]
      rfl
  have h1 : (s.process compress 1 0).numDense = (List.range s.tree.leafNodes.length).countP
        (fun k => ((s.process compress 1 0).data k).any (fun d => d.isDense)) := by
    show 0 + _ = _
    rw [Nat.zero_add]; rfl
  have h2 : (s.process compress 1 0).numLowRank = (List.range s.tree.leafNodes.length).countP
        (fun k => ((s.process compress 1 0).data k).any (fun d => !d.isDense)) := by
    show 0 + _ = _
    rw [Nat.zero_add]; rfl
  refine ⟨h1.trans (key _), h2.trans (key _), ?_⟩
  unfold numberOfBlocks
  rw [h1, h2, key, key]
  have : ∀ l : List (NTree (BlockData G)), (∀ b ∈ l, ∃ d, (s.process compress 1 0).dataBlock b = some d) →
      l.countP (fun b => ((s.process compress 1 0).dataBlock b).any (!·.isDense)) +
      l.countP (fun b => ((s.process compress 1 0).dataBlock b).any (·.isDense)) = l.length := by
    intro l hl
    induction l with
    | nil => rfl
    | cons a l ih =>
      have := ih (fun b hb => hl b (List.mem_cons_of_mem _ hb))
      obtain ⟨d, hd⟩ := hl a (List.mem_cons_self ..)
      rw [List.countP_cons, List.countP_cons, List.length_cons, hd]
      cases hq : d.isDense <;> simp [hq] <;> omega
  exact this _ fun b hb => ⟨_, dataAt_single s compress b hb⟩

/-- What a block reports is the memory of the entries it stores. -/
theorem memSizeKb_eq (bytes : Nat) (d : HData K) (m n : Nat) (h : d.Shape m n) :
    d.memSizeKb bytes = (bytes * d.storedEntries : ℚ) / 1024 := by
  cases d with
  | dense A => simp only [HData.memSizeKb, HData.storedEntries]; push_cast; ring
  | lowRank A B =>
    obtain ⟨_, _, h3⟩ := h
    simp only [HData.memSizeKb, HData.storedEntries, h3]
    push_cast
    ring

/-- **C105** `rank` of a low rank block is the number of columns of its first factor and of rows of its second: the block is a sum
of that many products of a column and a row. -/
theorem C105_rank [CommRing K] (A B : Mx K) (m n : Nat) (h : (HData.lowRank A B).Shape m n) :
    (HData.lowRank A B).rank = A.cols ∧ (HData.lowRank A B).rank = B.rows ∧
    ∀ i j, (HData.lowRank A B).entry i j = ∑ k ∈ Finset.range (HData.lowRank A B).rank, A.e i k * B.e k j :=
  ⟨rfl, h.2.2.symm, fun _ _ => rfl⟩

/-- **C105** `compression_rate` is the reported memory divided by the memory of the dense matrix of 8 (real) or 16 (complex) bytes
per entry. -/
theorem C105_compression_rate (mem : ℤ) (isFloat64 : Bool) (rows cols : Nat) (hr : 0 < rows) (hc : 0 < cols) :
    compressionRate mem isFloat64 rows cols * ((rows * cols : ℕ) * (if isFloat64 = true then 8 else 16 : ℚ)) = mem * 1024 := by
  have h1 : (rows : ℚ) ≠ 0 := by exact_mod_cast hr.ne'
  have h2 : (cols : ℚ) ≠ 0 := by exact_mod_cast hc.ne'
  unfold compressionRate
  cases isFloat64 <;> push_cast <;> field_simp <;> norm_num

theorem mem_size_aux (s : HSetup G) (compress : BlockData G → HData K) (bytes : Nat) :
    (∃ n, (s.process compress 1 0).MemSize bytes n) ∧
    ∀ n, (s.process compress 1 0).MemSize bytes n →
      n = ((leafNodes s.tree).map fun b => ⌊(compress b.data).memSizeKb bytes⌋).sum ∧
      trueMemKb bytes (s.process compress 1 0) =
        ((leafNodes s.tree).map fun b => (bytes * (compress b.data).storedEntries : ℚ) / 1024).sum ∧
      (n : ℚ) ≤ ((leafNodes s.tree).map fun b => (compress b.data).memSizeKb bytes).sum ∧
      ((leafNodes s.tree).map fun b => (compress b.data).memSizeKb bytes).sum <
        n + (s.process compress 1 0).numberOfBlocks := by
  refine ⟨⟨_, _, List.Perm.refl _, rfl⟩, ?_⟩
  have sumEq : ∀ {β : Type} [AddCommMonoid β] (f : HData K → β),
      ((List.range s.tree.leafNodes.length).map fun k =>
        match (s.process compress 1 0).data k with
        | none => 0
        | some d => f d).sum = ((leafNodes s.tree).map fun b => f (compress b.data)).sum := by
    intro β _ f
    have e : ((List.range s.tree.leafNodes.length).map fun k =>
        match (s.process compress 1 0).data k with
        | none => 0
        | some d => f d) = (leafNodes s.tree).map fun b => f (compress b.data) := by
      apply List.ext_getElem
      · simp
      · intro k h1 h2
        simp only [List.getElem_map, List.getElem_range]
        have hk : k < s.tree.leafNodes.length := by simpa using h2
        rw [process_data s compress k hk]
    rw [e]
  have htrue : trueMemKb bytes (s.process compress 1 0) =
        ((leafNodes s.tree).map fun b => (bytes * (compress b.data).storedEntries : ℚ) / 1024).sum :=
    sumEq (fun d => (bytes * d.storedEntries : ℚ) / 1024)
  intro n ⟨order, hp, hn⟩
  have hall : ((List.range (s.process compress 1 0).tree.leafNodes.length).filter
      fun k => ((s.process compress 1 0).data k).isSome) = List.range s.tree.leafNodes.length := by
    show (List.range s.tree.leafNodes.length).filter _ = _
    rw [List.filter_eq_self]
    intro k hk
    rw [process_data s compress k (by simpa using hk)]; rfl
  rw [hall] at hp
  have hnv : n = ((leafNodes s.tree).map fun b => ⌊(compress b.data).memSizeKb bytes⌋).sum := by
    rw [hn, memLoop_eq bytes _ order 0 le_rfl, zero_add, (hp.map _).sum_eq]
    exact sumEq (fun d => ⌊d.memSizeKb bytes⌋)
  refine ⟨hnv, htrue, ?_⟩
  rw [(C105_counts s compress).2.2, hnv]
  have hpos : leafNodes s.tree ≠ [] := by
    intro h
    have h2 := (leafNodes_perm s.tree).symm
    rw [h] at h2
    exact allLeaves_ne_nil _ h2.eq_nil
  have bound : ∀ l : List (NTree (BlockData G)),
      ((((l.map fun b => ⌊(compress b.data).memSizeKb bytes⌋).sum : ℤ) : ℚ) ≤
        (l.map fun b => (compress b.data).memSizeKb bytes).sum) ∧
      (l ≠ [] → (l.map fun b => (compress b.data).memSizeKb bytes).sum <
        (((l.map fun b => ⌊(compress b.data).memSizeKb bytes⌋).sum : ℤ) : ℚ) + (l.length : ℚ)) ∧
      ((l.map fun b => (compress b.data).memSizeKb bytes).sum ≤
        (((l.map fun b => ⌊(compress b.data).memSizeKb bytes⌋).sum : ℤ) : ℚ) + (l.length : ℚ)) := by
    intro l
    induction l with
    | nil => simp
    | cons a l ih =>
      obtain ⟨h1, h2, h3⟩ := ih
      have f1 := Int.floor_le ((compress a.data).memSizeKb bytes)
      have f2 := Int.lt_floor_add_one ((compress a.data).memSizeKb bytes)
      simp only [List.map_cons, List.sum_cons, List.length_cons]
      rw [Int.cast_add, Nat.cast_add, Nat.cast_one]
      exact ⟨by linarith, fun _ => by linarith, by linarith⟩
  exact ⟨(bound _).1, (bound _).2.1 hpos⟩

/-- **C105 (partial)** `mem_size`: there is exactly one possible value (the enumeration order of the hash
map does not matter); it is an integer that is at most the memory of the stored blocks in kB and
falls short of it by less than 1 kB *per block*.  Missing: that it is that memory up to rounding, which is
false, see the counterexample. -/
theorem C105_mem_size_partial (s : HSetup G) (compress : BlockData G → HData K) (hfit : s.CompressorFits compress) (bytes : Nat) :
    (∃ n, (s.process compress 1 0).MemSize bytes n) ∧
    ∀ n, (s.process compress 1 0).MemSize bytes n →
      n = ((leafNodes s.tree).map fun b => ⌊(bytes * (compress b.data).storedEntries : ℚ) / 1024⌋).sum ∧
      trueMemKb bytes (s.process compress 1 0) =
        ((leafNodes s.tree).map fun b => (bytes * (compress b.data).storedEntries : ℚ) / 1024).sum ∧
      (n : ℚ) ≤ trueMemKb bytes (s.process compress 1 0) ∧
      trueMemKb bytes (s.process compress 1 0) < n + (s.process compress 1 0).numberOfBlocks := by
  obtain ⟨h1, h2⟩ := mem_size_aux s compress bytes
  refine ⟨h1, fun n hn => ?_⟩
  obtain ⟨a1, a2, a3, a4⟩ := h2 n hn
  have e1 : ((leafNodes s.tree).map fun b => (compress b.data).memSizeKb bytes) =
      (leafNodes s.tree).map fun b => (bytes * (compress b.data).storedEntries : ℚ) / 1024 :=
    List.map_congr_left fun b hb => memSizeKb_eq bytes _ _ _ (hfit b hb)
  have e2 : ((leafNodes s.tree).map fun b => ⌊(compress b.data).memSizeKb bytes⌋) =
      (leafNodes s.tree).map fun b => ⌊(bytes * (compress b.data).storedEntries : ℚ) / 1024⌋ :=
    List.map_congr_left fun b hb => by rw [memSizeKb_eq bytes _ _ _ (hfit b hb)]
  rw [e2] at a1
  rw [e1, ← a2] at a3 a4
  exact ⟨a1, a2, a3, a4⟩

/-- Example: the 5 × 3 matrix with four blocks; the hypotheses of `C105_reassembled` hold for every matrix. -/
example [CommRing K] (M : Nat → Nat → K) : ∃ (s : HSetup Unit) (compress : BlockData Unit → HData K) (D : Nat → Nat → K),
    (s.process compress 1 0).numberOfBlocks = 4 ∧ (s.process compress 1 0).numLowRank = 0 ∧
    ∀ i j I J, s.pR.o2h[i]? = some I → s.pC.o2h[j]? = some J → D I J = M i j := by
  obtain ⟨s, _, _, h4, c, hf, hr⟩ := example_setup_dense M
  obtain ⟨l, D, h1, h2, h3, h5⟩ := C105_reassembled s _ M hf hr
  refine ⟨s, denseCompress c, D, (C105_counts s _).2.2.trans h4, ?_, h5⟩
  rw [(C105_counts s _).2.1, List.countP_eq_zero]
  intro b hb
  have : (s.process (denseCompress c) 1 0).dataBlock b = some (denseCompress c b.data) :=
    dataAt_single s _ b hb
  rw [this]
  simp [denseCompress, HData.isDense]

/-- **C105 is false of the code** (1): `mem_size` truncates after every block.  For every bound there is
an H-matrix over `float64` entries that stores more kB than the bound and whose `mem_size` and
`compression_rate` are 0. -/
theorem C105_counterexample_mem_size [CommRing K] (M : Nat → Nat → K) (bound : ℚ) :
    ∃ (s : HSetup Unit) (compress : BlockData Unit → HData K),
      s.CompressorFits compress ∧ s.Represents compress M ∧
      bound < trueMemKb 8 (s.process compress 1 0) ∧
      ∀ n, (s.process compress 1 0).MemSize 8 n →
        n = 0 ∧ compressionRate n true s.rows s.cols = 0 := by
  obtain ⟨k, hk⟩ := exists_nat_gt bound
  obtain ⟨s, h1, h2, h3, h4, h5, h6, h7, h8, h9, h10⟩ := exists_setup (fun _ => ()) (fun _ => ())
    (revSorter Unit) (revSorter Unit) ((8 : ℕ) : ℤ) ((8 : ℕ) : ℤ) (8 * 2 ^ k) (8 * 2 ^ k)
    (fun _ _ => false) 100
  refine ⟨s, _, denseCompress_fits s _, denseCompress_represents s M, ?_⟩
  set c : BlockData Unit → HData K := denseCompress _ with hc
  have hsz : ∀ b ∈ leafNodes s.tree, b.data.row.size = 8 ∧ b.data.col.size = 8 := by
    intro b hb
    have hb' := (leafNodes_perm _).mem_iff.mp hb
    unfold HSetup.tree blockClusterTree at hb'
    rw [h1, h2, h3, h4, h5, h6, h7, h8, h9, h10] at hb'
    have hp : (clusterTree (fun _ => ()) (revSorter Unit) ((8 : ℕ) : ℤ) (8 * 2 ^ k)).Perfect 8 k :=
      splitTree_perfect _ _ 8 (by norm_num) (by norm_num) k 0 _ _ (List.length_range) (by simp)
    exact splitBlock_perfect _ 8 k _ _ hp hp b hb'
  have hmem : ∀ b ∈ leafNodes s.tree, ((8 : ℕ) * (c b.data).storedEntries : ℚ) / 1024 = 1 / 2 := by
    intro b hb
    obtain ⟨e1, e2⟩ := hsz b hb
    unfold CTree.size at e1 e2
    simp only [hc, denseCompress, HData.storedEntries, e1, e2]
    norm_num
  have hcount : (leafNodes s.tree).length * 64 = (8 * 2 ^ k) * (8 * 2 ^ k) := by
    have := sum_leaves (s := s) (fun _ _ => 1)
    simp only [Finset.sum_const, Finset.card_range, nsmul_eq_mul, mul_one] at this
    have e : (leafNodes s.tree).map (fun b => (b.data.row.size : ℝ) * (b.data.col.size : ℝ)) =
        (leafNodes s.tree).map (fun _ => (64 : ℝ)) := by
      apply List.map_congr_left
      intro b hb
      rw [(hsz b hb).1, (hsz b hb).2]; norm_num
    rw [e, List.map_const', List.sum_replicate, nsmul_eq_mul, h7, h8] at this
    exact_mod_cast this
  have hlen' : (k : ℚ) ≤ (leafNodes s.tree).length / 2 := by
    have e : (leafNodes s.tree).length = 2 ^ k * 2 ^ k := by nlinarith [hcount]
    have h4 : k + 1 ≤ 2 ^ k := Nat.lt_two_pow_self
    have h5 : 2 * k ≤ (leafNodes s.tree).length := by
      rw [e]
      calc 2 * k ≤ (k + 1) * (k + 1) := by nlinarith
        _ ≤ _ := Nat.mul_le_mul h4 h4
    have h6 : (2 : ℚ) * k ≤ (leafNodes s.tree).length := by exact_mod_cast h5
    linarith
  have hfit : s.CompressorFits c := denseCompress_fits s _
  have part := (C105_mem_size_partial s c hfit 8).2
  constructor
  · obtain ⟨n, hn⟩ := (C105_mem_size_partial s c hfit 8).1
    rw [(part n hn).2.1]
    have e : (leafNodes s.tree).map (fun b => ((8 : ℕ) * (c b.data).storedEntries : ℚ) / 1024) =
        (leafNodes s.tree).map (fun _ => (1 / 2 : ℚ)) := List.map_congr_left hmem
    rw [e, List.map_const', List.sum_replicate, nsmul_eq_mul]
    linarith
  · intro n hn
    have : n = 0 := by
      rw [(part n hn).1]
      have e : (leafNodes s.tree).map (fun b => ⌊((8 : ℕ) * (c b.data).storedEntries : ℚ) / 1024⌋) =
          (leafNodes s.tree).map (fun _ => (0 : ℤ)) := by
        apply List.map_congr_left
        intro b hb
        rw [hmem b hb]; norm_num
      rw [e, List.map_const', List.sum_replicate, nsmul_zero]
    refine ⟨this, ?_⟩
    rw [this]; simp [compressionRate]

/-- **C105 is false of the code** (2): with two or more processes every process other than the first
offers leaf nodes for which `data_block` raises an exception (the block is on another process), whatever
the H-matrix. -/
theorem C105_counterexample_processes [CommRing K] [StarRing K] [DecidableEq K] (s : HSetup G) (compress : BlockData G → HData K) (p r : Nat)
    (hr : r < p) (hr0 : r ≠ 0) :
    ∃ l, iterateLeafs (s.process compress p r).tree = some l ∧
      ∃ b ∈ l, (s.process compress p r).dataBlock b = none := by
  obtain ⟨l, h1, h2, _⟩ := C105_leaf_nodes s
  refine ⟨l, h1, ?_⟩
  cases hl : leafNodes s.tree with
  | nil =>
    have h2 := (leafNodes_perm s.tree).symm
    rw [hl] at h2
    exact (allLeaves_ne_nil _ h2.eq_nil).elim
  | cons b rest =>
    refine ⟨b, h2.mem_iff.mpr (by rw [hl]; exact List.mem_cons_self ..), ?_⟩
    have hp : 0 < p := by omega
    have hk : 0 < (leafNodes s.tree).length := by rw [hl]; simp
    obtain ⟨r0, _, g2, _, g4⟩ := C13_leaf_on_one_process s compress p hp 0 hk
    have hnone : (s.process compress p r).data 0 = none := by
      refine (g4 r hr ?_).2
      rintro rfl
      have hmem : 0 ∈ (s.process compress p r).myLeafs := List.count_pos_iff.mp (by rw [g2]; exact Nat.one_pos)
      rw [(process_spec s compress p r hp).1, mem_roundRobin _ _ _ _ hp] at hmem
      omega
    show HMatrix.dataAt _ _ = none
    unfold HMatrix.dataAt
    obtain ⟨_, htree, _⟩ := process_spec s compress p r hp
    rw [htree, hl, List.length_cons, List.range_succ_eq_map, List.find?_cons_of_pos (by simp)]
    exact hnone

end Verif.HMat
