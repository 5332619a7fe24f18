import Verif.Lemmas.HMatrix4
import Verif.Model.Compressor
/-
Lemmas on the dense compressor and the Frobenius norm.
-/
set_option linter.unusedSectionVars false
namespace Verif.HMat
open Finset NTree CTree HMatrix

theorem denseCompress_fits {G K : Type} (s : HSetup G) (entry : Nat → Nat → K) :
    s.CompressorFits (denseCompress entry) := by
  intro b _
  exact ⟨rfl, rfl⟩

theorem denseCompress_represents {G K : Type} [CommRing K] (s : HSetup G) (M : Nat → Nat → K) :
    s.Represents (denseCompress fun I J => M (s.pR.h2o[I]?.getD 0) (s.pC.h2o[J]?.getD 0)) M := by
  intro b hb i j I J hI hJ hcov
  have okR : PermOK s.rows s.pR := permOK_of_dofPermutation s.hR
  have okC : PermOK s.cols s.pC := permOK_of_dofPermutation s.hC
  have hi : i < s.rows := by
    have := (List.getElem?_eq_some_iff.mp hI).1; rw [okR.o2h.length_eq] at this; simpa using this
  have hj : j < s.cols := by
    have := (List.getElem?_eq_some_iff.mp hJ).1; rw [okC.o2h.length_eq] at this; simpa using this
  obtain ⟨I', _, e1, e2⟩ := okR.fwd i hi
  rw [hI] at e1; injection e1 with e1; subst e1
  obtain ⟨J', _, e3, e4⟩ := okC.fwd j hj
  rw [hJ] at e3; injection e3 with e3; subst e3
  have hc := decide_eq_true_iff.mp (show decide _ = true from hcov)
  show M i j = M (s.pR.h2o[b.data.row.data.lo + (I - b.data.row.data.lo)]?.getD 0)
    (s.pC.h2o[b.data.col.data.lo + (J - b.data.col.data.lo)]?.getD 0)
  have x1 : b.data.row.data.lo + (I - b.data.row.data.lo) = I := by omega
  have x2 : b.data.col.data.lo + (J - b.data.col.data.lo) = J := by omega
  rw [x1, x2, e2, e4]; rfl

/-! ### Norms of blocks -/

theorem lowRankNormSq_eq {K : Type} [CommRing K] [StarRing K] (A B : Mx K) (hB : B.rows = A.cols) :
    lowRankNormSq A B = ∑ i ∈ range A.rows, ∑ j ∈ range B.cols,
      star (∑ k ∈ range A.cols, A.e i k * B.e k j) * ∑ k ∈ range A.cols, A.e i k * B.e k j := by
  unfold lowRankNormSq
  by_cases h0 : A.cols = 0
  · simp [h0]
  · rw [if_neg h0]
    have fold : ∀ (l : List Nat) (f : Nat → K) (z : K),
        l.foldl (fun r i => r + f i) z = z + (l.map f).sum := by
      intro l f
      induction l with
      | nil => intro z; simp
      | cons a l ih => intro z; rw [List.foldl_cons, ih]; simp [add_assoc]
    simp only []
    rw [fold, ← sum_range_list, zero_add, Finset.sum_comm]
    refine Finset.sum_congr rfl fun j _ => ?_
    simp only [Mx.mul, Mx.adjoint, Mx.block, hB, zero_add, add_zero]
    simp only [Finset.sum_mul, star_sum, star_mul', Finset.mul_sum]
    -- left: ∑ k ∑ k' ∑ i, right: ∑ i ∑ k ∑ k'
    have hL : ∀ k k' i, star (B.e k' j) * (star (A.e i k') * A.e i k) * B.e k j =
      star (A.e i k') * star (B.e k' j) * (A.e i k * B.e k j) := by intro k k' i; ring
    simp only [hL]
    symm
    rw [Finset.sum_comm]
    conv_lhs => enter [2, a]; rw [Finset.sum_comm]

theorem normSq_eq {K : Type} [CommRing K] [StarRing K] (d : HData K) (m n : Nat)
    (h : d.Shape m n) :
    d.normSq = ∑ i ∈ range m, ∑ j ∈ range n, star (d.entry i j) * d.entry i j := by
  cases d with
  | dense A => obtain ⟨rfl, rfl⟩ := h; rfl
  | lowRank A B => obtain ⟨rfl, rfl, h⟩ := h; exact lowRankNormSq_eq A B h

theorem re_normSq {K : Type} [RCLike K] (d : HData K) (m n : Nat) (h : d.Shape m n) :
    RCLike.re d.normSq = ∑ i ∈ range m, ∑ j ∈ range n, ‖d.entry i j‖ ^ 2 := by
  rw [normSq_eq d m n h]
  simp only [map_sum]
  refine Finset.sum_congr rfl fun i _ => Finset.sum_congr rfl fun j _ => ?_
  have := RCLike.conj_mul (d.entry i j)
  rw [starRingEnd_apply] at this
  rw [this]
  norm_cast

/-! ### Identification of leaves -/

theorem eq_of_countP_one {β : Type} (l : List β) (P : β → Bool) (h : l.countP P = 1) (a b : β)
    (ha : a ∈ l) (hb : b ∈ l) (pa : P a = true) (pb : P b = true) : a = b := by
  rw [List.countP_eq_length_filter] at h
  obtain ⟨x, hx⟩ := List.length_eq_one_iff.mp h
  have m1 : a ∈ l.filter P := List.mem_filter.mpr ⟨ha, pa⟩
  have m2 : b ∈ l.filter P := List.mem_filter.mpr ⟨hb, pb⟩
  rw [hx, List.mem_singleton] at m1 m2
  rw [m1, m2]

theorem clusterTree_zero_leaf {G : Type} (geo : List Nat → G) (srt : Sorter G) (minB : Int) :
    (clusterTree geo srt minB 0).isLeaf = true := by
  have hg := clusterTree_good geo srt minB 0
  have hix : (clusterTree geo srt minB 0).ix = List.range 0 := (splitTree_data _ _ _ _ _ _).2
  cases h : clusterTree geo srt minB 0 with
  | leaf d ix => rfl
  | node d ix l r =>
    rw [h] at hg hix
    obtain ⟨_, _, _, h4, _⟩ := hg
    simp only [ix_node] at hix
    rw [hix] at h4; simp at h4

theorem leaf_nonempty {G : Type} (s : HSetup G) (hr : 0 < s.rows) (hc : 0 < s.cols) :
    ∀ b ∈ leafNodes s.tree, b.data.row.data.lo < b.data.row.data.hi ∧
      b.data.col.data.lo < b.data.col.data.hi := by
  intro b hb
  have hgR := clusterTree_good s.geoR s.srtR s.minR s.rows
  have hgC := clusterTree_good s.geoC s.srtC s.minC s.cols
  have d1 : (clusterTree s.geoR s.srtR s.minR s.rows).data = ⟨0, s.rows, s.geoR (List.range s.rows)⟩ :=
    (splitTree_data _ _ _ _ _ _).1
  have d2 : (clusterTree s.geoC s.srtC s.minC s.cols).data = ⟨0, s.cols, s.geoC (List.range s.cols)⟩ :=
    (splitTree_data _ _ _ _ _ _).1
  have := (splitBlock_leaves s.admFun s.maxB
    (fun r c _ => (Good s.geoR s.minR r ∧ r.data.lo < r.data.hi) ∧
      (Good s.geoC s.minC c ∧ c.data.lo < c.data.hi))
    (by
      intro d ix r0 r1 d' ix' c0 c1 f ⟨⟨g1, _⟩, ⟨g2, _⟩⟩
      obtain ⟨_, _, _, _, _, _, _, a1, a2, _, _, _, a3, a4⟩ := g1
      obtain ⟨_, _, _, _, _, _, _, b1, b2, _, _, _, b3, b4⟩ := g2
      exact ⟨⟨⟨a3, a1⟩, b3, b1⟩, ⟨⟨a3, a1⟩, b4, b2⟩, ⟨⟨a4, a2⟩, b3, b1⟩, ⟨⟨a4, a2⟩, b4, b2⟩⟩)
    _ _ _ ⟨⟨hgR, by rw [d1]; exact hr⟩, hgC, by rw [d2]; exact hc⟩ b
      ((leafNodes_perm _).mem_iff.mp hb)).1
  exact ⟨this.1.2, this.2.2⟩

theorem tree_single {G : Type} (s : HSetup G) (h : s.rows = 0 ∨ s.cols = 0) :
    ∃ x, s.tree = .node x [] := by
  unfold HSetup.tree blockClusterTree
  rw [splitBlock_stop]
  · exact ⟨_, rfl⟩
  · right
    rcases h with h | h
    · left; rw [h]; exact clusterTree_zero_leaf _ _ _
    · right; rw [h]; exact clusterTree_zero_leaf _ _ _

/-- Two leaves with the same ranges are the same leaf. -/
theorem leaf_key_inj {G : Type} (s : HSetup G) (a b : NTree (BlockData G))
    (ha : a ∈ leafNodes s.tree) (hb : b ∈ leafNodes s.tree) (h : a.data.key = b.data.key) :
    a = b := by
  by_cases hz : s.rows = 0 ∨ s.cols = 0
  · obtain ⟨x, hx⟩ := tree_single s hz
    have m1 := (leafNodes_perm _).mem_iff.mp ha
    have m2 := (leafNodes_perm _).mem_iff.mp hb
    rw [hx] at m1 m2
    simp only [allLeaves, List.mem_singleton] at m1 m2
    rw [m1, m2]
  · have hr := leaf_nonempty s (by omega) (by omega) a ha
    have hrg := leaf_ranges s a ha
    simp only [BlockData.key, Prod.mk.injEq] at h
    refine eq_of_countP_one _ (fun l => l.data.covers a.data.row.data.lo a.data.col.data.lo)
      (C05_leaves_tile_matrix s.geoR s.geoC s.srtR s.srtC s.minR s.minC s.rows s.cols s.admFun s.maxB
        _ _ ?_ ?_) a b ha hb ?_ ?_
    · omega
    · omega
    · exact decide_eq_true ⟨le_rfl, hr.1, le_rfl, hr.2⟩
    · exact decide_eq_true ⟨by omega, by omega, by omega, by omega⟩

theorem dataAt_single {G K : Type} (s : HSetup G) (compress : BlockData G → HData K)
    (b : NTree (BlockData G)) (hb : b ∈ leafNodes s.tree) :
    (s.process compress 1 0).dataAt b.data = some (compress b.data) := by
  obtain ⟨hml, htree, _, _, _, hdata⟩ := process_spec s compress 1 0 Nat.one_pos
  unfold HMatrix.dataAt
  rw [htree]
  obtain ⟨k, hk, hkb⟩ := List.getElem_of_mem hb
  cases hf : (List.range s.tree.leafNodes.length).find? (fun k =>
      (s.tree.leafNodes[k]?.map fun l => l.data.key) == some b.data.key) with
  | none =>
    rw [List.find?_eq_none] at hf
    have := hf k (by simpa using hk)
    rw [List.getElem?_eq_getElem hk, hkb] at this
    simp at this
  | some q =>
    have h1 := List.find?_some hf
    have h2 := List.mem_of_find?_eq_some hf
    rw [List.mem_range] at h2
    rw [List.getElem?_eq_getElem h2] at h1
    simp only [Option.map_some, beq_iff_eq, Option.some.injEq] at h1
    have e := leaf_key_inj s _ b (List.getElem_mem h2) hb h1
    have hq : q ∈ (s.process compress 1 0).myLeafs := by
      rw [hml, HMatrix.mem_roundRobin _ _ _ _ Nat.one_pos]
      exact ⟨Nat.zero_le _, h2, by omega⟩
    obtain ⟨b', e1, e2⟩ := hdata q hq
    rw [List.getElem?_eq_getElem h2, e] at e1
    injection e1 with e1
    rw [Option.bind_some, e2, e1]

/-! ### The recursive norm -/

section
variable {G K : Type} [RCLike K]

mutual
theorem frobeniusNormImpl_eq (h : HMatrix G K) (Q : BlockData G → ℝ) (t : NTree (BlockData G))
    (hQ : ∀ b ∈ allLeaves t, 0 ≤ Q b.data ∧
      (h.dataAt b.data).map leafNorm = some (Real.sqrt (Q b.data))) :
    h.frobeniusNormImpl t = some (Real.sqrt (((allLeaves t).map fun b => Q b.data).sum)) := by
  cases t with
  | node d cs =>
    cases cs with
    | nil =>
      rw [frobeniusNormImpl]
      have := (hQ (.node d []) (by simp [allLeaves])).2
      simpa [allLeaves, NTree.data] using this
    | cons c cs =>
      rw [frobeniusNormImpl, frobeniusSquares_eq h Q (c :: cs) (by rw [allLeaves] at hQ; exact hQ)]
      rw [allLeaves]; rfl
theorem frobeniusSquares_eq (h : HMatrix G K) (Q : BlockData G → ℝ) (ts : List (NTree (BlockData G)))
    (hQ : ∀ b ∈ allLeavesL ts, 0 ≤ Q b.data ∧
      (h.dataAt b.data).map leafNorm = some (Real.sqrt (Q b.data))) :
    h.frobeniusSquares ts = some (((allLeavesL ts).map fun b => Q b.data).sum) := by
  cases ts with
  | nil => simp [frobeniusSquares, allLeavesL]
  | cons c cs =>
    have h1 : ∀ b ∈ allLeaves c, _ := fun b hb => hQ b (by rw [allLeavesL]; simp [hb])
    have h2 : ∀ b ∈ allLeavesL cs, _ := fun b hb => hQ b (by rw [allLeavesL]; simp [hb])
    rw [frobeniusSquares, frobeniusNormImpl_eq h Q c h1, frobeniusSquares_eq h Q cs h2, allLeavesL]
    simp only [Option.bind_some, Option.map_some, List.map_append, List.sum_append]
    rw [Real.mul_self_sqrt]
    apply List.sum_nonneg
    intro x hx
    obtain ⟨b, hb, rfl⟩ := List.mem_map.mp hx
    exact (h1 b hb).1
end

theorem sum_leaves {s : HSetup G} (F : Nat → Nat → ℝ) :
    ((leafNodes s.tree).map (fun b => ∑ i ∈ range b.data.row.size, ∑ j ∈ range b.data.col.size,
      F (b.data.row.data.lo + i) (b.data.col.data.lo + j))).sum =
    ∑ I ∈ range s.rows, ∑ J ∈ range s.cols, F I J := by
  have e1 : (leafNodes s.tree).map (fun b => ∑ i ∈ range b.data.row.size,
      ∑ j ∈ range b.data.col.size, F (b.data.row.data.lo + i) (b.data.col.data.lo + j)) =
      (leafNodes s.tree).map (fun b => ∑ I ∈ range s.rows, ∑ J ∈ range s.cols,
        if b.data.covers I J = true then F I J else 0) := by
    apply List.map_congr_left
    intro b hb
    have hr := leaf_ranges s b hb
    unfold CTree.size
    rw [sum_shift _ _ s.rows hr.2.1 (fun I => ∑ j ∈ range (b.data.col.data.hi - b.data.col.data.lo),
      F I (b.data.col.data.lo + j))]
    refine Finset.sum_congr rfl fun I _ => ?_
    rw [sum_shift _ _ s.cols hr.2.2.2 (fun J => F I J)]
    by_cases h : b.data.row.data.lo ≤ I ∧ I < b.data.row.data.hi
    · rw [if_pos h]
      refine Finset.sum_congr rfl fun J _ => ?_
      have : b.data.covers I J = true ↔ b.data.col.data.lo ≤ J ∧ J < b.data.col.data.hi := by
        unfold BlockData.covers; rw [decide_eq_true_iff]; tauto
      by_cases h2 : b.data.col.data.lo ≤ J ∧ J < b.data.col.data.hi
      · rw [if_pos h2, if_pos (this.mpr h2)]
      · rw [if_neg h2, if_neg (fun x => h2 (this.mp x))]
    · rw [if_neg h]
      symm
      apply Finset.sum_eq_zero
      intro J _
      rw [if_neg]
      unfold BlockData.covers; rw [decide_eq_true_iff]; tauto
  rw [e1, list_sum_comm]
  refine Finset.sum_congr rfl fun I hI => ?_
  rw [list_sum_comm]
  refine Finset.sum_congr rfl fun J hJ => ?_
  rw [sum_countP]
  have := C05_leaves_tile_matrix s.geoR s.geoC s.srtR s.srtC s.minR s.minC s.rows s.cols s.admFun s.maxB
    I J (Finset.mem_range.mp hI) (Finset.mem_range.mp hJ)
  unfold HSetup.tree
  rw [this]; simp

end

end Verif.HMat
