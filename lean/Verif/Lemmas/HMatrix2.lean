import Verif.Lemmas.HMatrix
import Verif.Spec.HMatrix
import Verif.Props.BlockClusterTree
/-
Lemmas for the correctness of `HMatrix::apply`.
-/
set_option linter.unusedSectionVars false
namespace Verif.HMat
open Finset NTree CTree

/-! ### round robin -/

namespace HMatrix

theorem mem_roundRobin (i n p k : Nat) (hp : 0 < p) :
    k ∈ roundRobin i n p ↔ i ≤ k ∧ k < n ∧ (k - i) % p = 0 := by
  fun_induction roundRobin i n p with
  | case1 i h ih =>
    rw [List.mem_cons, ih]
    constructor
    · rintro (rfl | ⟨h1, h2, h3⟩)
      · exact ⟨le_rfl, h.1, by simp⟩
      · refine ⟨by omega, h2, ?_⟩
        have : k - i = (k - (i + p)) + p := by omega
        rw [this, Nat.add_mod_right, h3]
    · rintro ⟨h1, h2, h3⟩
      by_cases hk : k = i
      · exact Or.inl hk
      · right
        have : i + p ≤ k := by
          by_contra hlt
          rw [Nat.mod_eq_of_lt (by omega)] at h3
          omega
        refine ⟨this, h2, ?_⟩
        have e : k - i = (k - (i + p)) + p := by omega
        rw [e, Nat.add_mod_right] at h3
        exact h3
  | case2 i h => simp; intro h1 h2; exact absurd ⟨by omega, hp⟩ h

theorem nodup_roundRobin (i n p : Nat) (hp : 0 < p) : (roundRobin i n p).Nodup := by
  fun_induction roundRobin i n p with
  | case1 i h ih =>
    rw [List.nodup_cons]
    refine ⟨?_, ih⟩
    rw [mem_roundRobin _ _ _ _ hp]; omega
  | case2 => simp

/-- Every leaf belongs to exactly one process. -/
theorem roundRobin_perm (n p : Nat) (hp : 0 < p) :
    ((List.range p).flatMap (fun r => roundRobin r n p)).Perm (List.range n) := by
  rw [List.perm_ext_iff_of_nodup]
  · intro k
    simp only [List.mem_flatMap, List.mem_range, mem_roundRobin _ _ _ _ hp]
    constructor
    · rintro ⟨r, _, _, h, _⟩; exact h
    · intro h
      refine ⟨k % p, Nat.mod_lt _ hp, Nat.mod_le _ _, h, ?_⟩
      have := Nat.div_add_mod k p
      have e : k - k % p = p * (k / p) := by omega
      rw [e]; simp
  · rw [List.nodup_flatMap]
    refine ⟨fun r _ => nodup_roundRobin _ _ _ hp, ?_⟩
    have : (List.range p).Pairwise (· < ·) := List.pairwise_lt_range
    refine (List.Pairwise.and_mem.mp this).imp ?_
    rintro r r' ⟨h1, h2, hlt⟩
    rw [Function.onFun, List.disjoint_left]
    intro k hk hk'
    rw [mem_roundRobin _ _ _ _ hp] at hk hk'
    simp only [List.mem_range] at h1 h2
    have e1 := Nat.div_add_mod (k - r) p
    have e2 := Nat.div_add_mod (k - r') p
    rw [hk.2.2] at e1; rw [hk'.2.2] at e2
    -- p * a = k - r, p * b = k - r'
    have : p * ((k - r) / p) - p * ((k - r') / p) = r' - r := by omega
    rw [← Nat.mul_sub] at this
    rcases Nat.eq_zero_or_pos ((k - r) / p - (k - r') / p) with h0 | h0
    · rw [h0] at this; omega
    · have := Nat.le_mul_of_pos_right p h0; omega
  · exact List.nodup_range

end HMatrix

section
variable {G K : Type}

theorem init_data_fold (leafs : List (NTree (BlockData G))) (compress : BlockData G → HData K)
    (mine : List Nat) (m : Nat → Option (HData K)) (k : Nat) :
    HMatrix.storeBlocks leafs compress mine m k =
    if k ∈ mine then (match leafs[k]? with | some b => some (compress b.data) | none => m k)
    else m k := by
  induction mine generalizing m with
  | nil => simp [HMatrix.storeBlocks]
  | cons x mine ih =>
    have e : HMatrix.storeBlocks leafs compress (x :: mine) m =
      HMatrix.storeBlocks leafs compress mine (match leafs[x]? with
          | some b => Function.update m x (some (compress b.data))
          | none => m) := rfl
    rw [e, ih]
    by_cases hx : k = x
    · subst hx
      cases h : leafs[k]? with
      | none => simp
      | some b => simp
    · have hu : (match leafs[x]? with
          | some b => Function.update m x (some (compress b.data))
          | none => m) k = m k := by
        cases leafs[x]? with
        | none => rfl
        | some b => simp [Function.update, hx]
      rw [hu]
      simp [hx]

theorem process_spec (s : HSetup G) (compress : BlockData G → HData K) (p r : Nat) (hp : 0 < p) :
    (s.process compress p r).myLeafs = HMatrix.roundRobin r s.tree.leafNodes.length p ∧
    (s.process compress p r).tree = s.tree ∧ (s.process compress p r).rowPerm = s.pR ∧
    (s.process compress p r).colPerm = s.pC ∧ (s.process compress p r).rank = r ∧
    ∀ k ∈ (s.process compress p r).myLeafs, ∃ b, s.tree.leafNodes[k]? = some b ∧
      (s.process compress p r).data k = some (compress b.data) := by
  refine ⟨by simp [HSetup.process, HMatrix.init, HMatrix.new, HMatrix.reset], rfl, rfl, rfl, rfl, ?_⟩
  intro k hk
  have hk' : k ∈ HMatrix.roundRobin r s.tree.leafNodes.length p := by
    simpa [HSetup.process, HMatrix.init, HMatrix.new, HMatrix.reset] using hk
  have hlt := ((HMatrix.mem_roundRobin _ _ _ _ hp).mp hk').2.1
  refine ⟨s.tree.leafNodes[k], List.getElem?_eq_getElem hlt, ?_⟩
  show HMatrix.storeBlocks _ _ _ _ k = _
  rw [init_data_fold]
  have : k ∈ (HMatrix.new s.tree s.pR s.pC p r : HMatrix G K).reset.myLeafs ++
      HMatrix.roundRobin (HMatrix.new s.tree s.pR s.pC p r : HMatrix G K).reset.rank
        (HMatrix.new s.tree s.pR s.pC p r : HMatrix G K).reset.tree.leafNodes.length
        (HMatrix.new s.tree s.pR s.pC p r : HMatrix G K).reset.nproc := by
    simpa [HMatrix.new, HMatrix.reset] using hk'
  rw [if_pos this]
  have e : (HMatrix.new s.tree s.pR s.pC p r : HMatrix G K).reset.tree.leafNodes[k]? =
      some s.tree.leafNodes[k] := List.getElem?_eq_getElem hlt
  rw [e]

theorem subtree_range {geo : List Nat → G} {minB : Int} {t : CTree G} (h : Good geo minB t) :
    ∀ s ∈ t.subtrees, t.data.lo ≤ s.data.lo ∧ s.data.lo ≤ s.data.hi ∧ s.data.hi ≤ t.data.hi := by
  induction t with
  | leaf d ix => intro s hs; simp [subtrees] at hs; subst hs; exact ⟨le_rfl, (good_len h).2.1, le_rfl⟩
  | node d ix l r ihl ihr =>
    intro s hs
    obtain ⟨_, _, _, _, h1, h2, h3, h4, h5, _, _, _, hl, hr⟩ := id h
    simp only [subtrees, List.mem_cons, List.mem_append] at hs
    rcases hs with rfl | hs | hs
    · exact ⟨le_rfl, (good_len h).2.1, le_rfl⟩
    · have := ihl hl s hs
      simp only [data_node]; omega
    · have := ihr hr s hs
      simp only [data_node]; omega

theorem leaf_ranges (s : HSetup G) : ∀ b ∈ leafNodes s.tree,
    b.data.row.data.lo ≤ b.data.row.data.hi ∧ b.data.row.data.hi ≤ s.rows ∧
    b.data.col.data.lo ≤ b.data.col.data.hi ∧ b.data.col.data.hi ≤ s.cols := by
  intro b hb
  have hgR := clusterTree_good s.geoR s.srtR s.minR s.rows
  have hgC := clusterTree_good s.geoC s.srtC s.minC s.cols
  have := (splitBlock_leaves s.admFun s.maxB
    (fun r c _ => r ∈ (clusterTree s.geoR s.srtR s.minR s.rows).subtrees ∧
      c ∈ (clusterTree s.geoC s.srtC s.minC s.cols).subtrees)
    (by
      intro d ix r0 r1 d' ix' c0 c1 f ⟨h1, h2⟩
      have m1 := child_mem_subtrees h1
      have m2 := child_mem_subtrees h2
      exact ⟨⟨m1.1, m2.1⟩, ⟨m1.1, m2.2⟩, ⟨m1.2, m2.1⟩, ⟨m1.2, m2.2⟩⟩)
    _ _ _ ⟨self_mem_subtrees _, self_mem_subtrees _⟩ b ((leafNodes_perm _).mem_iff.mp hb)).1
  have h1 : (clusterTree s.geoR s.srtR s.minR s.rows).data = ⟨0, s.rows, s.geoR (List.range s.rows)⟩ :=
    (splitTree_data _ _ _ _ _ _).1
  have h2 : (clusterTree s.geoC s.srtC s.minC s.cols).data = ⟨0, s.cols, s.geoC (List.range s.cols)⟩ :=
    (splitTree_data _ _ _ _ _ _).1
  have a := subtree_range hgR _ this.1
  have c := subtree_range hgC _ this.2
  rw [h1] at a; rw [h2] at c
  exact ⟨a.2.1, a.2.2, c.2.1, c.2.2⟩

end

section
variable {G K : Type} [CommRing K] [StarRing K] [DecidableEq K]

theorem sum_shift (lo hi n : Nat) (h : hi ≤ n) (g : Nat → K) :
    ∑ k ∈ range (hi - lo), g (lo + k) = ∑ J ∈ range n, if lo ≤ J ∧ J < hi then g J else 0 := by
  rw [← Finset.sum_Ico_eq_sum_range, ← Finset.sum_filter]
  congr 1
  ext J; simp; omega

/-- The leaf contributions expressed by the represented matrix in H-matrix numbering. -/
theorem contribution_eq (s : HSetup G) (b : BlockData G) (d : HData K) (M' : Nat → Nat → K)
    (hr : b.row.data.hi ≤ s.rows) (hc : b.col.data.hi ≤ s.cols)
    (hM : ∀ I J, I < s.rows → J < s.cols → b.covers I J = true →
      M' I J = d.entry (I - b.row.data.lo) (J - b.col.data.lo))
    (t : TransposeMode) (x : Mx K) (r j : Nat) :
    HMatrix.contribution t b d x r j = ∑ J ∈ range (s.inRows t),
      if (if t.keepsRows then b.covers r J else b.covers J r) = true
      then opEntry t M' r J * x.e J j else 0 := by
  have cov : ∀ I J, b.covers I J = true ↔
      (b.row.data.lo ≤ I ∧ I < b.row.data.hi ∧ b.col.data.lo ≤ J ∧ J < b.col.data.hi) := by
    intro I J; unfold BlockData.covers; exact decide_eq_true_iff
  unfold HMatrix.contribution
  by_cases hk : t.keepsRows = true
  · simp only [hk, if_true, HSetup.inRows]
    by_cases hin : b.row.data.lo ≤ r ∧ r < b.row.data.hi
    · rw [if_pos hin]
      have h1 := sum_shift b.col.data.lo b.col.data.hi s.cols hc
        (fun J => opEntry t d.entry (r - b.row.data.lo) (J - b.col.data.lo) * x.e J j)
      simp only [Nat.add_sub_cancel_left] at h1
      rw [h1]
      refine Finset.sum_congr rfl fun J hJ => ?_
      by_cases hJ2 : b.col.data.lo ≤ J ∧ J < b.col.data.hi
      · have hcov : b.covers r J = true := (cov r J).mpr ⟨hin.1, hin.2, hJ2.1, hJ2.2⟩
        rw [if_pos hJ2, if_pos hcov]
        have e := hM r J (by omega) (by simpa using hJ) hcov
        cases t <;> simp [TransposeMode.keepsRows] at hk <;> simp only [opEntry, e]
      · rw [if_neg hJ2, if_neg]
        rw [cov]; omega
    · rw [if_neg hin]
      symm
      apply Finset.sum_eq_zero
      intro J _
      rw [if_neg]
      rw [cov]; omega
  · have hkf : t.keepsRows = false := by simpa using hk
    simp only [hkf, HSetup.inRows, Bool.false_eq_true, if_false]
    by_cases hin : b.col.data.lo ≤ r ∧ r < b.col.data.hi
    · rw [if_pos hin]
      have h1 := sum_shift b.row.data.lo b.row.data.hi s.rows hr
        (fun J => opEntry t d.entry (r - b.col.data.lo) (J - b.row.data.lo) * x.e J j)
      simp only [Nat.add_sub_cancel_left] at h1
      rw [h1]
      refine Finset.sum_congr rfl fun J hJ => ?_
      by_cases hJ2 : b.row.data.lo ≤ J ∧ J < b.row.data.hi
      · have hcov : b.covers J r = true := (cov J r).mpr ⟨hJ2.1, hJ2.2, hin.1, hin.2⟩
        rw [if_pos hJ2, if_pos hcov]
        have e := hM J r (by simpa using hJ) (by omega) hcov
        cases t <;> simp [TransposeMode.keepsRows] at hk <;> simp only [opEntry, e]
      · rw [if_neg hJ2, if_neg]
        rw [cov]; omega
    · rw [if_neg hin]
      symm
      apply Finset.sum_eq_zero
      intro J _
      rw [if_neg]
      rw [cov]; omega

theorem sum_countP {β : Type} (l : List β) (P : β → Bool) (c : K) :
    (l.map (fun b => if P b = true then c else 0)).sum = (l.countP P : K) * c := by
  induction l with
  | nil => simp
  | cons b l ih =>
    rw [List.map_cons, List.sum_cons, ih, List.countP_cons]
    by_cases h : P b = true
    · simp [h]; ring
    · simp [h]

theorem list_sum_comm {β : Type} (l : List β) (n : Nat) (g : β → Nat → K) :
    (l.map (fun b => ∑ J ∈ range n, g b J)).sum = ∑ J ∈ range n, (l.map (fun b => g b J)).sum := by
  induction l with
  | nil => simp
  | cons b l ih => simp only [List.map_cons, List.sum_cons, ih, Finset.sum_add_distrib]

/-- All leaves together contribute the matrix-vector product (H-matrix numbering). -/
theorem sum_contributions (s : HSetup G) (compress : BlockData G → HData K) (M' : Nat → Nat → K)
    (hM : ∀ b ∈ leafNodes s.tree, ∀ I J, I < s.rows → J < s.cols → b.data.covers I J = true →
      M' I J = (compress b.data).entry (I - b.data.row.data.lo) (J - b.data.col.data.lo))
    (t : TransposeMode) (x : Mx K) (r j : Nat) (hr : r < s.outRows t) :
    ((leafNodes s.tree).map (fun b => HMatrix.contribution t b.data (compress b.data) x r j)).sum =
      ∑ J ∈ range (s.inRows t), opEntry t M' r J * x.e J j := by
  have h1 : (leafNodes s.tree).map (fun b => HMatrix.contribution t b.data (compress b.data) x r j) =
      (leafNodes s.tree).map (fun b => ∑ J ∈ range (s.inRows t),
        if (if t.keepsRows then b.data.covers r J else b.data.covers J r) = true
        then opEntry t M' r J * x.e J j else 0) := by
    apply List.map_congr_left
    intro b hb
    have := leaf_ranges s b hb
    exact contribution_eq s b.data (compress b.data) M' this.2.1 this.2.2.2 (hM b hb) t x r j
  rw [h1, list_sum_comm]
  refine Finset.sum_congr rfl fun J hJ => ?_
  rw [sum_countP]
  have : (leafNodes s.tree).countP
      (fun b => if t.keepsRows then b.data.covers r J else b.data.covers J r) = 1 := by
    by_cases hk : t.keepsRows = true
    · simp only [hk, if_true]
      simp only [HSetup.outRows, HSetup.inRows, hk, if_true] at hr hJ
      exact C05_leaves_tile_matrix _ _ _ _ _ _ _ _ _ _ r J hr (by simpa using hJ)
    · simp only [hk]
      simp only [HSetup.outRows, HSetup.inRows, hk] at hr hJ
      exact C05_leaves_tile_matrix _ _ _ _ _ _ _ _ _ _ J r (by simpa using hJ) (by simpa using hr)
  rw [this]; simp

end
end Verif.HMat
