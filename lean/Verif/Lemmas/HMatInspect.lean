import Verif.Spec.HMatInspect
import Verif.Props.HMatrix
import Mathlib.Tactic.Linarith
import Mathlib.Algebra.Order.Floor.Ring
set_option linter.unusedSectionVars false
namespace Verif.HMat
open NTree HMatrix

section leaves
variable {G K : Type}

theorem splitBlock_iterate (admFun : NodeData G → NodeData G → Bool) (maxB : Int)
    (row col : CTree G) (flag : Bool) :
    iterateLeafs (splitBlock admFun maxB row col flag) =
      some (allLeaves (splitBlock admFun maxB row col flag)) := by
  induction row generalizing col flag with
  | leaf d ix =>
    rw [splitBlock_stop _ _ _ _ _ (Or.inr (Or.inl rfl))]
    rfl
  | node d ix r0 r1 ih0 ih1 =>
    cases col with
    | leaf d' ix' =>
      rw [splitBlock_stop _ _ _ _ _ (Or.inr (Or.inr rfl))]
      rfl
    | node d' ix' c0 c1 =>
      unfold splitBlock
      generalize (if oversized maxB (CTree.node d ix r0 r1) (CTree.node d' ix' c0 c1) = true then false
        else flag) = c
      cases c
      rotate_left
      · rfl
      · rw [if_neg (by simp)]
        simp only [iterateLeafs, iterateLeafsL, allLeaves, allLeavesL, List.length_cons,
          List.length_nil, ih0, ih1]
        rfl

theorem allLeaves_ne_nil {α : Type} : ∀ t : NTree α, allLeaves t ≠ []
  | .node _ [] => by simp [allLeaves]
  | .node _ (c :: cs) => by
    rw [allLeaves, allLeavesL]
    intro h
    exact allLeaves_ne_nil c (List.append_eq_nil_iff.mp h).1

/-- The example of `example_setup` with its compressor. -/
theorem example_setup_dense {K : Type} [CommRing K] (M : Nat → Nat → K) :
    ∃ s : HSetup Unit, s.rows = 5 ∧ s.cols = 3 ∧ (leafNodes s.tree).length = 4 ∧
      ∃ e : Nat → Nat → K, s.CompressorFits (denseCompress e) ∧ s.Represents (denseCompress e) M := by
  obtain ⟨s, h1, h2, h3, h4, h5, h6, h7, h8, h9, h10⟩ := exists_setup (fun _ => ()) (fun _ => ())
    (revSorter Unit) (revSorter Unit) 3 2 5 3 (fun _ _ => false) 100
  refine ⟨s, h7, h8, ?_, _, denseCompress_fits s _, denseCompress_represents s M⟩
  unfold HSetup.tree
  rw [h1, h2, h3, h4, h5, h6, h7, h8, h9, h10]
  simp [blockClusterTree, splitBlock, clusterTree, splitTree, deal_eq, revSorter, toSizeT,
    List.range_succ, leafNodes, leafLoop, NTree.isLeaf, children]

theorem reassemble_spec [CommRing K] (h : HMatrix G K) (val : NTree (BlockData G) → HData K)
    (l : List (NTree (BlockData G))) (hv : ∀ b ∈ l, h.dataBlock b = some (val b)) (D : Nat → Nat → K) :
    ∃ D', reassemble h D l = some D' ∧ ∀ I J,
      (l.countP (fun b => b.data.covers I J) = 0 → D' I J = D I J) ∧
      ∀ b ∈ l, b.data.covers I J = true → l.countP (fun b => b.data.covers I J) = 1 →
        D' I J = (val b).entry (I - b.data.row.data.lo) (J - b.data.col.data.lo) := by
  induction l generalizing D with
  | nil => exact ⟨D, rfl, fun I J => ⟨fun _ => rfl, fun b hb => by cases hb⟩⟩
  | cons a l ih =>
    obtain ⟨D', h1, h2⟩ := ih (fun b hb => hv b (List.mem_cons_of_mem _ hb))
      (fun I J =>
      if a.data.rowRange.1 ≤ I ∧ I < a.data.rowRange.2 ∧
        a.data.columnRange.1 ≤ J ∧ J < a.data.columnRange.2
      then (val a).entry (I - a.data.rowRange.1) (J - a.data.columnRange.1) else D I J)
    refine ⟨D', ?_, ?_⟩
    · show (h.dataBlock a >>= fun d => _) = _
      rw [hv a (List.mem_cons_self ..)]
      exact h1
    · intro I J
      obtain ⟨h3, h4⟩ := h2 I J
      rw [List.countP_cons]
      constructor
      · intro h0
        have hc : a.data.covers I J = false := by
          by_contra hc
          rw [Bool.not_eq_false] at hc
          rw [hc] at h0; simp at h0
        rw [hc] at h0
        rw [h3 (by simpa using h0)]
        unfold BlockData.covers at hc
        rw [decide_eq_false_iff_not] at hc
        exact if_neg hc
      · intro b hb hbc h1'
        rcases List.mem_cons.mp hb with rfl | hb
        · rw [hbc] at h1'
          rw [h3 (by simpa using h1')]
          unfold BlockData.covers at hbc
          rw [decide_eq_true_iff] at hbc
          exact if_pos hbc
        · refine h4 b hb hbc ?_
          have : 0 < l.countP (fun b => b.data.covers I J) :=
            List.countP_pos_iff.mpr ⟨b, hb, hbc⟩
          split at h1' <;> omega

theorem process_data (s : HSetup G) (compress : BlockData G → HData K) (k : Nat)
    (hk : k < s.tree.leafNodes.length) :
    (s.process compress 1 0).data k = some (compress (s.tree.leafNodes[k]).data) := by
  obtain ⟨hml, htree, _, _, _, hdata⟩ := process_spec s compress 1 0 Nat.one_pos
  obtain ⟨b, h1, h2⟩ := hdata k (by
    rw [hml, mem_roundRobin _ _ _ _ Nat.one_pos]; exact ⟨Nat.zero_le _, hk, Nat.mod_one _⟩)
  rw [List.getElem?_eq_getElem hk] at h1
  rw [h2, Option.some.inj h1]

end leaves

section mem
variable {K : Type}

theorem HData.memSizeKb_nonneg (bytes : Nat) (d : HData K) : 0 ≤ d.memSizeKb bytes := by
  cases d <;> exact div_nonneg (Nat.cast_nonneg _) (by norm_num)

theorem memLoop_eq (bytes : Nat) (data : Nat → Option (HData K)) (order : List Nat) (m0 : ℤ)
    (h0 : 0 ≤ m0) :
    memLoop bytes data order m0 = m0 + (order.map fun k =>
      match data k with
      | none => 0
      | some d => ⌊d.memSizeKb bytes⌋).sum := by
  induction order generalizing m0 with
  | nil => simp [memLoop]
  | cons k l ih =>
    unfold memLoop at ih ⊢
    rw [List.foldl_cons, List.map_cons, List.sum_cons]
    cases hd : data k with
    | none =>
      dsimp only
      rw [ih m0 h0]
      ring
    | some d =>
      dsimp only
      have hn := d.memSizeKb_nonneg bytes
      have hq : (0:ℚ) ≤ (m0 : ℚ) + d.memSizeKb bytes :=
        add_nonneg (by exact_mod_cast h0) hn
      have hf : 0 ≤ ⌊d.memSizeKb bytes⌋ := Int.floor_nonneg.mpr hn
      have e : truncToInt ((m0 : ℚ) + d.memSizeKb bytes) = m0 + ⌊d.memSizeKb bytes⌋ := by
        unfold truncToInt
        rw [if_pos hq, Int.floor_intCast_add]
      rw [e, ih _ (by omega)]
      ring

end mem

/-! ### Perfectly balanced trees -/
section perfect
variable {G : Type}

/-- All leaves at depth `k` with `m` indices. -/
def CTree.Perfect (m : Nat) : Nat → CTree G → Prop
  | 0, t => t.isLeaf = true ∧ t.size = m
  | k + 1, .node _ _ l r => Perfect m k l ∧ Perfect m k r
  | _ + 1, .leaf _ _ => False

theorem splitTree_perfect (geo : List Nat → G) (srt : Sorter G) (m : Nat) (hm : 0 < m) (hm' : m < 2 ^ 64)
    (k lo hi : Nat) (ix : List Nat) (h1 : ix.length = m * 2 ^ k) (h2 : hi = lo + ix.length) :
    (splitTree geo srt m lo hi ix).Perfect m k := by
  have hs : toSizeT m = m := by
    unfold toSizeT
    rw [Int.emod_eq_of_lt (by omega) (by exact_mod_cast hm')]
    exact Int.toNat_natCast m
  induction k generalizing lo hi ix with
  | zero =>
    rw [pow_zero, mul_one] at h1
    unfold splitTree
    rw [if_pos (by rw [hs]; omega)]
    refine ⟨rfl, ?_⟩
    show hi - lo = m
    omega
  | succ k ih =>
    have hp : 0 < m * 2 ^ k := by positivity
    have h1' : ix.length = 2 * (m * 2 ^ k) := by rw [h1, pow_succ]; ring
    have hmk : m ≤ m * 2 ^ k := Nat.le_mul_of_pos_right _ (by positivity)
    have hsl := (srt.perm (geo ix) ix).length_eq
    have hf : (deal (srt.run (geo ix) ix)).1.length = m * 2 ^ k := by
      rw [deal_fst_length, hsl]; omega
    have hg : (deal (srt.run (geo ix) ix)).2.length = m * 2 ^ k := by
      rw [deal_snd_length, hsl]; omega
    rw [splitTree, if_neg (by rw [hs]; omega), dif_neg (by omega)]
    refine ⟨ih _ _ _ hf rfl, ih _ _ _ hg ?_⟩
    omega

theorem splitBlock_perfect (maxB : Int) (m k : Nat) (row col : CTree G)
    (hr : row.Perfect m k) (hc : col.Perfect m k) :
    ∀ b ∈ allLeaves (splitBlock (fun _ _ => false) maxB row col false),
      b.data.row.size = m ∧ b.data.col.size = m := by
  induction k generalizing row col with
  | zero =>
    intro b hb
    rw [splitBlock_stop _ _ _ _ _ (Or.inr (Or.inl hr.1))] at hb
    simp only [allLeaves, List.mem_singleton] at hb
    rw [hb]
    exact ⟨hr.2, hc.2⟩
  | succ k ih =>
    cases row with
    | leaf => exact hr.elim
    | node d ix r0 r1 =>
      cases col with
      | leaf => exact hc.elim
      | node d' ix' c0 c1 =>
        unfold splitBlock
        rw [if_neg (by simp)]
        intro b hb
        simp only [allLeaves, allLeavesL, List.append_nil, List.mem_append] at hb
        rcases hb with hb | hb | hb | hb
        · exact ih _ _ hr.1 hc.1 b hb
        · exact ih _ _ hr.1 hc.2 b hb
        · exact ih _ _ hr.2 hc.1 b hb
        · exact ih _ _ hr.2 hc.2 b hb

end perfect
end Verif.HMat
