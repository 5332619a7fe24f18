import Verif.Lemmas.Aca2
import Verif.Lemmas.Compressor
import Mathlib.Analysis.Complex.Basic
/-
Properties C18 - C20: adaptive cross approximation.
-/
set_option linter.unusedSectionVars false
namespace Verif.HMat.Aca
open Finset
variable {K : Type} [RCLike K]

/-! ### C18 -/

/-- **C18** For every block, entry generator, tolerance, rank limit, volumes, and every way of breaking
ties between maximal coefficients: the compression of an admissible block ends (it is a total
function) with factors `A` (rows × k) and `B` (k × columns), `k ≤ min(maxRank, rows, columns)`; the
entry generator was called only for index ranges inside the block; and `aca` was started at most
three times (two restarts). -/
theorem C18_aca_rank_and_calls (e : Env K) (pm : e.PickMax) :
    let r := finalOuter e
    (r.s.A.rows = e.rhi - e.rlo ∧ r.s.B.rows = r.s.A.cols ∧ r.s.B.cols = e.chi - e.clo) ∧
    r.s.A.cols ≤ min e.maxRank (min (e.rhi - e.rlo) (e.chi - e.clo)) ∧
    (∀ c ∈ r.s.calls, InsideCall e c) ∧
    r.acaCalls ≤ 3 := by
  obtain ⟨h, h3⟩ := final_reach e pm
  have sh := shape_reach e pm h
  refine ⟨⟨sh.Arows, sh.Brows, sh.Bcols⟩, ?_, sh.calls, h3⟩
  have := sh.iter
  show _ ≤ min e.maxRank (min e.m e.n)
  omega

/-- **C18** The algorithm makes progress: if the first row of the block has an entry that is not
negligible, at least one cross is found. -/
theorem C18_aca_first_cross (e : Env K) (pm : e.PickMax) (hk : 0 < e.maxRank) (hm : e.rlo < e.rhi)
    (hn : e.clo < e.chi)
    (h : ∃ j, j < e.chi - e.clo ∧ ∀ j', j' < e.chi - e.clo →
      e.zeroTol * e.testVol e.rlo * e.trialVol (e.clo + j') ≤ ‖e.entry e.rlo (e.clo + j)‖) :
    1 ≤ (finalOuter e).s.A.cols :=
  first_cross e pm hk (by unfold Env.m; omega) (by unfold Env.n; omega) h

/-- **C18** Blocks compressed by ACA always have the size of their block, as C11 and C13 require of a
compressor. -/
theorem C18_aca_blocks_fit {G : Type} (s : HSetup G) (env : BlockData G → Env K)
    (h : ∀ b, (env b).PickMax ∧ (env b).rlo = b.row.data.lo ∧ (env b).rhi = b.row.data.hi ∧
      (env b).clo = b.col.data.lo ∧ (env b).chi = b.col.data.hi) :
    s.CompressorFits (acaCompress env) := by
  intro b hb
  obtain ⟨pm, h1, h2, h3, h4⟩ := h b.data
  unfold acaCompress
  split
  · obtain ⟨⟨a1, a2, a3⟩, _⟩ := C18_aca_rank_and_calls (env b.data) pm
    refine ⟨?_, ?_, a2⟩
    · rw [a1, h1, h2]; rfl
    · rw [a3, h3, h4]; rfl
  · exact denseCompress_fits s _ b hb

/-- A choice function that satisfies `PickMax`. -/
noncomputable def argmax (n : Nat) (f : Nat → ℝ) : Nat :=
  open Classical in
  if h : ∃ i, i < n ∧ ∀ k, k < n → f k ≤ f i then h.choose else 0

theorem argmax_spec (n : Nat) (f : Nat → ℝ) (hn : 0 < n) :
    argmax n f < n ∧ ∀ i, i < n → f i ≤ f (argmax n f) := by
  have h : ∃ i, i < n ∧ ∀ k, k < n → f k ≤ f i := by
    obtain ⟨i, hi, hmax⟩ := Finset.exists_max_image (range n) f ⟨0, Finset.mem_range.mpr hn⟩
    exact ⟨i, Finset.mem_range.mp hi, fun k hk => hmax k (Finset.mem_range.mpr hk)⟩
  unfold argmax
  rw [dif_pos h]
  exact h.choose_spec

/-- Example: a 3 × 2 complex block `(1 + i·row + col²)`, rows 4-6, columns 2-3 of the matrix. -/
noncomputable def exampleEnv : Env ℂ where
  rlo := 4
  rhi := 7
  clo := 2
  chi := 4
  entry := fun i j => 1 + Complex.I * i + j * j
  testVol := fun _ => 1
  trialVol := fun _ => 1
  eps := 1 / 1000
  zeroTol := 1 / 1000
  dblMax := 10 ^ 300
  maxRank := 30
  pick := argmax

theorem exampleEnv_pick : exampleEnv.PickMax := fun n f hn => argmax_spec n f hn

theorem exampleEnv_pos : exampleEnv.PositiveVolumes := by
  refine ⟨?_, fun _ _ => ?_, fun _ _ => ?_⟩ <;> simp [exampleEnv]

/-- Example: the hypotheses of C18 hold for it, and a cross is found. -/
theorem exampleEnv_cross : 1 ≤ (finalOuter exampleEnv).s.A.cols := by
  refine C18_aca_first_cross exampleEnv exampleEnv_pick (by simp [exampleEnv])
    (by simp [exampleEnv]) (by simp [exampleEnv]) ⟨0, by simp [exampleEnv], fun j' _ => ?_⟩
  have h1 : (5 : ℝ) ≤ ‖exampleEnv.entry exampleEnv.rlo (exampleEnv.clo + 0)‖ := by
    have : exampleEnv.entry exampleEnv.rlo (exampleEnv.clo + 0) = 5 + 4 * Complex.I := by
      simp [exampleEnv]; ring
    rw [this]
    refine le_trans ?_ (Complex.abs_re_le_norm _)
    simp
  refine le_trans ?_ h1
  simp [exampleEnv]
  norm_num

/-! ### C19 -/

/-- **C19** After each accepted cross (each snapshot), in exact arithmetic: the number of crosses is
the rank `k` of the factorisation, their rows are pairwise different and so are their columns; `A B`
coincides with the block on every pivot row and every pivot column; `k ≤ rank(block)`; and if
`k = rank(block)` then `A B` is the block. -/
theorem C19_aca_interpolates (e : Env K) (pm : e.PickMax) (pv : e.PositiveVolumes)
    (h : Snapshot K) (hh : h ∈ (finalOuter e).s.history) :
    h.crosses.length = h.A.cols ∧
    h.crosses.Pairwise (fun a b => a.1 ≠ b.1 ∧ a.2 ≠ b.2) ∧
    (∀ p ∈ h.crosses, p.1 < e.m ∧ p.2 < e.n ∧
      (∀ i j, i.val = p.1 → approx e.m e.n h.A h.B i j = e.block i j) ∧
      (∀ i j, j.val = p.2 → approx e.m e.n h.A h.B i j = e.block i j)) ∧
    h.A.cols ≤ e.block.rank ∧
    (h.A.cols = e.block.rank → approx e.m e.n h.A h.B = e.block) := by
  obtain ⟨s, hs, e1, e2, e3, e4⟩ := hist_reach e (final_reach e pm).1 h hh
  have sh := shape_reach e pm hs
  have it := interp_reach e pm pv hs
  have hap : ∀ i j, approx e.m e.n h.A h.B i j = e.block i j - res e s i j := by
    intro i j
    simp only [approx, Env.block, Matrix.of_apply, res, St.ab, e1, e2]
    ring
  refine ⟨by rw [← e4, ← e1]; exact sh.ncross, by rw [← e4]; exact it.distinct, ?_, ?_, ?_⟩
  · intro p hp
    rw [← e4] at hp
    obtain ⟨z1, z2⟩ := it.zero p hp
    obtain ⟨h1, h2⟩ := sh.inside p hp
    refine ⟨h1, h2, fun i j hi => ?_, fun i j hj => ?_⟩
    · rw [hap, hi, z1 _ j.isLt, sub_zero]
    · rw [hap, hj, z2 _ i.isLt, sub_zero]
  · have := it.rank; rw [← e1]; omega
  · intro hk
    have h0 : (resM e s).rank = 0 := by
      have := it.rank; rw [← e1] at hk; omega
    have hz : resM e s = 0 := by
      by_contra hne
      have : (resM e s).rank ≠ 0 := by
        intro h0
        apply hne
        unfold Matrix.rank at h0
        have h1 : LinearMap.range (resM e s).mulVecLin = ⊥ := Submodule.finrank_eq_zero.mp h0
        have h2 : (resM e s).mulVecLin = 0 := LinearMap.range_eq_bot.mp h1
        ext i j
        have := congrFun (congrArg (fun f => f (Pi.single j 1)) h2) i
        simpa using this
      exact this h0
    ext i j
    rw [hap]
    have : res e s i j = 0 := congrFun (congrFun hz i) j
    rw [this, sub_zero]

/-- **C19** The snapshots are all of them: one for each rank, the last one being the result. -/
theorem C19_aca_history_complete (e : Env K) (pm : e.PickMax) :
    (finalOuter e).s.history.length = (finalOuter e).s.A.cols ∧
    (0 < (finalOuter e).s.A.cols → ∃ h, (finalOuter e).s.history.getLast? = some h ∧
      h.A = (finalOuter e).s.A ∧ h.B = (finalOuter e).s.B) := by
  obtain ⟨h1, h2⟩ := history_last e (final_reach e pm).1
  refine ⟨h1, fun h => ?_⟩
  obtain ⟨x, hx, ha, hb, _⟩ := h2 h
  exact ⟨x, hx, ha, hb⟩

/-- Example: the hypotheses hold and there is a snapshot. -/
example : exampleEnv.PickMax ∧ exampleEnv.PositiveVolumes ∧
    ∃ h, h ∈ (finalOuter exampleEnv).s.history := by
  refine ⟨exampleEnv_pick, exampleEnv_pos, ?_⟩
  have h := (C19_aca_history_complete exampleEnv exampleEnv_pick).1
  have := exampleEnv_cross
  exact List.exists_mem_of_length_pos (by omega)

/-! ### C20 -/

theorem normSqAB_eq (e : Env K) (s : St K) :
    normSqAB e s = ∑ i, ∑ j, ‖approx e.m e.n s.A s.B i j‖ ^ 2 := by
  unfold normSqAB
  rw [Finset.sum_range]
  refine Finset.sum_congr rfl fun i _ => ?_
  rw [Finset.sum_range]
  rfl

/-- **C20** After every update (in every snapshot) the block norm used by the stopping test is the
Frobenius norm of `A B` (no assumption on the volumes). -/
theorem C20_aca_norm_is_frobenius (e : Env K) (pm : e.PickMax)
    (h : Snapshot K) (hh : h ∈ (finalOuter e).s.history) :
    h.blockNorm = frobenius (approx e.m e.n h.A h.B) := by
  obtain ⟨s, hs, e1, e2, e3, _⟩ := hist_reach e (final_reach e pm).1 h hh
  rw [← e3, norm_reach e pm hs, normSqAB_eq, e1, e2]
  rfl

/-- Example: the snapshots of the example satisfy it. -/
example : ∃ h ∈ (finalOuter exampleEnv).s.history,
    h.blockNorm = frobenius (approx 3 2 h.A h.B) := by
  have h := (C19_aca_history_complete exampleEnv exampleEnv_pick).1
  have := exampleEnv_cross
  obtain ⟨x, hx⟩ := List.exists_mem_of_length_pos (l := (finalOuter exampleEnv).s.history) (by omega)
  exact ⟨x, hx, C20_aca_norm_is_frobenius exampleEnv exampleEnv_pick x hx⟩

end Verif.HMat.Aca
