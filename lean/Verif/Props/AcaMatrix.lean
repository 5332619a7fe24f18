import Verif.Props.Aca
import Verif.Props.HMatrix
/-
Property C60: the H-matrix built by the ACA compressor.
-/
set_option linter.unusedSectionVars false
namespace Verif.HMat.Aca
open Finset NTree CTree HMatrix
variable {K : Type} [RCLike K]

/-- Every family of blocks represents a matrix, as each entry is covered by exactly one leaf. -/
theorem exists_represented {G : Type} (s : HSetup G) (compress : BlockData G → HData K) :
    ∃ M', s.Represents compress M' := by
  classical
  refine ⟨fun i j => if h : ∃ b, b ∈ leafNodes s.tree ∧ ∃ I J, s.pR.o2h[i]? = some I ∧ s.pC.o2h[j]? = some J ∧
      b.data.covers I J = true then
    (compress h.choose.data).entry ((s.pR.o2h[i]?.getD 0) - h.choose.data.row.data.lo)
      ((s.pC.o2h[j]?.getD 0) - h.choose.data.col.data.lo) else 0, ?_⟩
  intro b hb i j I J hI hJ hc
  have h : ∃ b, b ∈ leafNodes s.tree ∧ ∃ I J, s.pR.o2h[i]? = some I ∧ s.pC.o2h[j]? = some J ∧
      b.data.covers I J = true := ⟨b, hb, I, J, hI, hJ, hc⟩
  simp only [dif_pos h]
  obtain ⟨h1, I', J', h2, h3, h4⟩ := h.choose_spec
  rw [hI] at h2; injection h2 with h2; subst h2
  rw [hJ] at h3; injection h3 with h3; subst h3
  have hr := leaf_ranges s b hb
  have hcov := decide_eq_true_iff.mp (show decide _ = true from hc)
  have : h.choose = b := eq_of_countP_one _ (fun l => l.data.covers I J)
    (C05_leaves_tile_matrix s.geoR s.geoC s.srtR s.srtC s.minR s.minC s.rows s.cols s.admFun s.maxB I J
      (by omega) (by omega)) _ b h1 hb h4 hc
  rw [this, hI, hJ]
  rfl

/-- **C60** For every block structure and every matrix `M` whose entries the generator delivers, the
H-matrix produced by the ACA compressor is a matrix `M'` such that `apply` computes
`beta * Y + alpha * op(M') * X` for every mode, scalars, `X` and `Y`, and
* on every leaf that is not admissible, `M'` is `M` (the near field is exact),
* every admissible leaf is stored as a product `A * B` of rank at most `maxRank` and at most the number of
  its rows and columns,
* and on an admissible leaf on which the crosses exhaust the rank of the block, `M'` is `M` as well. -/
theorem C60_aca_matrix {G : Type} (s : HSetup G) (env : BlockData G → Env K) (M : Nat → Nat → K)
    (henv : ∀ b, (env b).PickMax ∧ (env b).rlo = b.row.data.lo ∧ (env b).rhi = b.row.data.hi ∧
      (env b).clo = b.col.data.lo ∧ (env b).chi = b.col.data.hi)
    (hvol : ∀ b, (env b).PositiveVolumes)
    (hent : ∀ b ∈ leafNodes s.tree, ∀ i j I J, s.pR.o2h[i]? = some I → s.pC.o2h[j]? = some J →
      b.data.covers I J = true → (env b.data).entry I J = M i j) :
    ∃ M' : Nat → Nat → K,
      (∀ (t : TransposeMode) (α β : K) (X : Mx K) (Y : Mx (Cell K)), X.rows = s.inRows t →
        Y.rows = s.outRows t → Y.cols = X.cols → (β ≠ 0 → Y.Defined) →
        (∃ Y', Run [s.process (acaCompress env) 1 0] t α β X [Y] Y') ∧
        ∀ Y', Run [s.process (acaCompress env) 1 0] t α β X [Y] Y' → ∀ i j, i < s.outRows t → j < X.cols →
          Y'.e i j = some (β * (Y.e i j).getD 0 + α * ∑ l ∈ range (s.inRows t), opEntry t M' i l * X.e l j)) ∧
      (∀ b ∈ leafNodes s.tree, b.data.adm = false → ∀ i j I J, s.pR.o2h[i]? = some I →
        s.pC.o2h[j]? = some J → b.data.covers I J = true → M' i j = M i j) ∧
      (∀ b ∈ leafNodes s.tree, b.data.adm = true → ∃ A B, acaCompress env b.data = .lowRank A B ∧
        A.cols ≤ min (env b.data).maxRank (min b.data.row.size b.data.col.size)) ∧
      (∀ b ∈ leafNodes s.tree, b.data.adm = true → ∀ A B, acaCompress env b.data = .lowRank A B →
        A.cols = (env b.data).block.rank → ∀ i j I J, s.pR.o2h[i]? = some I →
        s.pC.o2h[j]? = some J → b.data.covers I J = true → M' i j = M i j) := by
  classical
  have fits := C18_aca_blocks_fit s env henv
  obtain ⟨M', rep⟩ := exists_represented s (acaCompress env)
  refine ⟨M', fun t α β X Y hX hY hq hdef => ?_, fun b hb hadm i j I J hI hJ hc => ?_, fun b hb hadm => ?_,
    fun b hb hadm A B hAB hrank i j I J hI hJ hc => ?_⟩
  · obtain ⟨h1, h2⟩ := C11_apply_correct s (acaCompress env) M' fits rep t α β X Y hX hY hq hdef
    exact ⟨h1, fun Y' h => (h2 Y' h).2.2⟩
  · rw [rep b hb i j I J hI hJ hc, ← hent b hb i j I J hI hJ hc]
    have hcov := decide_eq_true_iff.mp (show decide _ = true from hc)
    unfold acaCompress
    rw [hadm]
    show (env b.data).entry (b.data.row.data.lo + (I - b.data.row.data.lo))
      (b.data.col.data.lo + (J - b.data.col.data.lo)) = _
    congr 1 <;> omega
  · obtain ⟨pm, h1, h2, h3, h4⟩ := henv b.data
    obtain ⟨_, hr, _⟩ := C18_aca_rank_and_calls (env b.data) pm
    refine ⟨_, _, by unfold acaCompress; rw [if_pos hadm], ?_⟩
    rw [h1, h2, h3, h4] at hr
    exact hr
  · obtain ⟨pm, h1, h2, h3, h4⟩ := henv b.data
    rw [rep b hb i j I J hI hJ hc, ← hent b hb i j I J hI hJ hc, hAB]
    have hcov := decide_eq_true_iff.mp (show decide _ = true from hc)
    have e : acaCompress env b.data = .lowRank (finalOuter (env b.data)).s.A (finalOuter (env b.data)).s.B := by
      unfold acaCompress; rw [if_pos hadm]
    rw [hAB] at e
    injection e with eA eB
    have hI' : I - b.data.row.data.lo < (env b.data).m := by unfold Env.m; omega
    have hJ' : J - b.data.col.data.lo < (env b.data).n := by unfold Env.n; omega
    have hent' : (env b.data).entry I J = (env b.data).block ⟨_, hI'⟩ ⟨_, hJ'⟩ := by
      simp only [Env.block, Matrix.of_apply, h1, h3]
      congr 1 <;> omega
    rw [hent']
    by_cases h0 : A.cols = 0
    · have hz : (env b.data).block = 0 := by
        have hr : (env b.data).block.rank = 0 := by omega
        have h1 : LinearMap.range (env b.data).block.mulVecLin = ⊥ := Submodule.finrank_eq_zero.mp hr
        have h2 : (env b.data).block.mulVecLin = 0 := LinearMap.range_eq_bot.mp h1
        ext i j
        have := congrFun (congrArg (fun f => f (Pi.single j 1)) h2) i
        simpa using this
      rw [hz]
      simp [HData.entry, h0]
    · obtain ⟨hl, hh⟩ := C19_aca_history_complete (env b.data) pm
      obtain ⟨x, hx, hxA, hxB⟩ := hh (by rw [← eA]; omega)
      have := (C19_aca_interpolates (env b.data) pm (hvol b.data) x (List.mem_of_getLast? hx)).2.2.2.2
        (by rw [hxA, ← eA]; exact hrank)
      rw [← this]
      simp only [approx, Matrix.of_apply, HData.entry, hxA, hxB, eA, eB]

/-- Example: the hypotheses hold for a 5 × 3 matrix with four blocks, two different kinds of data. -/
example : ∃ (s : HSetup Unit) (env : BlockData Unit → Env ℂ) (M : Nat → Nat → ℂ),
    (leafNodes s.tree).length = 4 ∧ (∀ b, (env b).PickMax ∧ (env b).rlo = b.row.data.lo ∧
      (env b).rhi = b.row.data.hi ∧ (env b).clo = b.col.data.lo ∧ (env b).chi = b.col.data.hi) ∧
    (∀ b, (env b).PositiveVolumes) ∧
    ∀ b ∈ leafNodes s.tree, ∀ i j I J, s.pR.o2h[i]? = some I → s.pC.o2h[j]? = some J →
      b.data.covers I J = true → (env b.data).entry I J = M i j := by
  obtain ⟨s, h5, h3, h4, _⟩ := example_setup (fun i j => ((i : ℂ) + 2 * j))
  refine ⟨s, fun b => { exampleEnv with
      rlo := b.row.data.lo, rhi := b.row.data.hi, clo := b.col.data.lo, chi := b.col.data.hi
      entry := fun I J => ((s.pR.h2o[I]?.getD 0 : Nat) : ℂ) + 2 * (s.pC.h2o[J]?.getD 0 : Nat) },
    fun i j => (i : ℂ) + 2 * j, h4, fun b => ⟨fun n f hn => argmax_spec n f hn, rfl, rfl, rfl, rfl⟩, ?_, ?_⟩
  · intro b
    refine ⟨?_, fun _ _ => ?_, fun _ _ => ?_⟩ <;> simp [exampleEnv]
  · intro b hb i j I J hI hJ _
    have okR : PermOK s.rows s.pR := permOK_of_dofPermutation s.hR
    have okC : PermOK s.cols s.pC := permOK_of_dofPermutation s.hC
    have hi : i < s.rows := by
      have := (List.getElem?_eq_some_iff.mp hI).1; rw [okR.o2h.length_eq] at this; simpa using this
    have hj : j < s.cols := by
      have := (List.getElem?_eq_some_iff.mp hJ).1; rw [okC.o2h.length_eq] at this; simpa using this
    obtain ⟨I', _, e1, e2⟩ := okR.fwd i hi
    rw [hI] at e1; injection e1 with e1; subst e1
    obtain ⟨J', _, e3, e4⟩ := okC.fwd j hj
    rw [hJ] at e3; injection e3 with e3; subst e3
    simp [e2, e4]

end Verif.HMat.Aca
