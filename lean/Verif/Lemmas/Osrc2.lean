import Verif.Lemmas.Osrc
import Mathlib.LinearAlgebra.Matrix.ToLinearEquiv
import Mathlib.Analysis.SpecialFunctions.Pow.Real
import Mathlib.Tactic.Positivity
/-
Nonsingularity of the shifted matrices, modes, and the default damping.
-/
namespace Verif.PyOp
open Complex
noncomputable section

/-- The quadratic form of a real symmetric matrix at a complex vector. -/
theorem quadratic {n : Nat} {A : Arr} (hr : ∀ i j, star (A.e i j) = A.e i j) (hs : ∀ i j, A.e i j = A.e j i) (x : Nat → ℂ) :
    ∑ i ∈ Finset.range n, ∑ j ∈ Finset.range n, star (x i) * A.e i j * x j =
      ((∑ i ∈ Finset.range n, ∑ j ∈ Finset.range n, (x i).re * (A.e i j).re * (x j).re +
        ∑ i ∈ Finset.range n, ∑ j ∈ Finset.range n, (x i).im * (A.e i j).re * (x j).im : ℝ) : ℂ) := by
  have hre : ∀ i j, A.e i j = ((A.e i j).re : ℂ) := fun i j => (Complex.conj_eq_iff_re.mp (hr i j)).symm
  have key : ∀ i j, star (x i) * A.e i j * x j =
      (((x i).re * (A.e i j).re * (x j).re + (x i).im * (A.e i j).re * (x j).im : ℝ) : ℂ) +
        (((x i).re * (A.e i j).re * (x j).im - (x i).im * (A.e i j).re * (x j).re : ℝ) : ℂ) * I := by
    intro i j
    conv_lhs => rw [hre i j]
    apply Complex.ext
    · simp [Complex.mul_re, Complex.mul_im]
    · simp [Complex.mul_re, Complex.mul_im]; ring
  simp only [key, Finset.sum_add_distrib]
  rw [← Finset.sum_add_distrib]
  have hz : ∑ i ∈ Finset.range n, ∑ j ∈ Finset.range n,
      (((x i).re * (A.e i j).re * (x j).im - (x i).im * (A.e i j).re * (x j).re : ℝ) : ℂ) * I = 0 := by
    simp only [← Finset.sum_mul, ← Complex.ofReal_sum]
    have : ∑ i ∈ Finset.range n, ∑ j ∈ Finset.range n,
        ((x i).re * (A.e i j).re * (x j).im - (x i).im * (A.e i j).re * (x j).re) = 0 := by
      simp only [Finset.sum_sub_distrib]
      rw [sub_eq_zero]
      conv_rhs => rw [Finset.sum_comm]
      refine Finset.sum_congr rfl fun i _ => Finset.sum_congr rfl fun j _ => ?_
      rw [hs j i]; ring
    rw [this]; simp
  rw [Finset.sum_add_distrib, hz, add_zero]
  push_cast
  simp only [Finset.sum_add_distrib]

theorem det_ne {n : Nat} {mass stiff : Arr} (h : Pencil n mass stiff) (g : ℂ) (hg : ∀ t : ℝ, 0 ≤ t → 1 - g * t ≠ 0) :
    (mat n mass - g • mat n stiff).det ≠ 0 := by
  intro h0
  obtain ⟨v, hv, he⟩ := Matrix.exists_mulVec_eq_zero_iff.mpr h0
  set x : Nat → ℂ := fun i => if hi : i < n then v ⟨i, hi⟩ else 0 with hx
  have hxi : ∀ i : Fin n, x i = v i := fun i => by simp [hx]
  have hrow : ∀ i ∈ Finset.range n, ∑ j ∈ Finset.range n, mass.e i j * x j = g * ∑ j ∈ Finset.range n, stiff.e i j * x j := by
    intro i hi
    have hi := Finset.mem_range.mp hi
    have := congrFun he ⟨i, hi⟩
    rw [Matrix.sub_mulVec, Matrix.smul_mulVec] at this
    simp only [Pi.sub_apply, Pi.smul_apply, Pi.zero_apply, smul_eq_mul, Matrix.mulVec, dotProduct, mat, Matrix.of_apply] at this
    rw [Finset.sum_range, Finset.sum_range]
    simp only [hxi]
    linear_combination this
  have hq : ∑ i ∈ Finset.range n, ∑ j ∈ Finset.range n, star (x i) * mass.e i j * x j =
      g * ∑ i ∈ Finset.range n, ∑ j ∈ Finset.range n, star (x i) * stiff.e i j * x j := by
    rw [Finset.mul_sum]
    refine Finset.sum_congr rfl fun i hi => ?_
    have := hrow i hi
    have e : ∀ A : Arr, ∑ j ∈ Finset.range n, star (x i) * A.e i j * x j = star (x i) * ∑ j ∈ Finset.range n, A.e i j * x j := by
      intro A
      rw [Finset.mul_sum]
      exact Finset.sum_congr rfl fun j _ => by ring
    rw [e, e, this]; ring
  rw [quadratic h.mass_real h.mass_symm, quadratic h.stiff_real h.stiff_symm] at hq
  have hk : 0 ≤ ∑ i ∈ Finset.range n, ∑ j ∈ Finset.range n, (x i).re * (stiff.e i j).re * (x j).re +
        ∑ i ∈ Finset.range n, ∑ j ∈ Finset.range n, (x i).im * (stiff.e i j).re * (x j).im :=
    add_nonneg (h.stiff_nonneg fun i => (x i).re) (h.stiff_nonneg fun i => (x i).im)
  have nonneg : ∀ y : Nat → ℝ, 0 ≤ ∑ i ∈ Finset.range n, ∑ j ∈ Finset.range n, y i * (mass.e i j).re * y j := by
    intro y
    by_cases hy : ∃ i < n, y i ≠ 0
    · exact le_of_lt (h.mass_pos y hy)
    · have : ∀ i ∈ Finset.range n, y i = 0 := fun i hi => by
        by_contra hne
        exact hy ⟨i, Finset.mem_range.mp hi, hne⟩
      rw [Finset.sum_eq_zero fun i hi => Finset.sum_eq_zero fun j _ => by rw [this i hi]; ring]
  have hm : 0 < ∑ i ∈ Finset.range n, ∑ j ∈ Finset.range n, (x i).re * (mass.e i j).re * (x j).re +
        ∑ i ∈ Finset.range n, ∑ j ∈ Finset.range n, (x i).im * (mass.e i j).re * (x j).im := by
    obtain ⟨i, hi⟩ := Function.ne_iff.mp hv
    have hi' : x i ≠ 0 := by rw [hxi]; exact hi
    by_cases hre : (x i).re = 0
    · have him : (x i).im ≠ 0 := fun h => hi' (Complex.ext hre h)
      exact add_pos_of_nonneg_of_pos (nonneg fun i => (x i).re) (h.mass_pos (fun i => (x i).im) ⟨i, i.2, him⟩)
    · exact add_pos_of_pos_of_nonneg (h.mass_pos (fun i => (x i).re) ⟨i, i.2, hre⟩) (nonneg fun i => (x i).im)
  generalize (∑ i ∈ Finset.range n, ∑ j ∈ Finset.range n, (x i).re * (mass.e i j).re * (x j).re +
        ∑ i ∈ Finset.range n, ∑ j ∈ Finset.range n, (x i).im * (mass.e i j).re * (x j).im) = m at hq hm
  generalize (∑ i ∈ Finset.range n, ∑ j ∈ Finset.range n, (x i).re * (stiff.e i j).re * (x j).re +
        ∑ i ∈ Finset.range n, ∑ j ∈ Finset.range n, (x i).im * (stiff.e i j).re * (x j).im) = k at hq hk
  refine hg (k / m) (div_nonneg hk hm.le) ?_
  have hmc : (m : ℂ) ≠ 0 := by exact_mod_cast hm.ne'
  push_cast
  field_simp
  rw [hq]; ring

theorem offcut_base {theta : ℝ} {z : ℂ} (h : OffCut theta z) {n j : Nat} (hj : j < n) :
    1 + padeB n j * ((1 + z) * Complex.exp (-I * theta) - 1) ≠ 0 := by
  obtain ⟨h1, h2⟩ := half_power h
  have := denominator_re h1 hj
  rw [h2] at this
  unfold padeB
  rw [padeAngle_cast]
  have hcs : Complex.cos (padeAngle n j) ^ 2 + Complex.sin (padeAngle n j) ^ 2 = 1 := Complex.cos_sq_add_sin_sq _
  intro h0
  exact this (by linear_combination h0 + hcs)

theorem offcut_denominator {theta : ℝ} {z : ℂ} (h : OffCut theta z) {n j : Nat} (hj : j < n) :
    1 + (padeCoeffs n theta).beta j * z ≠ 0 := by
  rw [beta_denominator hj]
  exact div_ne_zero (offcut_base h hj) (denominator_ne hj theta)

theorem offcut_ne {theta : ℝ} {z : ℂ} (h : OffCut theta z) : 1 + z ≠ 0 := by
  intro h0
  unfold OffCut at h
  rw [h0, zero_mul] at h
  exact Complex.slitPlane_ne_zero h rfl

/-- The value of the rational function. -/
theorem value_closed {theta : ℝ} {z : ℂ} (h : OffCut theta z) (n : Nat) :
    rational (padeCoeffs n theta).c0 (padeCoeffs n theta).alpha (padeCoeffs n theta).beta n z =
      branchSqrt theta z * ((1 - ((((1 + z) * Complex.exp (-I * theta)) ^ ((1 : ℂ) / 2) - 1) /
        (((1 + z) * Complex.exp (-I * theta)) ^ ((1 : ℂ) / 2) + 1)) ^ (2 * n + 1)) /
        (1 + ((((1 + z) * Complex.exp (-I * theta)) ^ ((1 : ℂ) / 2) - 1) /
        (((1 + z) * Complex.exp (-I * theta)) ^ ((1 : ℂ) / 2) + 1)) ^ (2 * n + 1))) := by
  obtain ⟨h1, h2⟩ := half_power h
  rw [rotated n theta z fun j hj => offcut_base h hj]
  conv_lhs => rw [← h2]
  rw [pade_closed n h1]
  unfold branchSqrt
  ring

theorem branchSqrt_sq {theta : ℝ} {z : ℂ} (h : OffCut theta z) : branchSqrt theta z ^ 2 = 1 + z := by
  obtain ⟨_, h2⟩ := half_power h
  unfold branchSqrt
  rw [mul_pow, h2]
  linear_combination (1 + z) * (exp_rotation theta).2.1

theorem admissible_det {n : Nat} {mass stiff : Arr} (h : Pencil n mass stiff) {theta : ℝ} {dk : ℂ} (ha : Admissible theta dk)
    {npade i : Nat} (hi : i < npade) : (mat n mass - ((padeCoeffs npade theta).beta i / dk ^ 2) • mat n stiff).det ≠ 0 := by
  refine det_ne h _ fun t ht h0 => ?_
  refine offcut_denominator (ha t ht) hi ?_
  unfold symbolAt
  rw [← h0]; ring

theorem admissible_det_one {n : Nat} {mass stiff : Arr} (h : Pencil n mass stiff) {theta : ℝ} {dk : ℂ} (ha : Admissible theta dk) :
    (mat n mass - (1 / dk ^ 2) • mat n stiff).det ≠ 0 := by
  refine det_ne h _ fun t ht h0 => ?_
  refine offcut_ne (ha t ht) ?_
  unfold symbolAt
  rw [← h0]; ring

/-- The shifted inverses on a mode. -/
theorem inverse_mode {n : Nat} {M K : Matrix (Fin n) (Fin n) ℂ} {v : Fin n → ℂ} {t : ℂ} (hv : K.mulVec v = t • M.mulVec v) (g : ℂ)
    (hd : (M - g • K).det ≠ 0) (h0 : 1 - g * t ≠ 0) : (M - g • K)⁻¹.mulVec (M.mulVec v) = (1 / (1 - g * t)) • v := by
  have hu : IsUnit (M - g • K).det := isUnit_iff_ne_zero.mpr hd
  have h1 : (M - g • K).mulVec v = (1 - g * t) • M.mulVec v := by
    rw [Matrix.sub_mulVec, Matrix.smul_mulVec, hv, sub_smul, one_smul, smul_smul]
  have h2 : M.mulVec v = (1 / (1 - g * t)) • (M - g • K).mulVec v := by
    rw [h1, smul_smul, one_div_mul_cancel h0, one_smul]
  rw [h2, Matrix.mulVec_smul, Matrix.mulVec_mulVec, Matrix.nonsing_inv_mul _ hu, Matrix.one_mulVec]

theorem root_mode {n : Nat} {M K : Matrix (Fin n) (Fin n) ℂ} {v : Fin n → ℂ} {t : ℝ} (hv : K.mulVec v = (t : ℂ) • M.mulVec v) (pade : Pade)
    (dk : ℂ) (npade : Nat) (hd : ∀ i < npade, (M - (pade.beta i / dk ^ 2) • K).det ≠ 0)
    (h0 : ∀ i < npade, 1 + pade.beta i * symbolAt dk t ≠ 0) :
    (rootMatrix M K pade dk npade).mulVec v = rational pade.c0 pade.alpha pade.beta npade (symbolAt dk t) • M.mulVec v := by
  unfold rootMatrix termMatrix rational
  rw [Matrix.add_mulVec, Matrix.smul_mulVec, ← Matrix.mulVec_mulVec, Matrix.neg_mulVec, Matrix.sum_mulVec, add_smul, Finset.sum_smul,
    ← Finset.sum_neg_distrib]
  congr 1
  refine Finset.sum_congr rfl fun i hi => ?_
  have hi := Finset.mem_range.mp hi
  have e : 1 - pade.beta i / dk ^ 2 * t = 1 + pade.beta i * symbolAt dk t := by unfold symbolAt; ring
  rw [← Matrix.mulVec_mulVec, inverse_mode hv _ (hd i hi) (by rw [e]; exact h0 i hi), Matrix.mulVec_smul, Matrix.smul_mulVec, hv,
    smul_smul, smul_smul, ← neg_smul]
  congr 1
  rw [e]
  unfold symbolAt
  ring

theorem mode_mulVec {n : Nat} {mass stiff : Arr} {v : Nat → ℂ} {t : ℝ} (h : IsMode n mass stiff v t) :
    (mat n stiff).mulVec (fun i : Fin n => v i) = (t : ℂ) • (mat n mass).mulVec (fun i : Fin n => v i) := by
  ext i
  have := h i i.2
  rw [Finset.sum_range, Finset.sum_range] at this
  simpa [Matrix.mulVec, dotProduct, mat] using this

/-- The default damping: real positive wave number, nondegenerate bounding box. -/
theorem damped_default (k rad : ℝ) (hk : 0 < k) (hr : 0 < rad) : ∃ ε : ℝ, 0 < ε ∧
    (k : ℂ) + I * (4 / 10) * (k : ℂ) ^ ((1 : ℂ) / 3) * (rad : ℂ) ^ (-(2 : ℂ) / 3) = k + I * ε := by
  refine ⟨4 / 10 * k ^ ((1 : ℝ) / 3) * rad ^ (-(2 : ℝ) / 3), by positivity, ?_⟩
  push_cast
  rw [Complex.ofReal_cpow hk.le, Complex.ofReal_cpow hr.le]
  push_cast
  ring

theorem damped_admissible {theta : ℝ} (h0 : 0 ≤ theta) (hpi : theta < Real.pi) {k ε : ℝ} (hk : 0 < k) (he : 0 < ε) :
    Admissible theta ((k : ℂ) + I * ε) := by
  intro t ht
  have hdk : ((k : ℂ) + I * ε) ≠ 0 := by
    intro h
    have := congrArg Complex.re h
    simp at this
    linarith
  set N : ℝ := Complex.normSq (((k : ℂ) + I * ε) ^ 2) with hN
  have hNpos : 0 < N := Complex.normSq_pos.mpr (pow_ne_zero 2 hdk)
  have him : (1 + symbolAt ((k : ℂ) + I * ε) t).im = t * (2 * k * ε) / N := by
    unfold symbolAt
    rw [Complex.add_im, Complex.one_im, zero_add, Complex.div_im, ← hN]
    simp only [pow_two, Complex.neg_im, Complex.neg_re, Complex.ofReal_im, Complex.ofReal_re, Complex.mul_re, Complex.mul_im,
      Complex.add_re, Complex.add_im, Complex.I_re, Complex.I_im]
    ring
  unfold OffCut
  rw [Complex.mem_slitPlane_iff_not_le_zero]
  intro hle
  obtain ⟨hre, hi0⟩ := Complex.le_def.mp hle
  simp only [Complex.zero_re, Complex.zero_im] at hre hi0
  set y := 1 + symbolAt ((k : ℂ) + I * ε) t with hy
  set s := -(y * Complex.exp (-I * theta)).re with hs
  have hs0 : 0 ≤ s := by rw [hs]; linarith
  have hys : y * Complex.exp (-I * theta) = -(s : ℂ) := by
    apply Complex.ext
    · rw [hs]; simp only [Complex.neg_re, Complex.ofReal_re, neg_neg]
    · rw [hi0]; simp only [Complex.neg_im, Complex.ofReal_im, neg_zero]
  have hE : Complex.exp (-I * theta) * Complex.exp (theta * I) = 1 := by
    rw [← Complex.exp_add, ← Complex.exp_zero]; congr 1; ring
  have hy2 : y = -(s : ℂ) * (Complex.cos theta + Complex.sin theta * I) := by
    rw [← Complex.exp_mul_I, ← hys, mul_assoc, hE, mul_one]
  have hyim : y.im = -(s * Real.sin theta) := by
    rw [hy2, ← Complex.ofReal_cos, ← Complex.ofReal_sin]
    simp only [Complex.mul_im, Complex.mul_re, Complex.neg_re, Complex.neg_im, Complex.ofReal_re, Complex.ofReal_im, Complex.add_re, Complex.add_im, Complex.I_re, Complex.I_im]
    ring
  have hyre : y.re = -(s * Real.cos theta) := by
    rw [hy2, ← Complex.ofReal_cos, ← Complex.ofReal_sin]
    simp only [Complex.mul_im, Complex.mul_re, Complex.neg_re, Complex.neg_im, Complex.ofReal_re, Complex.ofReal_im, Complex.add_re, Complex.add_im, Complex.I_re, Complex.I_im]
    ring
  have hsin : 0 ≤ Real.sin theta := Real.sin_nonneg_of_nonneg_of_le_pi h0 hpi.le
  have hge : 0 ≤ y.im := by rw [him]; positivity
  have hle' : y.im ≤ 0 := by rw [hyim]; have := mul_nonneg hs0 hsin; linarith
  have hz : y.im = 0 := le_antisymm hle' hge
  have ht0 : t = 0 := by
    rw [him, div_eq_zero_iff] at hz
    rcases hz with h | h
    · rcases mul_eq_zero.mp h with h | h
      · exact h
      · have : 0 < 2 * k * ε := by positivity
        linarith
    · linarith
  have hy1 : y = 1 := by rw [hy, ht0]; unfold symbolAt; simp
  rw [hy1] at hyre hyim
  simp at hyre hyim
  rcases hyim with h | h
  · rw [h] at hyre; norm_num at hyre
  · have : theta = 0 := by
      by_contra hne
      have := Real.sin_pos_of_pos_of_lt_pi (lt_of_le_of_ne h0 (Ne.symm hne)) hpi
      linarith
    rw [this, Real.cos_zero] at hyre
    linarith

end

end Verif.PyOp
