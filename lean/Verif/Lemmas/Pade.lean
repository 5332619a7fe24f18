import Verif.Model.Osrc
import Verif.Spec.Osrc
import Mathlib.RingTheory.RootsOfUnity.Complex
import Mathlib.Analysis.SpecificLimits.Normed
import Mathlib.Analysis.SpecialFunctions.Trigonometric.Complex
import Mathlib.Algebra.BigOperators.Field
import Mathlib.Tactic.FieldSimp
import Mathlib.Tactic.LinearCombination
/-
The coefficients of `_pade_coeffs` and the square root.
-/
namespace Verif.PyOp
open Complex
noncomputable section

/-- The angle of the `j`-th coefficient. -/
def padeAngle (n j : Nat) : ℝ := ((j : ℝ) + 1) * Real.pi / (2 * n + 1)

theorem padeAngle_cast (n j : Nat) : ((j : ℂ) + 1) * Real.pi / (2 * n + 1) = ((padeAngle n j : ℝ) : ℂ) := by
  unfold padeAngle; push_cast; ring

theorem padeA_eq (n j : Nat) : padeA n j = ((2 / (2 * n + 1) * Real.sin (padeAngle n j) ^ 2 : ℝ) : ℂ) := by
  unfold padeA; rw [padeAngle_cast]; push_cast; ring

theorem padeB_eq (n j : Nat) : padeB n j = ((Real.cos (padeAngle n j) ^ 2 : ℝ) : ℂ) := by
  unfold padeB; rw [padeAngle_cast]; push_cast; ring

theorem padeAngle_mem {n j : Nat} (h : j < n) : 0 < padeAngle n j ∧ padeAngle n j < Real.pi / 2 := by
  have hj : ((j : ℝ) + 1) ≤ n := by exact_mod_cast h
  have hp := Real.pi_pos
  have h1 : (0 : ℝ) < 2 * n + 1 := by positivity
  unfold padeAngle
  constructor
  · positivity
  · rw [div_lt_div_iff₀ h1 two_pos]; nlinarith

theorem padeSin_pos {n j : Nat} (h : j < n) : 0 < Real.sin (padeAngle n j) := by
  have := padeAngle_mem h
  exact Real.sin_pos_of_pos_of_lt_pi this.1 (by linarith [Real.pi_pos])

theorem padeCos_pos {n j : Nat} (h : j < n) : 0 < Real.cos (padeAngle n j) := by
  have := padeAngle_mem h
  exact Real.cos_pos_of_mem_Ioo ⟨by linarith [Real.pi_pos], this.2⟩

/-- `cos²` is never `1/2`: `4 (j + 1)` is not `2 n + 1`. -/
theorem padeCos_half {n j : Nat} (h : j < n) : Real.cos (padeAngle n j) ^ 2 ≠ 1 / 2 := by
  intro hc
  have h2 : Real.cos (2 * padeAngle n j) = 0 := by rw [Real.cos_two_mul]; linarith
  obtain ⟨k, hk⟩ := Real.cos_eq_zero_iff.mp h2
  have h1 : ((2 : ℝ) * n + 1) ≠ 0 := by positivity
  have hp := Real.pi_ne_zero
  unfold padeAngle at hk
  have e : (4 : ℝ) * (j + 1) = (2 * k + 1) * (2 * n + 1) := by
    field_simp at hk
    linarith
  have e' : (4 : ℤ) * (j + 1) = (2 * k + 1) * (2 * n + 1) := by exact_mod_cast e
  have : ((2 * k + 1) * (2 * (n : ℤ) + 1)) % 2 = 1 := by
    have : (2 * k + 1) * (2 * (n : ℤ) + 1) = 2 * (k * (2 * n + 1) + n) + 1 := by ring
    rw [this]; omega
  omega

theorem denominator_ne {n j : Nat} (h : j < n) (theta : ℝ) : 1 + padeB n j * (Complex.exp (-I * theta) - 1) ≠ 0 := by
  have hn : ‖Complex.exp (-I * theta)‖ = 1 := by
    have : (-I * theta : ℂ) = ((-theta : ℝ) : ℂ) * I := by push_cast; ring
    rw [this, Complex.norm_exp_ofReal_mul_I]
  generalize Complex.exp (-I * theta) = E at hn ⊢
  rw [padeB_eq]
  set b := Real.cos (padeAngle n j) ^ 2 with hb
  intro h0
  have hbpos : b ≠ 0 := by have := padeCos_pos h; positivity
  have e : E = ((1 - 1 / b : ℝ) : ℂ) := by
    have hbc : (b : ℂ) ≠ 0 := by exact_mod_cast hbpos
    push_cast
    field_simp
    linear_combination h0
  rw [e, Complex.norm_real, Real.norm_eq_abs] at hn
  rcases abs_eq (by norm_num : (0 : ℝ) ≤ 1) |>.mp hn with h1 | h1
  · have : 1 / b = 0 := by linarith
    exact hbpos (by simpa using this)
  · have : 1 / b = 2 := by linarith
    apply padeCos_half h
    rw [← hb]
    field_simp at this ⊢
    linarith

/-- A sum over all `m`-th roots of unity. -/
theorem roots_sum (m : Nat) (hm : 0 < m) (q : ℂ) (hq : q ^ m ≠ 1) :
    ∑ j ∈ Finset.range m, 1 / (1 - Complex.exp (2 * Real.pi * I / m) ^ j * q) = m / (1 - q ^ m) := by
  set ζ := Complex.exp (2 * Real.pi * I / m) with hζ
  have hprim : IsPrimitiveRoot ζ m := Complex.isPrimitiveRoot_exp m (by omega)
  have hne : 1 - q ^ m ≠ 0 := sub_ne_zero.mpr (Ne.symm hq)
  have key : ∀ j ∈ Finset.range m, 1 / (1 - ζ ^ j * q) = (∑ k ∈ Finset.range m, (ζ ^ k) ^ j * q ^ k) / (1 - q ^ m) := by
    intro j _
    have hp : (ζ ^ j * q) ^ m = q ^ m := by
      rw [mul_pow, ← pow_mul, mul_comm j m, pow_mul, hprim.pow_eq_one, one_pow, one_mul]
    have hx : 1 - ζ ^ j * q ≠ 0 := by
      intro h
      have : ζ ^ j * q = 1 := by linear_combination -h
      rw [this, one_pow] at hp
      exact hq hp.symm
    have hg := mul_neg_geom_sum (ζ ^ j * q) m
    rw [hp] at hg
    rw [div_eq_div_iff hx hne, one_mul, ← hg, mul_comm]
    congr 1
    refine Finset.sum_congr rfl fun k _ => ?_
    rw [mul_pow, ← pow_mul, ← pow_mul, mul_comm j k]
  rw [Finset.sum_congr rfl key, ← Finset.sum_div, Finset.sum_comm]
  congr 1
  rw [Finset.sum_eq_single 0]
  · simp
  · intro k hk hk0
    rw [← Finset.sum_mul]
    have hkm := Finset.mem_range.mp hk
    have hz : ζ ^ k ≠ 1 := hprim.pow_ne_one_of_pos_of_lt hk0 hkm
    have hs : ∑ j ∈ Finset.range m, (ζ ^ k) ^ j = 0 := by
      have := mul_neg_geom_sum (ζ ^ k) m
      rw [← pow_mul, mul_comm k m, pow_mul, hprim.pow_eq_one, one_pow, sub_self] at this
      exact (mul_eq_zero.mp this).resolve_left (sub_ne_zero.mpr (Ne.symm hz))
    rw [hs, zero_mul]
  · intro h; exact absurd (Finset.mem_range.mpr hm) h

/-- Sums over `0, …, 2 n` by pairs. -/
theorem sum_pairs (n : Nat) (f : Nat → ℂ) :
    ∑ j ∈ Finset.range (2 * n + 1), f j = f 0 + ∑ j ∈ Finset.range n, (f (j + 1) + f (2 * n - j)) := by
  rw [Finset.sum_range_succ', add_comm, two_mul, Finset.sum_range_add, Finset.sum_add_distrib]
  congr 2
  rw [← Finset.sum_range_reflect]
  refine Finset.sum_congr rfl fun j hj => ?_
  have := Finset.mem_range.mp hj
  congr 1
  omega

theorem half_plane {w : ℂ} (hw : 0 < w.re) : w ≠ 0 ∧ w + 1 ≠ 0 ∧ ‖(w - 1) / (w + 1)‖ < 1 := by
  have h0 : w ≠ 0 := by rintro rfl; simp at hw
  have h1 : w + 1 ≠ 0 := by
    intro h
    have := congrArg Complex.re h
    simp at this
    linarith
  refine ⟨h0, h1, ?_⟩
  rw [norm_div, div_lt_one (norm_pos_iff.mpr h1)]
  refine lt_of_pow_lt_pow_left₀ 2 (norm_nonneg _) ?_
  rw [Complex.sq_norm, Complex.sq_norm, Complex.normSq_apply, Complex.normSq_apply]
  simp only [Complex.sub_re, Complex.add_re, Complex.sub_im, Complex.add_im, Complex.one_re, Complex.one_im]
  nlinarith

theorem pow_ne_neg_one {q : ℂ} (hq : ‖q‖ < 1) (m : Nat) (hm : m ≠ 0) : 1 + q ^ m ≠ 0 := by
  intro h
  have e : q ^ m = -1 := by linear_combination h
  have : ‖q‖ ^ m = 1 := by rw [← norm_pow, e]; simp
  have h2 := pow_lt_one₀ (norm_nonneg q) hq hm
  linarith

/-- One pair of roots of unity. -/
theorem pair_identity {w c s : ℂ} (hcs : c ^ 2 + s ^ 2 = 1) (hw1 : w + 1 ≠ 0) (hd : c ^ 2 * w ^ 2 + s ^ 2 ≠ 0) :
    (2 / (1 + (c + I * s) ^ 2 * ((w - 1) / (w + 1))) - 1) + (2 / (1 + (c - I * s) ^ 2 * ((w - 1) / (w + 1))) - 1) =
      2 * w / (c ^ 2 * w ^ 2 + s ^ 2) := by
  have hI : I ^ 2 = -1 := Complex.I_sq
  have hu : (c + I * s) * (c - I * s) = 1 := by linear_combination hcs - s ^ 2 * hI
  have hu1 : c + I * s ≠ 0 := left_ne_zero_of_mul_eq_one hu
  have hu2 : c - I * s ≠ 0 := right_ne_zero_of_mul_eq_one hu
  have hf : (c * w - I * s) * (c * w + I * s) = c ^ 2 * w ^ 2 + s ^ 2 := by linear_combination -s ^ 2 * hI
  have hf1 : c * w - I * s ≠ 0 := fun h => hd (by rw [← hf, h, zero_mul])
  have hf2 : c * w + I * s ≠ 0 := fun h => hd (by rw [← hf, h, mul_zero])
  have e1 : 1 + (c + I * s) ^ 2 * ((w - 1) / (w + 1)) = 2 * (c + I * s) * (c * w - I * s) / (w + 1) := by
    field_simp
    linear_combination (-(w + 1)) * hcs + (s ^ 2 * (w + 1)) * hI
  have e2 : 1 + (c - I * s) ^ 2 * ((w - 1) / (w + 1)) = 2 * (c - I * s) * (c * w + I * s) / (w + 1) := by
    field_simp
    linear_combination (-(w + 1)) * hcs + (s ^ 2 * (w + 1)) * hI
  rw [e1, e2, ← hf]
  field_simp
  have hv : (c - I * s) * (c * w + I * s) + (c + I * s) * (c * w - I * s) = 2 * c ^ 2 * w + 2 * s ^ 2 := by
    linear_combination -2 * s ^ 2 * hI
  linear_combination (w + 1) * hv - 2 * ((c * w - I * s) * (c * w + I * s)) * hu - 2 * hf - 2 * w * hu + 2 * w * hcs

theorem unit_power (n j : Nat) : Complex.exp (2 * Real.pi * I / ((2 * n + 1 : ℕ) : ℂ)) ^ (j + 1) =
    (Complex.cos (padeAngle n j) + I * Complex.sin (padeAngle n j)) ^ 2 := by
  rw [mul_comm I, ← Complex.exp_mul_I, ← Complex.exp_nat_mul, ← Complex.exp_nat_mul]
  congr 1
  unfold padeAngle
  push_cast
  ring

theorem unit_power_inv {n j : Nat} (h : j < n) : Complex.exp (2 * Real.pi * I / ((2 * n + 1 : ℕ) : ℂ)) ^ (2 * n - j) =
    (Complex.cos (padeAngle n j) - I * Complex.sin (padeAngle n j)) ^ 2 := by
  have e : Complex.cos (padeAngle n j) - I * Complex.sin (padeAngle n j) = Complex.exp (-(padeAngle n j : ℂ) * I) := by
    rw [Complex.exp_mul_I, Complex.cos_neg, Complex.sin_neg]; ring
  have h1 : ((2 : ℂ) * n + 1) ≠ 0 := by
    have : ((2 * n + 1 : ℕ) : ℂ) ≠ 0 := Nat.cast_ne_zero.mpr (by omega)
    push_cast at this; exact this
  rw [e, ← Complex.exp_nat_mul, ← Complex.exp_nat_mul, Nat.cast_sub (by omega)]
  rw [Complex.exp_eq_exp_iff_exists_int]
  refine ⟨1, ?_⟩
  unfold padeAngle
  push_cast
  field_simp
  ring

theorem denominator_re {w : ℂ} (hw : 0 < w.re) {n j : Nat} (h : j < n) :
    Complex.cos (padeAngle n j) ^ 2 * w ^ 2 + Complex.sin (padeAngle n j) ^ 2 ≠ 0 := by
  rw [← Complex.ofReal_cos, ← Complex.ofReal_sin]
  have hc := padeCos_pos h
  have hs := padeSin_pos h
  set c := Real.cos (padeAngle n j)
  set s := Real.sin (padeAngle n j)
  intro h0
  have him := congrArg Complex.im h0
  have hre := congrArg Complex.re h0
  simp only [pow_two, Complex.add_re, Complex.add_im, Complex.mul_re, Complex.mul_im, Complex.ofReal_re, Complex.ofReal_im,
    Complex.zero_re, Complex.zero_im, mul_zero, zero_mul, sub_zero, add_zero] at him hre
  have hwi : w.im = 0 := by
    have : c * c * (2 * w.re) * w.im = 0 := by linarith
    rcases mul_eq_zero.mp this with h | h
    · have : 0 < c * c * (2 * w.re) := by positivity
      linarith
    · exact h
  rw [hwi] at hre
  have : 0 < c * c * (w.re * w.re) + s * s := by positivity
  linarith

/-- The Padé approximant in closed form. -/
theorem pade_closed (n : Nat) {w : ℂ} (hw : 0 < w.re) :
    rational 1 (padeA n) (padeB n) n (w ^ 2 - 1) =
      w * (1 - ((w - 1) / (w + 1)) ^ (2 * n + 1)) / (1 + ((w - 1) / (w + 1)) ^ (2 * n + 1)) := by
  obtain ⟨hw0, hw1, hq⟩ := half_plane hw
  set q := (w - 1) / (w + 1) with hqd
  have hne := pow_ne_neg_one hq (2 * n + 1) (by omega)
  have hM : ((2 : ℂ) * n + 1) ≠ 0 := by
    have : ((2 * n + 1 : ℕ) : ℂ) ≠ 0 := Nat.cast_ne_zero.mpr (by omega)
    push_cast at this; exact this
  have hodd : (-q) ^ (2 * n + 1) = -q ^ (2 * n + 1) := Odd.neg_pow ⟨n, rfl⟩ q
  have hs := roots_sum (2 * n + 1) (by omega) (-q) (by rw [hodd]; intro h; exact hne (by linear_combination -h))
  rw [hodd] at hs
  have h1 : ∑ j ∈ Finset.range (2 * n + 1), (2 / (1 + Complex.exp (2 * Real.pi * I / ((2 * n + 1 : ℕ) : ℂ)) ^ j * q) - 1) =
      (2 * n + 1) * (1 - q ^ (2 * n + 1)) / (1 + q ^ (2 * n + 1)) := by
    rw [Finset.sum_sub_distrib, Finset.sum_const, Finset.card_range, nsmul_eq_mul, mul_one]
    have : ∀ x : ℂ, 2 / (1 + x * q) = 2 * (1 / (1 - x * (-q))) := by intro x; rw [mul_neg, sub_neg_eq_add]; ring
    rw [Finset.sum_congr rfl fun j _ => this _, ← Finset.mul_sum, hs, sub_neg_eq_add]
    field_simp
    push_cast
    ring
  rw [sum_pairs] at h1
  have h2 : ∀ j ∈ Finset.range n, (2 / (1 + Complex.exp (2 * Real.pi * I / ((2 * n + 1 : ℕ) : ℂ)) ^ (j + 1) * q) - 1) +
      (2 / (1 + Complex.exp (2 * Real.pi * I / ((2 * n + 1 : ℕ) : ℂ)) ^ (2 * n - j) * q) - 1) =
      (2 * n + 1) / w * (padeA n j * (w ^ 2 - 1) / (1 + padeB n j * (w ^ 2 - 1)) + 2 / (2 * n + 1)) := by
    intro j hj
    have hj := Finset.mem_range.mp hj
    have hd := denominator_re hw hj
    have hcs : Complex.cos (padeAngle n j) ^ 2 + Complex.sin (padeAngle n j) ^ 2 = 1 := Complex.cos_sq_add_sin_sq _
    rw [unit_power, unit_power_inv hj, hqd, pair_identity hcs hw1 hd]
    unfold padeA padeB
    rw [padeAngle_cast]
    generalize Complex.cos (padeAngle n j) = c at *
    generalize Complex.sin (padeAngle n j) = s at *
    have e : 1 + c ^ 2 * (w ^ 2 - 1) = c ^ 2 * w ^ 2 + s ^ 2 := by linear_combination -hcs
    rw [e]
    generalize hD : c ^ 2 * w ^ 2 + s ^ 2 = D at *
    field_simp
    linear_combination (-w ^ 2) * hcs + hD
  rw [Finset.sum_congr rfl h2, ← Finset.mul_sum, Finset.sum_add_distrib, Finset.sum_const, Finset.card_range, nsmul_eq_mul] at h1
  have h0 : 2 / (1 + Complex.exp (2 * Real.pi * I / ((2 * n + 1 : ℕ) : ℂ)) ^ 0 * q) - 1 = 1 / w := by
    rw [pow_zero, one_mul, hqd]
    have : 1 + (w - 1) / (w + 1) = 2 * w / (w + 1) := by field_simp; ring
    rw [this]
    field_simp
    ring
  rw [h0] at h1
  unfold rational
  generalize (∑ j ∈ Finset.range n, padeA n j * (w ^ 2 - 1) / (1 + padeB n j * (w ^ 2 - 1))) = S at *
  rw [mul_div_assoc, ← mul_div_cancel_left₀ (w * ((1 - q ^ (2 * n + 1)) / (1 + q ^ (2 * n + 1)))) hM]
  have : (2 * (n : ℂ) + 1) * (w * ((1 - q ^ (2 * n + 1)) / (1 + q ^ (2 * n + 1)))) =
      w * ((2 * n + 1) * (1 - q ^ (2 * n + 1)) / (1 + q ^ (2 * n + 1))) := by ring
  rw [this, ← h1]
  field_simp
  ring

theorem exp_rotation (theta : ℝ) : Complex.exp (I * theta / 2) * Complex.exp (-I * theta) = Complex.exp (-I * theta / 2) ∧
    Complex.exp (I * theta / 2) ^ 2 * Complex.exp (-I * theta) = 1 ∧ ‖Complex.exp (-I * theta)‖ = 1 ∧
    ‖Complex.exp (I * theta / 2)‖ = 1 := by
  refine ⟨?_, ?_, ?_, ?_⟩
  · rw [← Complex.exp_add]; congr 1; ring
  · rw [← Complex.exp_nat_mul, ← Complex.exp_add, ← Complex.exp_zero]; congr 1; push_cast; ring
  · have : (-I * theta : ℂ) = ((-theta : ℝ) : ℂ) * I := by push_cast; ring
    rw [this, Complex.norm_exp_ofReal_mul_I]
  · have : (I * theta / 2 : ℂ) = ((theta / 2 : ℝ) : ℂ) * I := by push_cast; ring
    rw [this, Complex.norm_exp_ofReal_mul_I]

/-- The coefficients belong to the rotated approximant. -/
theorem rotated (n : Nat) (theta : ℝ) (z : ℂ)
    (hd : ∀ j < n, 1 + padeB n j * ((1 + z) * Complex.exp (-I * theta) - 1) ≠ 0) :
    rational (padeCoeffs n theta).c0 (padeCoeffs n theta).alpha (padeCoeffs n theta).beta n z =
      Complex.exp (I * theta / 2) * rational 1 (padeA n) (padeB n) n ((1 + z) * Complex.exp (-I * theta) - 1) := by
  unfold rational padeCoeffs
  dsimp only
  rw [mul_add, mul_add, add_assoc, Finset.mul_sum, Finset.mul_sum, ← Finset.sum_add_distrib]
  congr 1
  refine Finset.sum_congr rfl fun j hj => ?_
  have hj := Finset.mem_range.mp hj
  have h1 := denominator_ne hj theta
  have h2 := hd j hj
  rw [← (exp_rotation theta).1]
  generalize Complex.exp (I * theta / 2) = F at *
  generalize Complex.exp (-I * theta) = E at *
  generalize padeA n j = a at *
  generalize padeB n j = b at *
  have e : 1 + E * b / (1 + b * (E - 1)) * z = (1 + b * ((1 + z) * E - 1)) / (1 + b * (E - 1)) := by
    rw [eq_div_iff h1, add_mul, one_mul, mul_assoc, mul_comm z, ← mul_assoc, div_mul_cancel₀ _ h1]
    ring
  rw [e]
  generalize hd1 : 1 + b * (E - 1) = d at *
  generalize hd2 : 1 + b * ((1 + z) * E - 1) = D at *
  field_simp
  subst hd1 hd2
  ring

theorem beta_denominator {n j : Nat} (hj : j < n) (theta : ℝ) (z : ℂ) :
    1 + (padeCoeffs n theta).beta j * z =
      (1 + padeB n j * ((1 + z) * Complex.exp (-I * theta) - 1)) / (1 + padeB n j * (Complex.exp (-I * theta) - 1)) := by
  have h1 := denominator_ne hj theta
  unfold padeCoeffs
  dsimp only
  generalize Complex.exp (-I * theta) = E at *
  generalize padeB n j = b at *
  rw [eq_div_iff h1, add_mul, one_mul, mul_assoc, mul_comm z, ← mul_assoc, div_mul_cancel₀ _ h1]
  ring

theorem half_power {x : ℂ} (hx : x ∈ slitPlane) : 0 < (x ^ ((1 : ℂ) / 2)).re ∧ (x ^ ((1 : ℂ) / 2)) ^ 2 = x := by
  obtain ⟨ha, h0⟩ := Complex.mem_slitPlane_iff_arg.mp hx
  constructor
  · rw [Complex.cpow_def_of_ne_zero h0, Complex.exp_re]
    refine mul_pos (Real.exp_pos _) (Real.cos_pos_of_mem_Ioo ?_)
    have e : (Complex.log x * (1 / 2)).im = x.arg / 2 := by
      have : (Complex.log x * (1 / 2)) = ((1 / 2 : ℝ) : ℂ) * Complex.log x := by push_cast; ring
      rw [this, Complex.im_ofReal_mul, Complex.log_im]; ring
    rw [e]
    have h1 := Complex.neg_pi_lt_arg x
    have h2 := lt_of_le_of_ne (Complex.arg_le_pi x) ha
    constructor <;> linarith
  · have := Complex.cpow_nat_inv_pow x (n := 2) (by norm_num)
    rw [one_div]
    exact_mod_cast this

end

end Verif.PyOp
