import Mathlib.Analysis.Calculus.MeanValue
import Mathlib.Analysis.Calculus.LocalExtr.Rolle
import Mathlib.Analysis.Calculus.Deriv.Mul
import Mathlib.Analysis.Calculus.Deriv.Pow
import Mathlib.Analysis.Complex.RealDeriv
import Mathlib.Tactic
/-
The error of cubic Hermite interpolation on the unit interval.
-/
namespace Verif.Kernel

/-- The cubic with values `f1`, `f2` and derivatives `d1`, `d2` at 0 and 1. -/
def cubic {K : Type} [CommRing K] (f1 f2 d1 d2 t : K) : K :=
  f1 + t * (d1 + t * (-((d1 - (f2 - f1)) + (d1 - (f2 - f1)) + (d2 - (f2 - f1))) + t * ((d1 - (f2 - f1)) + (d2 - (f2 - f1)))))

/-- Rolle's theorem for functions with a derivative everywhere. -/
theorem rolle {g g' : ℝ → ℝ} (h : ∀ x, HasDerivAt g (g' x) x) {a b : ℝ} (hab : a < b) (he : g a = g b) : ∃ c, a < c ∧ c < b ∧ g' c = 0 := by
  obtain ⟨c, hc, h0⟩ := exists_hasDerivAt_eq_zero hab (fun x _ => (h x).continuousAt.continuousWithinAt) he (fun x _ => h x)
  exact ⟨c, hc.1, hc.2, h0⟩

theorem poly_deriv (a0 a1 a2 a3 a4 x : ℝ) :
    HasDerivAt (fun x : ℝ => a0 + a1 * x + a2 * x ^ 2 + a3 * x ^ 3 + a4 * x ^ 4)
      (a1 + 2 * a2 * x + 3 * a3 * x ^ 2 + 4 * a4 * x ^ 3 + 0 * x ^ 4) x := by
  have h1 : HasDerivAt (fun x : ℝ => a1 * x) a1 x := by simpa using (hasDerivAt_id x).const_mul a1
  have h2 := (hasDerivAt_pow 2 x).const_mul a2
  have h3 := (hasDerivAt_pow 3 x).const_mul a3
  have h4 := (hasDerivAt_pow 4 x).const_mul a4
  have := (((h1.const_add a0).add h2).add h3).add h4
  refine HasDerivAt.congr_deriv (f := fun x : ℝ => a0 + a1 * x + a2 * x ^ 2 + a3 * x ^ 3 + a4 * x ^ 4) this ?_
  norm_num
  ring

/-- The error formula of Hermite interpolation. -/
theorem cubic_error {f f1 f2 f3 f4 : ℝ → ℝ} (h0 : ∀ x, HasDerivAt f (f1 x) x) (h1 : ∀ x, HasDerivAt f1 (f2 x) x)
    (h2 : ∀ x, HasDerivAt f2 (f3 x) x) (h3 : ∀ x, HasDerivAt f3 (f4 x) x) (t : ℝ) (ht0 : 0 ≤ t) (ht1 : t ≤ 1) :
    ∃ ξ, 0 ≤ ξ ∧ ξ ≤ 1 ∧ f t - cubic (f 0) (f 1) (f1 0) (f1 1) t = f4 ξ / 24 * (t ^ 2 * (1 - t) ^ 2) := by
  rcases eq_or_lt_of_le ht0 with rfl | ht0
  · exact ⟨0, le_rfl, zero_le_one, by simp [cubic]⟩
  rcases eq_or_lt_of_le ht1 with rfl | ht1
  · exact ⟨0, le_rfl, zero_le_one, by simp only [cubic]; ring⟩
  have hw : t ^ 2 * (1 - t) ^ 2 ≠ 0 := by
    have : 0 < 1 - t := by linarith
    positivity
  obtain ⟨c, hc⟩ : ∃ c, c * (t ^ 2 * (1 - t) ^ 2) = f t - cubic (f 0) (f 1) (f1 0) (f1 1) t :=
    ⟨(f t - cubic (f 0) (f 1) (f1 0) (f1 1) t) / (t ^ 2 * (1 - t) ^ 2), by field_simp⟩
  -- coefficients of cubic + c * x² (1-x)²
  obtain ⟨a0, a1, a2, a3, hP⟩ : ∃ a0 a1 a2 a3 : ℝ, ∀ x, cubic (f 0) (f 1) (f1 0) (f1 1) x + c * (x ^ 2 * (1 - x) ^ 2) =
      a0 + a1 * x + a2 * x ^ 2 + a3 * x ^ 3 + c * x ^ 4 := by
    refine ⟨f 0, f1 0, -((f1 0 - (f 1 - f 0)) + (f1 0 - (f 1 - f 0)) + (f1 1 - (f 1 - f 0))) + c,
      (f1 0 - (f 1 - f 0)) + (f1 1 - (f 1 - f 0)) - 2 * c, fun x => ?_⟩
    simp only [cubic]; ring
  have e0 : a0 = f 0 := by have := hP 0; simp [cubic] at this; linarith
  have e1 : a0 + a1 + a2 + a3 + c = f 1 := by have := hP 1; simp [cubic] at this; linarith
  have et : a0 + a1 * t + a2 * t ^ 2 + a3 * t ^ 3 + c * t ^ 4 = f t := by rw [← hP t, hc]; ring
  have hder : ∀ x, HasDerivAt (fun x => cubic (f 0) (f 1) (f1 0) (f1 1) x + c * (x ^ 2 * (1 - x) ^ 2))
      (a1 + 2 * a2 * x + 3 * a3 * x ^ 2 + 4 * c * x ^ 3 + 0 * x ^ 4) x := by
    intro x
    rw [funext hP]
    exact poly_deriv a0 a1 a2 a3 c x
  -- the derivative of the polynomial at the end points
  have ea : a1 = f1 0 := by
    have p1 := hP 1; have p2 := hP 2; have p3 := hP 3; have p4 := hP (-1); have p0 := hP 0
    simp only [cubic] at p0 p1 p2 p3 p4
    linarith
  have eb : a1 + 2 * a2 + 3 * a3 + 4 * c = f1 1 := by
    have p1 := hP 1; have p2 := hP 2; have p3 := hP 3; have p4 := hP (-1); have p0 := hP 0
    simp only [cubic] at p0 p1 p2 p3 p4
    linarith
  have g0 : ∀ x, HasDerivAt (fun x => f x - (a0 + a1 * x + a2 * x ^ 2 + a3 * x ^ 3 + c * x ^ 4))
      ((fun x => f1 x - (a1 + 2 * a2 * x + 3 * a3 * x ^ 2 + 4 * c * x ^ 3 + 0 * x ^ 4)) x) x := fun x => (h0 x).sub (poly_deriv _ _ _ _ _ x)
  have g1 : ∀ x, HasDerivAt (fun x => f1 x - (a1 + 2 * a2 * x + 3 * a3 * x ^ 2 + 4 * c * x ^ 3 + 0 * x ^ 4))
      ((fun x => f2 x - (2 * a2 + 2 * (3 * a3) * x + 3 * (4 * c) * x ^ 2 + 4 * 0 * x ^ 3 + 0 * x ^ 4)) x) x := fun x => (h1 x).sub (poly_deriv _ _ _ _ _ x)
  have g2 : ∀ x, HasDerivAt (fun x => f2 x - (2 * a2 + 2 * (3 * a3) * x + 3 * (4 * c) * x ^ 2 + 4 * 0 * x ^ 3 + 0 * x ^ 4))
      ((fun x => f3 x - (2 * (3 * a3) + 2 * (3 * (4 * c)) * x + 3 * (4 * 0) * x ^ 2 + 4 * 0 * x ^ 3 + 0 * x ^ 4)) x) x := fun x => (h2 x).sub (poly_deriv _ _ _ _ _ x)
  have g3 : ∀ x, HasDerivAt (fun x => f3 x - (2 * (3 * a3) + 2 * (3 * (4 * c)) * x + 3 * (4 * 0) * x ^ 2 + 4 * 0 * x ^ 3 + 0 * x ^ 4))
      ((fun x => f4 x - (2 * (3 * (4 * c)) + 2 * (3 * (4 * 0)) * x + 3 * (4 * 0) * x ^ 2 + 4 * 0 * x ^ 3 + 0 * x ^ 4)) x) x := fun x => (h3 x).sub (poly_deriv _ _ _ _ _ x)
  obtain ⟨x1, hx1, hx1', z1⟩ := rolle g0 ht0 (by linarith)
  obtain ⟨x2, hx2, hx2', z2⟩ := rolle g0 ht1 (by linarith)
  obtain ⟨y1, hy1, hy1', w1⟩ := rolle g1 hx1 (by  linarith)
  obtain ⟨y2, hy2, hy2', w2⟩ := rolle g1 (hx1'.trans hx2) (by  linarith)
  obtain ⟨y3, hy3, hy3', w3⟩ := rolle g1 hx2' (by  linarith)
  obtain ⟨u1, hu1, hu1', v1⟩ := rolle g2 (hy1'.trans hy2) (by  linarith)
  obtain ⟨u2, hu2, hu2', v2⟩ := rolle g2 (hy2'.trans hy3) (by  linarith)
  obtain ⟨ξ, hξ, hξ', q⟩ := rolle g3 (hu1'.trans hu2) (by  linarith)
  refine ⟨ξ, by linarith, by linarith, ?_⟩
  rw [← hc]
  have : f4 ξ = 24 * c := by linarith
  rw [this]; ring

theorem bubble_le (t : ℝ) (h0 : 0 ≤ t) (h1 : t ≤ 1) : t ^ 2 * (1 - t) ^ 2 ≤ 1 / 16 := by
  have h : t * (1 - t) ≤ 1 / 4 := by nlinarith [sq_nonneg (t - 1 / 2)]
  have h' : 0 ≤ t * (1 - t) := mul_nonneg h0 (by linarith)
  have : t ^ 2 * (1 - t) ^ 2 = (t * (1 - t)) ^ 2 := by ring
  rw [this]
  nlinarith

/-- Complex-valued functions. -/
theorem cubic_error_complex {f f1 f2 f3 f4 : ℝ → ℂ} (h0 : ∀ x, HasDerivAt f (f1 x) x) (h1 : ∀ x, HasDerivAt f1 (f2 x) x)
    (h2 : ∀ x, HasDerivAt f2 (f3 x) x) (h3 : ∀ x, HasDerivAt f3 (f4 x) x) (M : ℝ)
    (hM : ∀ ξ, 0 ≤ ξ → ξ ≤ 1 → ‖f4 ξ‖ ≤ M) (t : ℝ) (ht0 : 0 ≤ t) (ht1 : t ≤ 1) :
    ‖cubic (f 0) (f 1) (f1 0) (f1 1) (t : ℂ) - f t‖ ≤ M / 384 := by
  set z := cubic (f 0) (f 1) (f1 0) (f1 1) (t : ℂ) - f t with hz
  by_cases hz0 : ‖z‖ = 0
  · rw [hz0]
    have := (norm_nonneg (f4 0)).trans (hM 0 le_rfl zero_le_one)
    positivity
  -- a functional of norm one that attains the norm of z
  set u : ℂ := (starRingEnd ℂ) z / ‖z‖ with hu
  have hnz : (‖z‖ : ℂ) ≠ 0 := by exact_mod_cast hz0
  have huz : u * z = (‖z‖ : ℂ) := by
    rw [hu, div_mul_eq_mul_div, mul_comm, Complex.mul_conj']
    field_simp
  have hun : ‖u‖ = 1 := by
    rw [hu, norm_div, RCLike.norm_conj, Complex.norm_real, norm_norm, div_self hz0]
  have hre : ∀ {g g' : ℝ → ℂ}, (∀ x, HasDerivAt g (g' x) x) → ∀ x, HasDerivAt (fun x => (u * g x).re) ((u * g' x).re) x := by
    intro g g' hg x
    exact ((Complex.reCLM.hasFDerivAt).comp_hasDerivAt x ((hg x).const_mul u))
  obtain ⟨ξ, hξ0, hξ1, he⟩ := cubic_error (hre h0) (hre h1) (hre h2) (hre h3) t ht0 ht1
  have key : ‖z‖ = -((u * f t).re - cubic ((u * f 0).re) ((u * f 1).re) ((u * f1 0).re) ((u * f1 1).re) t) := by
    have h5 : (u * z).re = ‖z‖ := by rw [huz]; simp
    rw [← h5, hz]
    simp only [cubic, Complex.mul_re, Complex.sub_re, Complex.add_re, Complex.neg_re, Complex.sub_im, Complex.add_im,
      Complex.neg_im, Complex.mul_im, Complex.ofReal_re, Complex.ofReal_im]
    ring
  rw [key, he]
  have hb := bubble_le t ht0 ht1
  have hb0 : 0 ≤ t ^ 2 * (1 - t) ^ 2 := by positivity
  have h6 : |(u * f4 ξ).re| ≤ M := by
    refine (Complex.abs_re_le_norm _).trans ?_
    rw [norm_mul, hun, one_mul]
    exact hM ξ hξ0 hξ1
  have h7 := abs_le.mp h6
  have hM0 : 0 ≤ M := (abs_nonneg _).trans h6
  have : -((u * f4 ξ).re / 24 * (t ^ 2 * (1 - t) ^ 2)) ≤ M / 24 * (t ^ 2 * (1 - t) ^ 2) := by
    have : -(u * f4 ξ).re ≤ M := by linarith
    nlinarith
  nlinarith

end Verif.Kernel
