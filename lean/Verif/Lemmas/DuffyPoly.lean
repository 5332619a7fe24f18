import Verif.Lemmas.DuffyRemap
import Mathlib.Algebra.MvPolynomial.Degrees
import Mathlib.Algebra.MvPolynomial.Eval
import Mathlib.MeasureTheory.Integral.Pi
import Mathlib.Analysis.SpecialFunctions.Integrals.Basic
/-
Polynomial integrands.
-/
namespace Verif.Quad
open MeasureTheory Set MvPolynomial

/-- A bound for the degree of an expression in one variable. -/
def Ex.deg (i : Fin 4) : Ex → Nat
  | .zero => 0
  | .one => 0
  | .var j => if j = i then 1 else 0
  | .add a b => max (a.deg i) (b.deg i)
  | .sub a b => max (a.deg i) (b.deg i)
  | .mul a b => a.deg i + b.deg i

/-- An expression as a polynomial. -/
noncomputable def Ex.toMv : Ex → MvPolynomial (Fin 4) ℝ
  | .zero => 0
  | .one => 1
  | .var i => X i
  | .add a b => a.toMv + b.toMv
  | .sub a b => a.toMv - b.toMv
  | .mul a b => a.toMv * b.toMv

theorem Ex.eval_toMv (e : Ex) (z : P4) : MvPolynomial.eval z e.toMv = e.eval z := by
  induction e <;> simp_all [Ex.toMv, Ex.eval]

theorem Ex.degreeOf_toMv (e : Ex) (i : Fin 4) : degreeOf i e.toMv ≤ e.deg i := by
  induction e with
  | zero => simp [Ex.toMv]
  | one => simp [Ex.toMv]
  | var j =>
    simp only [Ex.toMv, Ex.deg, degreeOf_X]
    split <;> split <;> simp_all
  | add a b iha ihb => exact (degreeOf_add_le i _ _).trans (max_le_max iha ihb)
  | sub a b iha ihb => exact (degreeOf_sub_le i _ _).trans (max_le_max iha ihb)
  | mul a b iha ihb => exact (degreeOf_mul_le i _ _).trans (Nat.add_le_add iha ihb)

theorem samples_degree (c : Config) (s : Sample Ex) (hs : s ∈ c.exSamples) (i : Fin 4) :
    s.x0.deg i ≤ 1 ∧ s.x1.deg i ≤ 1 ∧ s.y0.deg i ≤ 1 ∧ s.y1.deg i ≤ 1 ∧ s.w.deg i ≤ 3 := by
  have key : ∀ l : List (Sample Ex), (l.all fun s => (List.finRange 4).all fun i =>
      decide (s.x0.deg i ≤ 1 ∧ s.x1.deg i ≤ 1 ∧ s.y0.deg i ≤ 1 ∧ s.y1.deg i ≤ 1 ∧ s.w.deg i ≤ 3)) = true →
      s ∈ l → s.x0.deg i ≤ 1 ∧ s.x1.deg i ≤ 1 ∧ s.y0.deg i ≤ 1 ∧ s.y1.deg i ≤ 1 ∧ s.w.deg i ≤ 3 := by
    intro l h hs
    have := List.all_eq_true.mp h s hs
    exact of_decide_eq_true (List.all_eq_true.mp this i (List.mem_finRange i))
  cases c with
  | coincident => exact key exCO (by decide) hs
  | edge _ _ _ _ => exact key exEA (by decide) hs
  | vertex _ _ => exact key exVA (by decide) hs

/-- Substituting polynomials that have degree at most one in a variable. -/
theorem degreeOf_aeval_le (P : MvPolynomial (Fin 4) ℝ) (g : Fin 4 → MvPolynomial (Fin 4) ℝ) (i : Fin 4)
    (hg : ∀ j, degreeOf i (g j) ≤ 1) : degreeOf i (aeval g P) ≤ P.totalDegree := by
  rw [aeval_def, eval₂_eq]
  refine (degreeOf_sum_le i _ _).trans (Finset.sup_le fun d hd => ?_)
  refine (degreeOf_mul_le i _ _).trans ?_
  rw [algebraMap_eq, degreeOf_C, Nat.zero_add]
  refine (degreeOf_prod_le i _ _).trans ?_
  have h1 : ∑ j ∈ d.support, degreeOf i (g j ^ d j) ≤ ∑ j ∈ d.support, d j :=
    Finset.sum_le_sum fun j _ => (degreeOf_pow_le i (g j) (d j)).trans (by
      calc d j * degreeOf i (g j) ≤ d j * 1 := Nat.mul_le_mul_left _ (hg j)
        _ = d j := Nat.mul_one _)
  exact h1.trans (le_totalDegree hd)

theorem volume_restrict_cube :
    (volume : Measure P4).restrict cube = Measure.pi fun _ : Fin 4 => (volume : Measure ℝ).restrict (Ioo 0 1) := by
  have : cube = Set.pi univ fun _ : Fin 4 => Ioo (0 : ℝ) 1 := by
    ext z; simp [cube]
  rw [this, volume_pi, Measure.restrict_pi_pi]

theorem integral_pow_cube (d : Fin 4 → Nat) :
    ∫ z in cube, ∏ i, z i ^ d i = ∏ i : Fin 4, ∫ x in (0 : ℝ)..1, x ^ d i := by
  rw [volume_restrict_cube, integral_fintype_prod_eq_prod (fun i (x : ℝ) => x ^ d i)]
  refine Finset.prod_congr rfl fun i _ => ?_
  rw [intervalIntegral.integral_of_le zero_le_one, integral_Ioc_eq_integral_Ioo]

theorem integrable_pow_cube (d : Fin 4 → Nat) : IntegrableOn (fun z : P4 => ∏ i, z i ^ d i) cube := by
  unfold IntegrableOn
  rw [volume_restrict_cube]
  refine Integrable.fintype_prod (f := fun i (x : ℝ) => x ^ d i) fun i => ?_
  exact (((continuous_pow (d i)).integrableOn_Icc (a := (0 : ℝ)) (b := 1)).mono_set Ioo_subset_Icc_self)

/-- Product rules that are exact for powers are exact for polynomials. -/
theorem exactFor_polynomial (rule : Rule ℝ) (m : Nat) (h : rule.ExactDegree m) (Q : MvPolynomial (Fin 4) ℝ)
    (hQ : ∀ i, degreeOf i Q ≤ m) : ExactFor rule fun z => MvPolynomial.eval z Q := by
  unfold ExactFor
  simp only [smul_eq_mul, unitCube_eq]
  have e : ∀ z : P4, MvPolynomial.eval z Q = ∑ d ∈ Q.support, Q.coeff d * ∏ i, z i ^ d i := fun z => eval_eq' z Q
  simp only [e]
  have hint : ∫ z in cube, ∑ d ∈ Q.support, Q.coeff d * ∏ i, z i ^ d i =
      ∑ d ∈ Q.support, ∫ z in cube, Q.coeff d * ∏ i, z i ^ d i :=
    integral_finset_sum _ fun d _ => (integrable_pow_cube d).const_mul _
  rw [hint]
  have hsum : ∀ d ∈ Q.support, ∫ z in cube, Q.coeff d * ∏ i, z i ^ d i =
      ∑ i ∈ Finset.range rule.n, ∑ j ∈ Finset.range rule.n, rule.weight i * rule.weight j *
        (Q.coeff d * ∏ k, ![(rule.point i).1, (rule.point i).2, (rule.point j).1, (rule.point j).2] k ^ d k) := by
    intro d hd
    rw [integral_const_mul, integral_pow_cube]
    have hdeg : ∀ k, d k ≤ m := fun k => (monomial_le_degreeOf k hd).trans (hQ k)
    have h1 := h (d 0) (hdeg 0) (d 1) (hdeg 1)
    have h2 := h (d 2) (hdeg 2) (d 3) (hdeg 3)
    rw [Fin.prod_univ_four, mul_assoc (_ * _) _ _, ← h1, ← h2, Finset.sum_mul_sum, Finset.mul_sum]
    refine Finset.sum_congr rfl fun i _ => ?_
    rw [Finset.mul_sum]
    refine Finset.sum_congr rfl fun j _ => ?_
    rw [Fin.prod_univ_four]
    simp only [Matrix.cons_val]
    ring
  rw [Finset.sum_congr rfl hsum]
  simp only [Finset.mul_sum]
  symm
  rw [Finset.sum_comm]
  refine Finset.sum_congr rfl fun i _ => ?_
  rw [Finset.sum_comm]

end Verif.Quad
