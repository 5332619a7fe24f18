import Verif.Spec.Quadrature
import Mathlib.Analysis.SpecialFunctions.Integrals.Basic
import Mathlib.MeasureTheory.Integral.IntervalIntegral.FundThmCalculus
/-
Lemmas for C75: moments of the triangle and the square.
-/
namespace Verif.SingleQuad
open intervalIntegral

/-- Euler's integral. -/
theorem beta_integral (b a : Nat) :
    ∫ x in (0 : ℝ)..1, x ^ a * (1 - x) ^ b = (a.factorial * b.factorial : ℝ) / ((a + b + 1).factorial : ℝ) := by
  induction b generalizing a with
  | zero =>
    have h : (a.factorial : ℝ) ≠ 0 := by exact_mod_cast a.factorial_ne_zero
    simp only [pow_zero, mul_one, integral_pow, add_zero, Nat.factorial_succ, Nat.factorial_zero]
    push_cast
    have h2 : (a : ℝ) + 1 ≠ 0 := by positivity
    field_simp
    simp
  | succ b ih =>
    have hd : ∀ x ∈ Set.uIcc (0 : ℝ) 1, HasDerivAt (fun x : ℝ => x ^ (a + 1) * (1 - x) ^ (b + 1))
        (((a : ℝ) + 1) * (x ^ a * (1 - x) ^ (b + 1)) - ((b : ℝ) + 1) * (x ^ (a + 1) * (1 - x) ^ b)) x := by
      intro x _
      have h1 := hasDerivAt_pow (a + 1) x
      have h2 : HasDerivAt (fun x : ℝ => (1 - x) ^ (b + 1)) (((b + 1 : ℕ) : ℝ) * (1 - x) ^ b * (-1)) x := by
        have h0 : HasDerivAt (fun x : ℝ => 1 - x) (-1) x := (hasDerivAt_id x).const_sub 1
        exact HasDerivAt.congr_deriv (f := fun x : ℝ => (1 - x) ^ (b + 1)) (h0.pow (b + 1)) (by simp)
      refine HasDerivAt.congr_deriv (f := fun x : ℝ => x ^ (a + 1) * (1 - x) ^ (b + 1)) (h1.mul h2) ?_
      push_cast
      ring
    have hc1 : IntervalIntegrable (fun x : ℝ => x ^ a * (1 - x) ^ (b + 1)) MeasureTheory.volume 0 1 :=
      (by fun_prop : Continuous fun x : ℝ => x ^ a * (1 - x) ^ (b + 1)).intervalIntegrable _ _
    have hc2 : IntervalIntegrable (fun x : ℝ => x ^ (a + 1) * (1 - x) ^ b) MeasureTheory.volume 0 1 :=
      (by fun_prop : Continuous fun x : ℝ => x ^ (a + 1) * (1 - x) ^ b).intervalIntegrable _ _
    have hi := integral_eq_sub_of_hasDerivAt hd ((hc1.const_mul _).sub (hc2.const_mul _))
    rw [integral_sub (hc1.const_mul _) (hc2.const_mul _), integral_const_mul, integral_const_mul, ih (a + 1)] at hi
    simp only [sub_self, ne_eq, Nat.succ_ne_zero, not_false_eq_true, zero_pow, mul_zero, zero_mul] at hi
    have h3 : (a : ℝ) + 1 ≠ 0 := by positivity
    have h4 : ∫ x in (0 : ℝ)..1, x ^ a * (1 - x) ^ (b + 1)
        = ((b : ℝ) + 1) * (((a + 1).factorial * b.factorial : ℝ) / ((a + 1 + b + 1).factorial : ℝ)) / ((a : ℝ) + 1) := by
      rw [eq_div_iff h3]
      linarith
    rw [h4, show a + 1 + b + 1 = a + (b + 1) + 1 by ring, Nat.factorial_succ a, Nat.factorial_succ b]
    push_cast
    field_simp

theorem continuous_poly (p : MvPolynomial (Fin 2) ℝ) (s : Fin 2 →₀ ℕ) :
    Continuous fun y : ℝ => p.coeff s * y ^ (s 1) := by fun_prop

theorem value_eq (p : MvPolynomial (Fin 2) ℝ) (x y : ℝ) : value p x y = ∑ s ∈ p.support, p.coeff s * (x ^ (s 0) * y ^ (s 1)) := by
  unfold value
  rw [MvPolynomial.eval_eq']
  simp [Fin.prod_univ_two]

/-- The moments of the triangle. -/
theorem triangle_moments (p : MvPolynomial (Fin 2) ℝ) :
    triangleIntegral (value p) = ∑ s ∈ p.support, p.coeff s *
      (((s 0).factorial * (s 1).factorial : ℝ) / ((s 0 + s 1 + 2).factorial : ℝ)) := by
  unfold triangleIntegral
  have hin : ∀ x : ℝ, ∫ y in (0 : ℝ)..(1 - x), value p x y
      = ∑ s ∈ p.support, (p.coeff s / ((s 1 : ℝ) + 1)) * (x ^ (s 0) * (1 - x) ^ (s 1 + 1)) := by
    intro x
    simp only [value_eq]
    rw [integral_finset_sum]
    · refine Finset.sum_congr rfl fun s _ => ?_
      rw [integral_const_mul, integral_const_mul, integral_pow]
      simp only [ne_eq, Nat.succ_ne_zero, not_false_eq_true, zero_pow, sub_zero]
      ring
    · intro s _
      exact (by fun_prop : Continuous fun y : ℝ => p.coeff s * (x ^ (s 0) * y ^ (s 1))).intervalIntegrable _ _
  simp only [hin]
  rw [integral_finset_sum]
  · refine Finset.sum_congr rfl fun s _ => ?_
    rw [integral_const_mul, beta_integral]
    rw [show s 0 + (s 1 + 1) + 1 = s 0 + s 1 + 2 by ring, Nat.factorial_succ (s 1)]
    have : (s 1 : ℝ) + 1 ≠ 0 := by positivity
    push_cast
    field_simp
  · intro s _
    exact (by fun_prop : Continuous fun x : ℝ => (p.coeff s / ((s 1 : ℝ) + 1)) * (x ^ (s 0) * (1 - x) ^ (s 1 + 1))).intervalIntegrable _ _

/-- The moments of the square. -/
theorem square_moments (p : MvPolynomial (Fin 2) ℝ) :
    squareIntegral (value p) = ∑ s ∈ p.support, p.coeff s * (1 / ((s 0 : ℝ) + 1) * (1 / ((s 1 : ℝ) + 1))) := by
  unfold squareIntegral
  have hin : ∀ x : ℝ, ∫ y in (0 : ℝ)..1, value p x y
      = ∑ s ∈ p.support, (p.coeff s * (1 / ((s 1 : ℝ) + 1))) * x ^ (s 0) := by
    intro x
    simp only [value_eq]
    rw [integral_finset_sum]
    · refine Finset.sum_congr rfl fun s _ => ?_
      rw [integral_const_mul, integral_const_mul, integral_pow]
      simp only [ne_eq, Nat.succ_ne_zero, not_false_eq_true, zero_pow, sub_zero, one_pow]
      ring
    · intro s _
      exact (by fun_prop : Continuous fun y : ℝ => p.coeff s * (x ^ (s 0) * y ^ (s 1))).intervalIntegrable _ _
  simp only [hin]
  rw [integral_finset_sum]
  · refine Finset.sum_congr rfl fun s _ => ?_
    rw [integral_const_mul, integral_pow]
    simp only [ne_eq, Nat.succ_ne_zero, not_false_eq_true, zero_pow, sub_zero, one_pow]
    ring
  · intro s _
    exact (by fun_prop : Continuous fun x : ℝ => (p.coeff s * (1 / ((s 1 : ℝ) + 1))) * x ^ (s 0)).intervalIntegrable _ _

/-- Quadrature sums are sums of moments. -/
theorem quadSum_moments (rule : List QPoint) (p : MvPolynomial (Fin 2) ℝ) :
    quadSum rule (value p) = ∑ s ∈ p.support, p.coeff s * (rule.map fun q => q.w * (q.x ^ (s 0) * q.y ^ (s 1))).sum := by
  unfold quadSum
  induction rule with
  | nil => simp
  | cons q l ih =>
    rw [List.map_cons, List.sum_cons, ih, value_eq, Finset.mul_sum, ← Finset.sum_add_distrib]
    refine Finset.sum_congr rfl fun s _ => ?_
    rw [List.map_cons, List.sum_cons]
    ring

/-- Errors of the moments give errors of polynomials. -/
theorem moments_error (p : MvPolynomial (Fin 2) ℝ) (M N : (Fin 2 →₀ ℕ) → ℝ) (ε : ℝ) (h : ∀ s ∈ p.support, |M s - N s| ≤ ε) :
    |∑ s ∈ p.support, p.coeff s * M s - ∑ s ∈ p.support, p.coeff s * N s| ≤ ε * coeffNorm p := by
  rw [← Finset.sum_sub_distrib (fun s => p.coeff s * M s) (fun s => p.coeff s * N s)]
  refine (Finset.abs_sum_le_sum_abs _ _).trans ?_
  unfold coeffNorm
  rw [Finset.mul_sum]
  refine Finset.sum_le_sum fun s hs => ?_
  rw [← mul_sub, abs_mul, mul_comm]
  exact mul_le_mul_of_nonneg_right (h s hs) (abs_nonneg _)

/-! ### The triangle tables -/

/-- Powers of integers by powers of natural numbers. -/
def ipow : Int → Nat → Int
  | .ofNat n, a => .ofNat (n ^ a)
  | .negSucc n, a => if a % 2 = 0 then .ofNat ((n + 1) ^ a) else .negOfNat ((n + 1) ^ a)

theorem ipow_eq (z : Int) (a : Nat) : ipow z a = z ^ a := by
  cases z with
  | ofNat n => simp [ipow]
  | negSucc n =>
    simp only [ipow]
    have hz : Int.negSucc n = -((n + 1 : ℕ) : ℤ) := Int.negSucc_eq n
    split
    · rename_i h
      rw [hz, Even.neg_pow (Nat.even_iff.mpr h)]; simp
    · rename_i h
      rw [hz, Odd.neg_pow (Nat.odd_iff.mpr (by omega)), Int.negOfNat_eq]; simp

/-- The rows of the triangle tables from a position on: second and third barycentric coordinate, weight. -/
def rows3 : Nat → List Int → List Int → List (Int × Int × Int)
  | n + 1, _ :: b :: c :: t, w :: ws => (b, c, w) :: rows3 n t ws
  | _, _, _ => []

def moment (a b : Nat) : List (Int × Int × Int) → Int
  | [] => 0
  | p :: l => p.2.2 * (ipow p.1 a * ipow p.2.1 b) + moment a b l

def fact : Nat → Nat
  | 0 => 1
  | n + 1 => (n + 1) * fact n

theorem fact_eq (n : Nat) : fact n = n.factorial := by
  induction n with
  | zero => rfl
  | succ n ih => rw [fact, ih, Nat.factorial_succ]

/-- The moment is correct up to 5e-15. -/
def momentOk (a b : Nat) (S : Int) : Bool :=
  Nat.ble ((S * fact (a + b + 2) - 2 * (fact a * fact b) * 10 ^ (16 * (a + b + 1)) : Int).natAbs * 10 ^ 15)
    (2 * 5 * fact (a + b + 2) * 10 ^ (16 * (a + b + 1)))

def checkB (a : Nat) (l : List (Int × Int × Int)) : Nat → Bool
  | 0 => momentOk a 0 (moment a 0 l)
  | b + 1 => momentOk a (b + 1) (moment a (b + 1) l) && checkB a l b

def checkA (q : Nat) (l : List (Int × Int × Int)) : Nat → Bool
  | 0 => checkB 0 l q
  | a + 1 => checkB (a + 1) l (q - (a + 1)) && checkA q l a

theorem checkB_spec {a : Nat} {l : List (Int × Int × Int)} {m : Nat} (h : checkB a l m = true) :
    ∀ b, b ≤ m → momentOk a b (moment a b l) = true := by
  induction m with
  | zero => intro b hb; obtain rfl : b = 0 := by omega
            exact h
  | succ m ih =>
    intro b hb
    rw [checkB, Bool.and_eq_true] at h
    rcases Nat.lt_or_ge b (m + 1) with h1 | h1
    · exact ih h.2 b (by omega)
    · obtain rfl : b = m + 1 := by omega
      exact h.1

theorem checkA_spec {q : Nat} {l : List (Int × Int × Int)} {m : Nat} (h : checkA q l m = true) :
    ∀ a b, a ≤ m → a + b ≤ q → momentOk a b (moment a b l) = true := by
  induction m with
  | zero => intro a b ha hb; obtain rfl : a = 0 := by omega
            exact checkB_spec h b (by omega)
  | succ m ih =>
    intro a b ha hb
    rw [checkA, Bool.and_eq_true] at h
    rcases Nat.lt_or_ge a (m + 1) with h1 | h1
    · exact ih h.2 a b (by omega) hb
    · obtain rfl : a = m + 1 := by omega
      exact checkB_spec h.1 b (by omega)

/-- The quadrature point of a row. -/
noncomputable def rowPoint (p : Int × Int × Int) : QPoint := ⟨lit16 p.1, lit16 p.2.1, 0.5 * lit16 p.2.2⟩

theorem moment_real (a b : Nat) (l : List (Int × Int × Int)) :
    ((l.map rowPoint).map fun q => q.w * (q.x ^ a * q.y ^ b)).sum = (moment a b l : ℝ) / (2 * (10 ^ 16) ^ (a + b + 1)) := by
  induction l with
  | nil => simp [moment]
  | cons p l ih =>
    rw [List.map_cons, List.map_cons, List.sum_cons, ih, moment, ipow_eq, ipow_eq]
    simp only [rowPoint, lit16, div_pow]
    push_cast
    rw [pow_succ, pow_add]
    field_simp
    ring

theorem momentOk_real {a b : Nat} {S : Int} (h : momentOk a b S = true) :
    |(S : ℝ) / (2 * (10 ^ 16) ^ (a + b + 1)) - (a.factorial * b.factorial : ℝ) / ((a + b + 2).factorial : ℝ)| ≤ 5 / 10 ^ 15 := by
  unfold momentOk at h
  have h1 := Nat.le_of_ble_eq_true h
  rw [fact_eq, fact_eq, fact_eq] at h1
  have h2 : (((S * (a + b + 2).factorial - 2 * (a.factorial * b.factorial) * 10 ^ (16 * (a + b + 1)) : ℤ).natAbs : ℕ) : ℝ) * 10 ^ 15
      ≤ 2 * 5 * ((a + b + 2).factorial : ℝ) * 10 ^ (16 * (a + b + 1)) := by exact_mod_cast h1
  rw [Nat.cast_natAbs] at h2
  push_cast at h2
  rw [pow_mul] at h2
  have hf : (0 : ℝ) < ((a + b + 2).factorial : ℝ) := by exact_mod_cast Nat.factorial_pos _
  generalize ((a + b + 2).factorial : ℝ) = F at *
  have hu : (0 : ℝ) < (10 ^ 16) ^ (a + b + 1) := by positivity
  generalize ((10 : ℝ) ^ 16) ^ (a + b + 1) = U at *
  rw [div_sub_div _ _ (by positivity) hf.ne', abs_div, abs_of_pos (by positivity : 0 < 2 * U * F), div_le_iff₀ (by positivity)]
  rw [show (S : ℝ) * F - 2 * U * (a.factorial * b.factorial) = S * F - 2 * (a.factorial * b.factorial) * U by ring]
  linarith

/-! ### The tensor tables -/

/-- The rows of the tensor tables from a position on. -/
def rows2 : Nat → List Int → List Int → List (Int × Int × Int)
  | n + 1, a :: b :: t, w :: ws => (a, b, w) :: rows2 n t ws
  | _, _, _ => []

noncomputable def rowPoint15 (p : Int × Int × Int) : QPoint := ⟨lit15 p.1, lit15 p.2.1, lit15 p.2.2⟩

/-- Remove a row of a tensor rule: its points have the first coordinate `x` and its weights are `r` times those of the
one-dimensional rule, up to 1e-15. -/
def consumeRow (x r : Int) : List (Int × Int) → List (Int × Int × Int) → Option (List (Int × Int × Int))
  | [], l => some l
  | q :: t, p :: l =>
    if Nat.beq (p.1 - x).natAbs 0 && Nat.beq (p.2.1 - q.1).natAbs 0 && Nat.ble (p.2.2 * 10 ^ 15 - r * q.2).natAbs (10 ^ 15) then
      consumeRow x r t l
    else none
  | _ :: _, [] => none

def consume (inner : List (Int × Int)) : List (Int × Int) → List (Int × Int × Int) → Bool
  | [], [] => true
  | [], _ :: _ => false
  | p :: t, l => match consumeRow p.1 p.2 inner l with
    | some l' => consume inner t l'
    | none => false

/-- Moments of a one-dimensional rule. -/
def moment1 (a : Nat) : List (Int × Int) → Int
  | [] => 0
  | p :: l => p.2 * ipow p.1 a + moment1 a l

def moment1Ok (a : Nat) (S : Int) : Bool :=
  Nat.ble ((S * (a + 1) - 10 ^ (15 * (a + 1)) : Int).natAbs * 10 ^ 15) (30 * (a + 1) * 10 ^ (15 * (a + 1)))

def check1 (l : List (Int × Int)) : Nat → Bool
  | 0 => true
  | a + 1 => moment1Ok a (moment1 a l) && check1 l a

def unitNodes : List (Int × Int) → Bool
  | [] => true
  | p :: l => Nat.ble (p.1 + (10 ^ 15 - p.1)).natAbs (10 ^ 15) && Nat.ble p.1.natAbs (10 ^ 15) && (match p.1 with
    | .ofNat _ => true
    | .negSucc _ => false) && unitNodes l

theorem check1_spec {l : List (Int × Int)} {m : Nat} (h : check1 l m = true) : ∀ a, a < m → moment1Ok a (moment1 a l) = true := by
  induction m with
  | zero => intro a ha; omega
  | succ m ih =>
    intro a ha
    rw [check1, Bool.and_eq_true] at h
    rcases Nat.lt_or_ge a m with h1 | h1
    · exact ih h.2 a h1
    · obtain rfl : a = m := by omega
      exact h.1

theorem unitNodes_spec {l : List (Int × Int)} (h : unitNodes l = true) : ∀ p ∈ l, 0 ≤ lit15 p.1 ∧ lit15 p.1 ≤ 1 := by
  induction l with
  | nil => intro p hp; cases hp
  | cons q l ih =>
    intro p hp
    simp only [unitNodes, Bool.and_eq_true] at h
    rcases List.mem_cons.mp hp with rfl | hp
    · obtain ⟨⟨⟨-, h1⟩, h2⟩, -⟩ := h
      have h1 := Nat.le_of_ble_eq_true h1
      cases hz : p.1 with
      | ofNat n =>
        rw [hz] at h1
        have h3 : n ≤ 10 ^ 15 := by simpa using h1
        have h4 : (n : ℝ) ≤ 10 ^ 15 := by exact_mod_cast h3
        unfold lit15
        constructor
        · simp only [Int.ofNat_eq_natCast, Int.cast_natCast]; positivity
        · rw [div_le_one (by positivity)]; simpa using h4
      | negSucc n => rw [hz] at h2; cases h2
    · exact ih h.2 p hp

/-- The sum of a one-dimensional rule for a power. -/
noncomputable def sum1 (a : Nat) (l : List (Int × Int)) : ℝ := (l.map fun p => lit15 p.2 * lit15 p.1 ^ a).sum

theorem sum1_eq (a : Nat) (l : List (Int × Int)) : sum1 a l = (moment1 a l : ℝ) / (10 ^ 15) ^ (a + 1) := by
  induction l with
  | nil => simp [sum1, moment1]
  | cons p l ih =>
    have : sum1 a (p :: l) = lit15 p.2 * lit15 p.1 ^ a + sum1 a l := by simp [sum1]
    rw [this, ih, moment1, ipow_eq]
    simp only [lit15, div_pow]
    push_cast
    clear ih this
    have hv : (10 : ℝ) ^ 15 ≠ 0 := by positivity
    generalize (10 : ℝ) ^ 15 = V at *
    have hu : V ^ a ≠ 0 := pow_ne_zero _ hv
    rw [pow_succ]
    generalize V ^ a = U at *
    field_simp

theorem frac_error {S A U ε : ℝ} (hA : 0 < A) (hU : 0 < U) (h : |S * A - U| ≤ ε * (A * U)) : |S / U - 1 / A| ≤ ε := by
  rw [div_sub_div _ _ hU.ne' hA.ne', abs_div, abs_of_pos (mul_pos hU hA), div_le_iff₀ (mul_pos hU hA), mul_one, mul_comm U A]
  exact h

theorem sum1_error {l : List (Int × Int)} {a : Nat} (h : moment1Ok a (moment1 a l) = true) :
    |sum1 a l - 1 / ((a : ℝ) + 1)| ≤ 30 / 10 ^ 15 := by
  rw [sum1_eq]
  unfold moment1Ok at h
  have h1 := Nat.le_of_ble_eq_true h
  generalize moment1 a l = S at *
  have h2 : (((S * (a + 1) - 10 ^ (15 * (a + 1)) : ℤ).natAbs : ℕ) : ℝ) * 10 ^ 15 ≤ 30 * ((a : ℝ) + 1) * 10 ^ (15 * (a + 1)) := by
    exact_mod_cast h1
  rw [Nat.cast_natAbs] at h2
  push_cast at h2
  rw [pow_mul] at h2
  have hu : (0 : ℝ) < (10 ^ 15) ^ (a + 1) := by positivity
  have hf : (0 : ℝ) < (a : ℝ) + 1 := by positivity
  refine frac_error hf hu ?_
  have hv : (0 : ℝ) < (10 : ℝ) ^ 15 := by positivity
  generalize ((10 : ℝ) ^ 15) ^ (a + 1) = U at *
  generalize (10 : ℝ) ^ 15 = V at *
  rw [div_mul_eq_mul_div, le_div_iff₀ hv]
  linarith

/-- The contribution of a list of points to a moment. -/
noncomputable def sum2 (a b : Nat) (l : List (Int × Int × Int)) : ℝ :=
  ((l.map rowPoint15).map fun q => q.w * (q.x ^ a * q.y ^ b)).sum

theorem sum2_cons (a b : Nat) (p : Int × Int × Int) (l : List (Int × Int × Int)) :
    sum2 a b (p :: l) = lit15 p.2.2 * (lit15 p.1 ^ a * lit15 p.2.1 ^ b) + sum2 a b l := by
  simp [sum2, rowPoint15]

theorem consumeRow_spec (a b : Nat) {x r : Int} (hx : 0 ≤ lit15 x ∧ lit15 x ≤ 1) {inner : List (Int × Int)}
    (hin : ∀ p ∈ inner, 0 ≤ lit15 p.1 ∧ lit15 p.1 ≤ 1) {l l' : List (Int × Int × Int)} (h : consumeRow x r inner l = some l') :
    |sum2 a b l - sum2 a b l' - lit15 r * lit15 x ^ a * sum1 b inner| ≤ inner.length * (1 / 10 ^ 15) := by
  induction inner generalizing l with
  | nil =>
    rw [consumeRow] at h
    cases h
    simp [sum1]
  | cons q t ih =>
    cases l with
    | nil => rw [consumeRow] at h; cases h
    | cons p l =>
      rw [consumeRow] at h
      split at h
      · rename_i hc
        simp only [Bool.and_eq_true] at hc
        obtain ⟨⟨h1, h2⟩, h3⟩ := hc
        have h1 := Nat.eq_of_beq_eq_true h1
        have h2 := Nat.eq_of_beq_eq_true h2
        have h3 := Nat.le_of_ble_eq_true h3
        have e1 : p.1 = x := by omega
        have e2 : p.2.1 = q.1 := by omega
        have hi := ih (fun p hp => hin p (List.mem_cons_of_mem _ hp)) h
        have hq := hin q List.mem_cons_self
        have hw : |lit15 p.2.2 - lit15 r * lit15 q.2| ≤ 1 / 10 ^ 15 := by
          have h4 : (((p.2.2 * 10 ^ 15 - r * q.2 : ℤ).natAbs : ℕ) : ℝ) ≤ 10 ^ 15 := by exact_mod_cast h3
          rw [Nat.cast_natAbs] at h4
          push_cast at h4
          unfold lit15
          rw [show (p.2.2 : ℝ) / 10 ^ 15 - r / 10 ^ 15 * (q.2 / 10 ^ 15) = (p.2.2 * 10 ^ 15 - r * q.2) / (10 ^ 15 * 10 ^ 15) by
            field_simp]
          rw [abs_div, abs_of_pos (by positivity : (0 : ℝ) < 10 ^ 15 * 10 ^ 15), div_le_div_iff₀ (by positivity) (by positivity)]
          rw [one_mul]
          refine mul_le_mul_of_nonneg_right ?_ (by positivity)
          rw [show ((10 : ℝ) ^ 15) = 1000000000000000 by norm_num] at h4 ⊢
          exact h4
        have hs : sum1 b (q :: t) = lit15 q.2 * lit15 q.1 ^ b + sum1 b t := by simp [sum1]
        rw [sum2_cons, e1, e2, hs]
        have ha0 : 0 ≤ lit15 x ^ a := pow_nonneg hx.1 _
        have ha1 : lit15 x ^ a ≤ 1 := pow_le_one₀ hx.1 hx.2
        have hb0 : 0 ≤ lit15 q.1 ^ b := pow_nonneg hq.1 _
        have hb1 : lit15 q.1 ^ b ≤ 1 := pow_le_one₀ hq.1 hq.2
        rw [show lit15 p.2.2 * (lit15 x ^ a * lit15 q.1 ^ b) + sum2 a b l - sum2 a b l' -
            lit15 r * lit15 x ^ a * (lit15 q.2 * lit15 q.1 ^ b + sum1 b t)
            = (lit15 p.2.2 - lit15 r * lit15 q.2) * (lit15 x ^ a * lit15 q.1 ^ b)
              + (sum2 a b l - sum2 a b l' - lit15 r * lit15 x ^ a * sum1 b t) by ring]
        refine (abs_add_le _ _).trans ?_
        have h5 : |(lit15 p.2.2 - lit15 r * lit15 q.2) * (lit15 x ^ a * lit15 q.1 ^ b)| ≤ 1 / 10 ^ 15 := by
          rw [abs_mul, abs_of_nonneg (mul_nonneg ha0 hb0)]
          calc |lit15 p.2.2 - lit15 r * lit15 q.2| * (lit15 x ^ a * lit15 q.1 ^ b)
              ≤ 1 / 10 ^ 15 * 1 := mul_le_mul hw (mul_le_one₀ ha1 hb0 hb1) (mul_nonneg ha0 hb0) (by positivity)
            _ = _ := mul_one _
        rw [List.length_cons]
        push_cast
        linarith
      · cases h

theorem consume_spec (a b : Nat) {inner outer : List (Int × Int)} (hin : ∀ p ∈ inner, 0 ≤ lit15 p.1 ∧ lit15 p.1 ≤ 1)
    (hout : ∀ p ∈ outer, 0 ≤ lit15 p.1 ∧ lit15 p.1 ≤ 1) {l : List (Int × Int × Int)} (h : consume inner outer l = true) :
    |sum2 a b l - sum1 a outer * sum1 b inner| ≤ outer.length * (inner.length * (1 / 10 ^ 15)) := by
  induction outer generalizing l with
  | nil =>
    cases l with
    | nil => simp [sum1, sum2]
    | cons p l => rw [consume] at h; cases h
  | cons p t ih =>
    rw [consume] at h
    split at h
    · rename_i l' hl
      have h1 := ih (fun p hp => hout p (List.mem_cons_of_mem _ hp)) h
      have h2 := consumeRow_spec a b (hout p List.mem_cons_self) hin hl
      have hs : sum1 a (p :: t) = lit15 p.2 * lit15 p.1 ^ a + sum1 a t := by simp [sum1]
      rw [hs, show sum2 a b l - (lit15 p.2 * lit15 p.1 ^ a + sum1 a t) * sum1 b inner
        = (sum2 a b l - sum2 a b l' - lit15 p.2 * lit15 p.1 ^ a * sum1 b inner) + (sum2 a b l' - sum1 a t * sum1 b inner) by ring]
      refine (abs_add_le _ _).trans ?_
      rw [List.length_cons]
      push_cast
      linarith
    · cases h

/-- A tensor rule of at most 400 points that passes the checks. -/
theorem tensor_error {n : Nat} (hn : n ≤ 20) {nodes : List (Int × Int)} (hl : nodes.length = n) {l : List (Int × Int × Int)}
    (h1 : check1 nodes (2 * n) = true) (h2 : unitNodes nodes = true) (h3 : consume nodes nodes l = true) (a b : Nat)
    (ha : a < 2 * n) (hb : b < 2 * n) :
    |sum2 a b l - 1 / ((a : ℝ) + 1) * (1 / ((b : ℝ) + 1))| ≤ 5 / 10 ^ 13 := by
  have e := consume_spec a b (unitNodes_spec h2) (unitNodes_spec h2) h3
  have ea := sum1_error (check1_spec h1 a ha)
  have eb := sum1_error (check1_spec h1 b hb)
  rw [hl] at e
  have hn' : (n : ℝ) ≤ 20 := by exact_mod_cast hn
  have hn0 : (0 : ℝ) ≤ n := by positivity
  have e' : |sum2 a b l - sum1 a nodes * sum1 b nodes| ≤ 400 * (1 / 10 ^ 15) := e.trans (by nlinarith)
  have fa : |1 / ((a : ℝ) + 1)| ≤ 1 := by
    rw [abs_of_nonneg (by positivity), div_le_one (by positivity)]; linarith [(Nat.cast_nonneg a : (0 : ℝ) ≤ a)]
  have fb : |1 / ((b : ℝ) + 1)| ≤ 1 := by
    rw [abs_of_nonneg (by positivity), div_le_one (by positivity)]; linarith [(Nat.cast_nonneg b : (0 : ℝ) ≤ b)]
  generalize 1 / ((a : ℝ) + 1) = A at *
  generalize 1 / ((b : ℝ) + 1) = B at *
  generalize sum1 a nodes = X at *
  generalize sum1 b nodes = Y at *
  rw [show sum2 a b l - A * B = (sum2 a b l - X * Y) + ((X - A) * (Y - B) + (X - A) * B + A * (Y - B)) by ring]
  refine (abs_add_le _ _).trans ?_
  have g1 : |(X - A) * (Y - B)| ≤ 30 / 10 ^ 15 * (30 / 10 ^ 15) := by
    rw [abs_mul]; exact mul_le_mul ea eb (abs_nonneg _) (by positivity)
  have g2 : |(X - A) * B| ≤ 30 / 10 ^ 15 * 1 := by
    rw [abs_mul]; exact mul_le_mul ea fb (abs_nonneg _) (by positivity)
  have g3 : |A * (Y - B)| ≤ 1 * (30 / 10 ^ 15) := by
    rw [abs_mul]; exact mul_le_mul fa eb (abs_nonneg _) (by positivity)
  have g4 := abs_add_le ((X - A) * (Y - B) + (X - A) * B) (A * (Y - B))
  have g5 := abs_add_le ((X - A) * (Y - B)) ((X - A) * B)
  norm_num at *
  linarith

end Verif.SingleQuad
