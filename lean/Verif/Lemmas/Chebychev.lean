import Verif.Model.Chebychev
import Mathlib.Analysis.SpecialFunctions.Trigonometric.Chebyshev.Extremal
import Mathlib.LinearAlgebra.Lagrange
import Mathlib.Tactic.LinearCombination
import Mathlib.Tactic.FieldSimp
/-
Barycentric interpolation at the extrema of the Chebyshev polynomials.
-/
namespace Verif.Cheb
open Polynomial Finset

theorem signs_eq (k : Nat) : signs k = (-1) ^ k := by
  induction k with
  | zero => rfl
  | succ k ih => rw [signs, ih, pow_succ]

theorem nodes_eq (n : Nat) : mkNodes n = Chebyshev.node n := by
  funext i
  simp only [mkNodes, Chebyshev.node, mul_comm]

theorem nodes_inj (n : Nat) : Set.InjOn (mkNodes n) (range (n + 1) : Finset Nat) := by
  rw [nodes_eq]
  exact (Chebyshev.strictAntiOn_node n).injOn

/-- 2 at the ends, 1 elsewhere. -/
noncomputable def ends (n k : Nat) : ℝ := if k = 0 ∨ k = n then 2 else 1

theorem ends_pos (n k : Nat) : 0 < ends n k := by unfold ends; split_ifs <;> norm_num

theorem weights_eq (n k : Nat) (hn : 0 < n) : mkWeights n k = (-1) ^ k / ends n k := by
  unfold mkWeights ends
  by_cases h : k = n
  · subst h
    simp only [Function.update_self, or_true, if_true]
    rw [Function.update_of_ne (by omega), signs_eq]; ring
  · simp only [Function.update_of_ne h, h, or_false]
    by_cases h0 : k = 0
    · subst h0; simp
    · rw [Function.update_of_ne h0, signs_eq, if_neg h0]; ring

theorem diffWeights_eq (n k : Nat) (hn : 0 < n) : diffWeights n k = (-1) ^ k * ends n k := by
  unfold diffWeights
  by_cases h : k = n
  · subst h
    simp only [Function.update_self]
    rw [Function.update_of_ne (by omega), weights_eq _ _ hn, ends, if_pos (Or.inr rfl)]; ring
  · simp only [Function.update_of_ne h]
    by_cases h0 : k = 0
    · subst h0; rw [Function.update_self, weights_eq _ _ hn, ends, if_pos (Or.inl rfl)]; ring
    · rw [Function.update_of_ne h0, weights_eq _ _ hn, ends, if_neg (by omega)]; ring

/-- The polynomial with zeros at the nodes. -/
noncomputable def zeros (n : Nat) : ℝ[X] := (X ^ 2 - 1) * Chebyshev.U ℝ ((n : ℤ) - 1)

theorem U_degree (n : Nat) (hn : 0 < n) : (Chebyshev.U ℝ ((n : ℤ) - 1)).degree = ((n - 1 : Nat) : WithBot Nat) := by
  have : (n : ℤ) - 1 = ((n - 1 : Nat) : ℤ) := by omega
  rw [this, Chebyshev.degree_U_natCast]

theorem zeros_degree (n : Nat) (hn : 0 < n) : (zeros n).degree = ((n + 1 : Nat) : WithBot Nat) := by
  unfold zeros
  rw [degree_mul, U_degree n hn, show (X ^ 2 - 1 : ℝ[X]) = X ^ 2 - C 1 by simp, degree_X_pow_sub_C (by norm_num)]
  norm_cast
  omega

theorem U_inner (n k : Nat) (h0 : 0 < k) (hk : k < n) : (Chebyshev.U ℝ ((n : ℤ) - 1)).eval (mkNodes n k) = 0 := by
  have h := Chebyshev.U_real_cos (Real.pi * k / n) ((n : ℤ) - 1)
  have hn : (0 : ℝ) < n := by exact_mod_cast (by omega : 0 < n)
  have hs : Real.sin (Real.pi * k / n) ≠ 0 := by
    apply ne_of_gt
    apply Real.sin_pos_of_pos_of_lt_pi
    · have : (0 : ℝ) < k := by exact_mod_cast h0
      positivity
    · rw [div_lt_iff₀ hn]
      have : (k : ℝ) < n := by exact_mod_cast hk
      exact mul_lt_mul_of_pos_left this Real.pi_pos
  have hr : ((((n : ℤ) - 1 : ℤ) : ℝ) + 1) * (Real.pi * k / n) = k * Real.pi := by
    push_cast; field_simp; ring
  rw [hr, Real.sin_nat_mul_pi] at h
  exact (mul_eq_zero.mp h).resolve_right hs

theorem node_first (n : Nat) : mkNodes n 0 = 1 := by rw [nodes_eq, Chebyshev.node_eq_one]
theorem node_last (n : Nat) (hn : 0 < n) : mkNodes n n = -1 := by rw [nodes_eq, Chebyshev.node_eq_neg_one (by omega)]

theorem zeros_eval (n k : Nat) (hn : 0 < n) (hk : k ≤ n) : (zeros n).eval (mkNodes n k) = 0 := by
  unfold zeros
  rw [eval_mul]
  rcases Nat.eq_zero_or_pos k with rfl | h0
  · rw [node_first]; simp
  · rcases Nat.lt_or_ge k n with h | h
    · rw [U_inner n k h0 h, mul_zero]
    · obtain rfl : k = n := by omega
      rw [node_last k hn]; simp

theorem zeros_derivative (n : Nat) : derivative (zeros n) = X * Chebyshev.U ℝ ((n : ℤ) - 1) + (n : ℝ[X]) * Chebyshev.T ℝ n := by
  have h := Chebyshev.add_one_mul_T_eq_poly_in_U (R := ℝ) ((n : ℤ) - 1)
  have e1 : ((n : ℤ) - 1 + 1) = n := by omega
  rw [e1] at h
  push_cast at h
  unfold zeros
  rw [derivative_mul, derivative_sub, derivative_X_pow, derivative_one]
  simp only [Nat.cast_ofNat, map_ofNat]
  linear_combination (norm := ring_nf) -h

theorem zeros_slope (n k : Nat) (hn : 0 < n) (hk : k ≤ n) : (derivative (zeros n)).eval (mkNodes n k) = n * (-1) ^ k * ends n k := by
  have hT : (Chebyshev.T ℝ n).eval (mkNodes n k) = (-1) ^ k := by
    rw [nodes_eq]; exact Chebyshev.eval_T_real_node (by simpa using hk)
  rw [zeros_derivative, eval_add, eval_mul, eval_mul, eval_X, hT, eval_natCast]
  unfold ends
  rcases Nat.eq_zero_or_pos k with rfl | h0
  · rw [node_first, Chebyshev.U_eval_one]; simp; ring
  · rcases Nat.lt_or_ge k n with h | h
    · rw [U_inner n k h0 h, if_neg (by omega)]; ring
    · obtain rfl : k = n := by omega
      rw [node_last k hn, if_pos (Or.inr rfl), Chebyshev.U_eval_neg_one]
      obtain ⟨m, rfl⟩ : ∃ m, k = m + 1 := ⟨k - 1, by omega⟩
      have : (((m + 1 : Nat) : ℤ) - 1) = (m : ℤ) := by omega
      rw [this, Int.negOnePow_def]
      simp
      ring

theorem zeros_nodal (n : Nat) (hn : 0 < n) :
    zeros n = C (zeros n).leadingCoeff * Lagrange.nodal (range (n + 1)) (mkNodes n) := by
  have hz : zeros n ≠ 0 := fun h => by have := zeros_degree n hn; rw [h, degree_zero] at this; exact WithBot.bot_ne_natCast _ this
  have hl : (zeros n).leadingCoeff ≠ 0 := leadingCoeff_ne_zero.mpr hz
  refine eq_of_degree_sub_lt_of_eval_index_eq (s := range (n + 1)) (v := mkNodes n) (nodes_inj n) ?_ ?_
  · have hd : (C (zeros n).leadingCoeff * Lagrange.nodal (range (n + 1)) (mkNodes n)).degree = ((n + 1 : Nat) : WithBot Nat) := by
      rw [degree_C_mul hl, Lagrange.degree_nodal, card_range]
    have h := degree_sub_lt (p := zeros n) (q := C (zeros n).leadingCoeff * Lagrange.nodal (range (n + 1)) (mkNodes n))
      (by rw [hd, zeros_degree n hn]) hz (by rw [leadingCoeff_mul, leadingCoeff_C, Lagrange.nodal_monic.leadingCoeff, mul_one])
    rw [zeros_degree n hn] at h
    rw [card_range]
    exact h
  · intro i hi
    rw [zeros_eval n i hn (by simpa [Nat.lt_succ_iff] using hi), eval_mul, Lagrange.eval_nodal_at_node hi, mul_zero]

/-- The weights are the weights of barycentric interpolation, up to a factor. -/
theorem weights_nodal (n : Nat) (hn : 0 < n) :
    ∃ c : ℝ, c ≠ 0 ∧ ∀ k ∈ range (n + 1), mkWeights n k = c * Lagrange.nodalWeight (range (n + 1)) (mkNodes n) k := by
  have hz : zeros n ≠ 0 := fun h => by have := zeros_degree n hn; rw [h, degree_zero] at this; exact WithBot.bot_ne_natCast _ this
  have hl : (zeros n).leadingCoeff ≠ 0 := leadingCoeff_ne_zero.mpr hz
  have hn' : (n : ℝ) ≠ 0 := by exact_mod_cast (by omega : n ≠ 0)
  refine ⟨n / (zeros n).leadingCoeff, div_ne_zero hn' hl, fun k hk => ?_⟩
  have h := zeros_slope n k hn (by simpa [Nat.lt_succ_iff] using hk)
  rw [zeros_nodal n hn, derivative_C_mul, eval_mul, eval_C] at h
  rw [Lagrange.nodalWeight_eq_eval_derivative_nodal hk, weights_eq n k hn]
  have he := (ends_pos n k).ne'
  have hs : ((-1 : ℝ) ^ k) * (-1) ^ k = 1 := by rw [← mul_pow]; simp
  generalize hd : eval (mkNodes n k) (derivative (Lagrange.nodal (range (n + 1)) (mkNodes n))) = d at *
  have hd0 : d ≠ 0 := by
    intro h0; rw [h0, mul_zero] at h
    have : (n : ℝ) * (-1) ^ k * ends n k ≠ 0 := by positivity
    exact this h.symm
  have hs0 : ((-1 : ℝ) ^ k) ≠ 0 := by positivity
  field_simp
  linear_combination ((-1 : ℝ) ^ k) * h + n * ends n k * hs

end Verif.Cheb
