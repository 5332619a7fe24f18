import Verif.Lemmas.Chebychev
import Mathlib.Analysis.Calculus.Deriv.Polynomial
import Mathlib.Tactic.IntervalCases
/-
Property C97: the Chebyshev tools of the FMM.
-/
namespace Verif.Cheb
open Polynomial Finset

theorem sumLoop_eq (n : Nat) (f : Nat → ℝ) : sumLoop n f = ∑ j ∈ range n, f j := by
  unfold sumLoop
  induction n with
  | zero => rfl
  | succ n ih => rw [List.range_succ, List.foldl_append, ih, Finset.sum_range_succ]; rfl

/-- The loop over the nodes. -/
theorem loop_spec (t : Tools) (w : Nat → ℝ) (x : ℝ) (n : Nat) :
    let a := (List.range n).foldl (t.step w x) ⟨0, 0, 0⟩
    a.numer = ∑ j ∈ range n, t.weights j / (x - t.nodes j) * w j ∧ a.denom = ∑ j ∈ range n, t.weights j / (x - t.nodes j) ∧
    (a.exact = 0 → ∀ j < n, x ≠ t.nodes j) ∧ (0 < a.exact → a.exact - 1 < n ∧ x = t.nodes (a.exact - 1)) := by
  induction n with
  | zero => simp
  | succ n ih =>
    obtain ⟨h1, h2, h3, h4⟩ := ih
    rw [List.range_succ, List.foldl_append]
    generalize (List.range n).foldl (t.step w x) ⟨0, 0, 0⟩ = a at *
    simp only [List.foldl_cons, List.foldl_nil, Tools.step]
    refine ⟨by rw [Finset.sum_range_succ, h1], by rw [Finset.sum_range_succ, h2], ?_, ?_⟩
    · intro h j hj
      split_ifs at h with hx
      · omega
      · rcases Nat.lt_succ_iff_lt_or_eq.mp hj with hj | rfl
        · exact h3 h j hj
        · exact sub_ne_zero.mp hx
    · intro h
      split_ifs at h ⊢ with hx
      · simp only [Nat.add_sub_cancel_left]
        exact ⟨by omega, sub_eq_zero.mp hx⟩
      · exact ⟨by have := (h4 h).1; omega, (h4 h).2⟩

/-- The value is that of the interpolation polynomial. -/
theorem evalAt_eq (n : Nat) (hn : 0 < n) (w : Nat → ℝ) (x : ℝ) :
    (mkTools n).evalAt w x = (Lagrange.interpolate (range (n + 1)) (mkNodes n) w).eval x := by
  obtain ⟨h1, h2, h3, h4⟩ := loop_spec (mkTools n) w x (mkTools n).terms
  unfold Tools.evalAt
  generalize (List.range (mkTools n).terms).foldl ((mkTools n).step w x) ⟨0, 0, 0⟩ = a at *
  have ht : (mkTools n).terms = n + 1 := Nat.add_comm 1 n
  rw [ht] at h1 h2 h3 h4
  by_cases he : 0 < a.exact
  · obtain ⟨hj, hx⟩ := h4 he
    simp only [if_pos he]
    rw [show x = mkNodes n (a.exact - 1) from hx, Lagrange.eval_interpolate_at_node w (nodes_inj n) (mem_range.mpr hj)]
  · simp only [if_neg he]
    obtain ⟨c, hc, hw⟩ := weights_nodal n hn
    rw [Lagrange.eval_interpolate_not_at_node' w (nodes_inj n) ⟨0, by simp⟩ fun i hi => h3 (by omega) i (mem_range.mp hi), h1, h2]
    have e1 : ∑ j ∈ range (n + 1), (mkTools n).weights j / (x - (mkTools n).nodes j) * w j =
        c * ∑ i ∈ range (n + 1), Lagrange.nodalWeight (range (n + 1)) (mkNodes n) i * (x - mkNodes n i)⁻¹ * w i := by
      rw [Finset.mul_sum]
      refine Finset.sum_congr rfl fun i hi => ?_
      show mkWeights n i / (x - mkNodes n i) * w i = _
      rw [hw i hi]; ring
    have e2 : ∑ j ∈ range (n + 1), (mkTools n).weights j / (x - (mkTools n).nodes j) =
        c * ∑ i ∈ range (n + 1), Lagrange.nodalWeight (range (n + 1)) (mkNodes n) i * (x - mkNodes n i)⁻¹ := by
      rw [Finset.mul_sum]
      refine Finset.sum_congr rfl fun i hi => ?_
      show mkWeights n i / (x - mkNodes n i) = _
      rw [hw i hi]; ring
    rw [e1, e2, mul_div_mul_left _ _ hc]

theorem eq_interp (n : Nat) (p : ℝ[X]) (hp : p.natDegree ≤ n) :
    p = Lagrange.interpolate (range (n + 1)) (mkNodes n) fun i => p.eval (mkNodes n i) := by
  refine Lagrange.eq_interpolate (nodes_inj n) ?_
  rw [card_range]
  exact lt_of_le_of_lt degree_le_natDegree (by exact_mod_cast Nat.lt_succ_of_le hp)

theorem interp_congr (n : Nat) (w w' : Nat → ℝ) (h : ∀ i ≤ n, w i = w' i) :
    Lagrange.interpolate (range (n + 1)) (mkNodes n) w = Lagrange.interpolate (range (n + 1)) (mkNodes n) w' :=
  Lagrange.interpolate_eq_of_values_eq_on w w' fun i hi => h i (by simpa [Nat.lt_succ_iff] using hi)

/-- Derivatives of the basis of interpolation at other nodes. -/
theorem basis_slope (n i j : Nat) (hi : i ∈ range (n + 1)) (hj : j ∈ range (n + 1)) (hne : i ≠ j) :
    (derivative (Lagrange.basis (range (n + 1)) (mkNodes n) j)).eval (mkNodes n i) =
      Lagrange.nodalWeight (range (n + 1)) (mkNodes n) j / Lagrange.nodalWeight (range (n + 1)) (mkNodes n) i / (mkNodes n i - mkNodes n j) := by
  rw [Lagrange.basis_eq_prod_sub_inv_mul_nodal_div hj, ← Lagrange.nodal_erase_eq_nodal_div hj, derivative_C_mul, eval_mul, eval_C,
    Lagrange.eval_nodal_derivative_eval_node_eq (mem_erase.mpr ⟨hne, hi⟩)]
  have h : (Lagrange.nodalWeight (range (n + 1)) (mkNodes n) i)⁻¹ =
      (mkNodes n i - mkNodes n j) * eval (mkNodes n i) (Lagrange.nodal (((range (n + 1)).erase j).erase i) (mkNodes n)) := by
    rw [Lagrange.nodalWeight_eq_eval_nodal_erase_inv, inv_inv, Lagrange.eval_nodal, Lagrange.eval_nodal,
      ← Finset.mul_prod_erase ((range (n + 1)).erase i) _ (mem_erase.mpr ⟨hne.symm, hj⟩), Finset.erase_right_comm]
  have hx : mkNodes n i - mkNodes n j ≠ 0 := sub_ne_zero.mpr fun h => hne (nodes_inj n hi hj h)
  rw [div_eq_mul_inv, div_eq_mul_inv, h]
  field_simp

theorem quotient_eq (n i j : Nat) (hn : 0 < n) (hi : i ∈ range (n + 1)) (hj : j ∈ range (n + 1)) (hne : i ≠ j) :
    quotient n i j = (derivative (Lagrange.basis (range (n + 1)) (mkNodes n) j)).eval (mkNodes n i) := by
  obtain ⟨c, hc, hw⟩ := weights_nodal n hn
  rw [basis_slope n i j hi hj hne]
  have e : Lagrange.nodalWeight (range (n + 1)) (mkNodes n) j / Lagrange.nodalWeight (range (n + 1)) (mkNodes n) i = mkWeights n j / mkWeights n i := by
    rw [hw i hi, hw j hj, mul_div_mul_left _ _ hc]
  rw [e, weights_eq n _ hn, weights_eq n _ hn]
  unfold quotient
  rw [if_neg hne, add_zero, diffWeights_eq n _ hn, diffWeights_eq n _ hn]
  have h1 := (ends_pos n i).ne'
  have h2 := (ends_pos n j).ne'
  have hs : ∀ k : Nat, ((-1 : ℝ) ^ k) * (-1) ^ k = 1 := fun k => by rw [← mul_pow]; simp
  have hs0 : ∀ k : Nat, ((-1 : ℝ) ^ k) ≠ 0 := fun k => by positivity
  have hx : mkNodes n i - mkNodes n j ≠ 0 := sub_ne_zero.mpr fun h => hne (nodes_inj n hi hj h)
  have := hs0 i
  have := hs0 j
  have ha := hs i
  have hb := hs j
  generalize (-1 : ℝ) ^ i = a at *
  generalize (-1 : ℝ) ^ j = b at *
  generalize mkNodes n i - mkNodes n j = d at *
  field_simp
  linear_combination ha - hb

/-- The differentiation matrix: its entries are the derivatives of the basis. -/
theorem diff_eq (n i j : Nat) (hn : 0 < n) (hi : i ∈ range (n + 1)) (hj : j ∈ range (n + 1)) :
    mkDiff n i j = (derivative (Lagrange.basis (range (n + 1)) (mkNodes n) j)).eval (mkNodes n i) := by
  unfold mkDiff
  by_cases hne : i = j
  · subst hne
    rw [if_pos rfl, sumLoop_eq, ← Finset.add_sum_erase _ _ hi]
    have hsum := Lagrange.sum_basis (nodes_inj n) ⟨0, by simp⟩
    have hd := congrArg (fun p => (derivative p).eval (mkNodes n i)) hsum
    simp only [derivative_sum, derivative_one, eval_zero, eval_finsetSum] at hd
    rw [← Finset.add_sum_erase _ _ hi] at hd
    have : ∑ x ∈ (range (n + 1)).erase i, quotient n i x =
        ∑ x ∈ (range (n + 1)).erase i, (derivative (Lagrange.basis (range (n + 1)) (mkNodes n) x)).eval (mkNodes n i) :=
      Finset.sum_congr rfl fun x hx => quotient_eq n i x hn hi (mem_of_mem_erase hx) (ne_of_mem_erase hx).symm
    rw [this]
    linarith
  · rw [if_neg hne, sub_zero, quotient_eq n i j hn hi hj hne]

theorem derivative_eq (n : Nat) (hn : 0 < n) (p : ℝ[X]) (hp : p.natDegree ≤ n) (w : Nat → ℝ) (hw : ∀ i ≤ n, w i = p.eval (mkNodes n i))
    (i : Nat) (hi : i ≤ n) : (mkTools n).derivative w i = (derivative p).eval (mkNodes n i) := by
  have hi' : i ∈ range (n + 1) := mem_range.mpr (by omega)
  conv_rhs => rw [eq_interp n p hp, Lagrange.interpolate_apply]
  unfold Tools.derivative
  rw [sumLoop_eq, show (mkTools n).terms = n + 1 from Nat.add_comm 1 n, derivative_sum, eval_finsetSum]
  refine Finset.sum_congr rfl fun j hj => ?_
  rw [derivative_C_mul, eval_mul, eval_C, ← diff_eq n i j hn hi' hj, hw j (by simpa [Nat.lt_succ_iff] using hj)]
  exact mul_comm _ _

/-! ### The property -/

/-- The tools of the given order. -/
def IsTools (order : Int) (t : Tools) : Prop := create order = .ok t

theorem IsTools.spec {order : Int} {t : Tools} (h : IsTools order t) : ∃ n : Nat, 0 < n ∧ order = (n : Int) ∧ t = mkTools n := by
  unfold IsTools create at h
  split_ifs at h with h1 h2
  exact ⟨order.toNat, by omega, by omega, (Created.ok.inj h).symm⟩

/-- **C97 (nodes)** For every positive order there are tools; there is one node more than the order, the nodes decrease from 1 to -1. -/
theorem C97_nodes (order : Int) (h : 0 < order) :
    ∃ t, IsTools order t ∧ (t.terms : Int) = order + 1 ∧ t.nodes 0 = 1 ∧ t.nodes (t.terms - 1) = -1 ∧
      ∀ i j, i < j → j < t.terms → t.nodes j < t.nodes i := by
  have hn : 0 < order.toNat := by omega
  refine ⟨mkTools order.toNat, by unfold IsTools create; rw [if_neg (by omega), if_neg (by omega)], ?_, node_first _, ?_, ?_⟩
  · show ((1 + order.toNat : Nat) : Int) = _; omega
  · show mkNodes order.toNat (1 + order.toNat - 1) = _
    rw [Nat.add_sub_cancel_left, node_last _ hn]
  · intro i j hij hj
    show mkNodes _ _ < mkNodes _ _
    rw [nodes_eq]
    have hj : j < 1 + order.toNat := hj
    exact Chebyshev.node_lt (by omega) hij

/-- **C97 (interpolation)** The interpolation reproduces every polynomial whose degree is at most the order, at all points of the real line,
nodes or not. -/
theorem C97_interpolation (order : Int) (t : Tools) (ht : IsTools order t) (p : ℝ[X]) (hp : (p.natDegree : Int) ≤ order) (weights points : Vec)
    (hs : weights.size = t.terms) (hw : ∀ m < t.terms, weights.at' m = p.eval (t.nodes m)) :
    ∃ r, t.evaluate weights points = some r ∧ r.size = points.size ∧ ∀ i < points.size, r.at' i = p.eval (points.at' i) := by
  obtain ⟨n, hn, rfl, rfl⟩ := ht.spec
  refine ⟨_, if_neg (by omega), rfl, fun i _ => ?_⟩
  show (mkTools n).evalAt _ _ = _
  rw [evalAt_eq n hn, interp_congr n _ _ fun i hi => hw i (by show i < 1 + n; omega)]
  exact congrArg (eval _) (eq_interp n p (by exact_mod_cast hp)).symm

/-- **C97 (values)** Whatever the values at the nodes, the result is a polynomial of at most that degree with these values. -/
theorem C97_values (order : Int) (t : Tools) (ht : IsTools order t) (weights : Vec) (hs : weights.size = t.terms) :
    ∃ p : ℝ[X], (p.natDegree : Int) ≤ order ∧ (∀ m < t.terms, p.eval (t.nodes m) = weights.at' m) ∧
      ∀ points, ∃ r, t.evaluate weights points = some r ∧ r.size = points.size ∧ ∀ i < points.size, r.at' i = p.eval (points.at' i) := by
  obtain ⟨n, hn, rfl, rfl⟩ := ht.spec
  refine ⟨Lagrange.interpolate (range (n + 1)) (mkNodes n) weights.at', ?_, ?_, ?_⟩
  · have := Lagrange.degree_interpolate_lt weights.at' (nodes_inj n)
    rw [card_range] at this
    rcases eq_or_ne (Lagrange.interpolate (range (n + 1)) (mkNodes n) weights.at') 0 with h0 | h0
    · rw [h0]; simp
    · have := (natDegree_lt_iff_degree_lt h0).mpr this
      omega
  · intro m hm
    have hm : m < 1 + n := hm
    exact Lagrange.eval_interpolate_at_node _ (nodes_inj n) (mem_range.mpr (by omega))
  · intro points
    exact ⟨_, if_neg (by omega), rfl, fun i _ => evalAt_eq n hn _ _⟩

theorem matrix_sum (n : Nat) (hn : 0 < n) (p : ℝ[X]) (hp : p.natDegree ≤ n) (w : Nat → ℝ) (hw : ∀ i ≤ n, w i = p.eval (mkNodes n i)) (x : ℝ) :
    ∑ j ∈ range (n + 1), (mkTools n).evalAt (Function.update (fun _ => 0) j 1) x * w j = p.eval x := by
  conv_rhs => rw [eq_interp n p hp, Lagrange.interpolate_apply, eval_finsetSum]
  refine Finset.sum_congr rfl fun j hj => ?_
  rw [evalAt_eq n hn, eval_mul, eval_C, hw j (by simpa [Nat.lt_succ_iff] using hj), mul_comm, Lagrange.interpolate_apply, eval_finsetSum]
  congr 1
  rw [Finset.sum_eq_single j]
  · simp
  · intro k _ hk; simp [hk]
  · intro h; exact absurd hj h

/-- **C97 (children)** The matrix takes the values of a polynomial at the nodes of a box to its values at the nodes of the two children, which
are the parts of the given relative width at the left and at the right end; so the interpolations on the children are the same polynomial. -/
theorem C97_children (order : Int) (t : Tools) (ht : IsTools order t) (p : ℝ[X]) (hp : (p.natDegree : Int) ≤ order) (ratio : ℝ)
    (left right : Vec) (hl : left.size = t.terms) (hr : right.size = t.terms)
    (hl' : ∀ i < t.terms, left.at' i = ∑ j ∈ range t.terms, t.childMatrix ratio i j * p.eval (t.nodes j))
    (hr' : ∀ i < t.terms, right.at' i = ∑ j ∈ range t.terms, t.childMatrix ratio (t.terms + i) j * p.eval (t.nodes j)) (s : ℝ) :
    t.evaluate left ⟨1, fun _ => s⟩ = some ⟨1, fun _ => p.eval (-1 + ratio * (s + 1))⟩ ∧
    t.evaluate right ⟨1, fun _ => s⟩ = some ⟨1, fun _ => p.eval (1 + ratio * (s - 1))⟩ := by
  obtain ⟨n, hn, rfl, rfl⟩ := ht.spec
  have hp' : p.natDegree ≤ n := by exact_mod_cast hp
  have hterms : (mkTools n).terms = n + 1 := Nat.add_comm 1 n
  have hnR : (n : ℝ) ≠ 0 := by exact_mod_cast (by omega : n ≠ 0)
  have hcast : (((mkTools n).terms : Nat) : ℝ) - 1 = n := by rw [hterms]; push_cast; ring
  have hL : ∀ i ≤ n, left.at' i = p.eval (-1 + ratio * (mkNodes n i + 1)) := by
    intro i hi
    rw [hl' i (by omega), hterms]
    have := matrix_sum n hn p hp' (fun j => p.eval ((mkTools n).nodes j)) (fun _ _ => rfl) (((mkTools n).childPoints ratio).at' i)
    refine Eq.trans this ?_
    congr 1
    show (if i < (mkTools n).terms then _ else _) = _
    rw [if_pos (by omega), hcast]
    simp only [mkNodes]; ring
  have hR : ∀ i ≤ n, right.at' i = p.eval (1 + ratio * (mkNodes n i - 1)) := by
    intro i hi
    rw [hr' i (by omega), hterms]
    have := matrix_sum n hn p hp' (fun j => p.eval ((mkTools n).nodes j)) (fun _ _ => rfl) (((mkTools n).childPoints ratio).at' (n + 1 + i))
    refine Eq.trans this ?_
    congr 1
    show (if n + 1 + i < (mkTools n).terms then _ else _) = _
    rw [if_neg (by omega), hcast, hterms]
    have : (((n + 1 + i : Nat) : ℝ) - ((n + 1 : Nat) : ℝ)) = i := by push_cast; ring
    rw [this]
    simp only [mkNodes]; ring
  have key : ∀ (v : Vec) (a b : ℝ), v.size = (mkTools n).terms → (∀ i ≤ n, v.at' i = p.eval (a + b * mkNodes n i)) →
      (mkTools n).evalAt v.at' s = p.eval (a + b * s) := by
    intro v a b _ hv
    have hdeg : (p.comp (C b * X + C a)).natDegree ≤ n := by
      refine le_trans natDegree_comp_le ?_
      have : (C b * X + C a : ℝ[X]).natDegree ≤ 1 := natDegree_linear_le
      calc p.natDegree * _ ≤ p.natDegree * 1 := Nat.mul_le_mul_left _ this
        _ ≤ n := by omega
    have hc : ∀ x, (p.comp (C b * X + C a)).eval x = p.eval (a + b * x) := by
      intro x; rw [eval_comp]; simp [add_comm]
    rw [evalAt_eq n hn, ← hc, interp_congr n _ (fun i => (p.comp (C b * X + C a)).eval (mkNodes n i)) fun i hi => by rw [hv i hi, hc]]
    exact congrArg (eval s) (eq_interp n _ hdeg).symm
  constructor
  · show (if _ then _ else _) = _
    rw [if_neg (by omega)]
    simp only [Option.some.injEq, Vec.mk.injEq, true_and]
    funext _
    rw [key left (-1 + ratio) ratio hl fun i hi => by rw [hL i hi]; congr 1; ring]
    congr 1; ring
  · show (if _ then _ else _) = _
    rw [if_neg (by omega)]
    simp only [Option.some.injEq, Vec.mk.injEq, true_and]
    funext _
    rw [key right (1 - ratio) ratio hr fun i hi => by rw [hR i hi]; congr 1; ring]
    congr 1; ring

/-- **C97 (derivative)** From the values of a polynomial at the nodes, `derivativeWeights` gives the values of its derivative. -/
theorem C97_derivative (order : Int) (t : Tools) (ht : IsTools order t) (p : ℝ[X]) (hp : (p.natDegree : Int) ≤ order) (weights : Vec)
    (hs : weights.size = t.terms) (hw : ∀ m < t.terms, weights.at' m = p.eval (t.nodes m)) :
    ∃ r, t.derivativeWeights weights = some r ∧ r.size = t.terms ∧ ∀ m < t.terms, r.at' m = deriv (fun x => p.eval x) (t.nodes m) := by
  obtain ⟨n, hn, rfl, rfl⟩ := ht.spec
  refine ⟨_, if_neg (by simpa using hs), rfl, fun m hm => ?_⟩
  have hm : m < 1 + n := hm
  rw [Polynomial.deriv]
  exact derivative_eq n hn p (by exact_mod_cast hp) _ (fun i hi => hw i (by show i < 1 + n; omega)) m (by omega)

/-- Position of the value at the nodes `i`, `j`, `k` of the three axes. -/
def position (n i j k : Nat) : Nat := i * n * n + j * n + k

theorem position_parts (n i j k : Nat) (hj : j < n) (hk : k < n) :
    position n i j k / (n * n) = i ∧ position n i j k / n % n = j ∧ position n i j k % n = k := by
  have hn : 0 < n := by omega
  have e : position n i j k = k + n * (j + n * i) := by unfold position; ring
  have h1 : position n i j k / n = j + n * i := by rw [e, Nat.add_mul_div_left _ _ hn, Nat.div_eq_of_lt hk, Nat.zero_add]
  refine ⟨?_, ?_, ?_⟩
  · rw [← Nat.div_div_eq_div_mul, h1, Nat.add_mul_div_left _ _ hn, Nat.div_eq_of_lt hj, Nat.zero_add]
  · rw [h1, Nat.add_mul_mod_self_left, Nat.mod_eq_of_lt hj]
  · rw [e, Nat.add_mul_mod_self_left, Nat.mod_eq_of_lt hk]

/-- A function of one variable is a polynomial of at most this degree. -/
def PolyOf (order : Int) (f : ℝ → ℝ) : Prop := ∃ p : ℝ[X], (p.natDegree : Int) ≤ order ∧ ∀ x, f x = p.eval x

/-- **C97 (derivative in space)** From the values at the nodes of the cube of a function that is a polynomial in the variable of the
given direction, `derivativeWeights3d` gives the values of the partial derivative. -/
theorem C97_derivative_3d (order : Int) (t : Tools) (ht : IsTools order t) (f : ℝ → ℝ → ℝ → ℝ) (weights : Vec)
    (hs : weights.size = t.terms * t.terms * t.terms)
    (hw : ∀ i < t.terms, ∀ j < t.terms, ∀ k < t.terms, weights.at' (position t.terms i j k) = f (t.nodes i) (t.nodes j) (t.nodes k)) :
    ((∀ y z, PolyOf order fun x => f x y z) → ∃ r, t.derivativeWeights3d weights 0 = some r ∧ r.size = weights.size ∧
      ∀ i < t.terms, ∀ j < t.terms, ∀ k < t.terms,
        r.at' (position t.terms i j k) = deriv (fun x => f x (t.nodes j) (t.nodes k)) (t.nodes i)) ∧
    ((∀ x z, PolyOf order fun y => f x y z) → ∃ r, t.derivativeWeights3d weights 1 = some r ∧ r.size = weights.size ∧
      ∀ i < t.terms, ∀ j < t.terms, ∀ k < t.terms,
        r.at' (position t.terms i j k) = deriv (fun y => f (t.nodes i) y (t.nodes k)) (t.nodes j)) ∧
    ((∀ x y, PolyOf order fun z => f x y z) → ∃ r, t.derivativeWeights3d weights 2 = some r ∧ r.size = weights.size ∧
      ∀ i < t.terms, ∀ j < t.terms, ∀ k < t.terms,
        r.at' (position t.terms i j k) = deriv (fun z => f (t.nodes i) (t.nodes j) z) (t.nodes k)) := by
  obtain ⟨n, hn, rfl, rfl⟩ := ht.spec
  have ht : (mkTools n).terms = n + 1 := Nat.add_comm 1 n
  have key : ∀ (g : ℝ → ℝ) (w : Nat → ℝ) (m : Nat), PolyOf n g → m < (mkTools n).terms → (∀ q < (mkTools n).terms, w q = g ((mkTools n).nodes q)) →
      (mkTools n).derivative w m = deriv g ((mkTools n).nodes m) := by
    rintro g w m ⟨p, hp, hg⟩ hm hwq
    obtain rfl : g = fun x => p.eval x := funext hg
    rw [Polynomial.deriv]
    exact derivative_eq n hn p (by exact_mod_cast hp) _ (fun i hi => hwq i (by omega)) m (by omega)
  refine ⟨fun hf => ?_, fun hf => ?_, fun hf => ?_⟩
  · refine ⟨_, by unfold Tools.derivativeWeights3d; simp only []; rw [if_neg (by omega), if_neg (by decide), if_neg (by decide), if_pos trivial], hs.symm, ?_⟩
    intro i hi j hj k hk
    obtain ⟨h1, h2, h3⟩ := position_parts (mkTools n).terms i j k hj hk
    simp only [h1, h2, h3]
    refine key _ _ i (hf _ _) hi fun q hq => ?_
    rw [← hw q hq j hj k hk]; congr 1; unfold position; ring
  · refine ⟨_, by unfold Tools.derivativeWeights3d; simp only []; rw [if_neg (by omega), if_neg (by decide), if_pos trivial], hs.symm, ?_⟩
    intro i hi j hj k hk
    obtain ⟨h1, h2, h3⟩ := position_parts (mkTools n).terms i j k hj hk
    simp only [h1, h2, h3]
    refine key _ _ j (hf _ _) hj fun q hq => ?_
    rw [← hw i hi q hq k hk]; congr 1; unfold position; ring
  · refine ⟨_, by unfold Tools.derivativeWeights3d; simp only []; rw [if_neg (by omega), if_pos trivial], hs.symm, ?_⟩
    intro i hi j hj k hk
    obtain ⟨h1, h2, h3⟩ := position_parts (mkTools n).terms i j k hj hk
    simp only [h1, h2, h3]
    exact key _ _ k (hf _ _) hk fun q hq => by rw [← hw i hi j hj q hq]; rfl

/-- **C97 (finding)** The order 0 is refused, but a negative order is not: the constructor then writes outside its vectors. -/
theorem C97_counterexample_negative (order : Int) : create order = .ValueError ↔ order = 0 := by
  unfold create
  split_ifs <;> simp_all

/-! ### The hypotheses can be met -/

/-- Order 3, the polynomial `X ^ 3`, and its values. -/
example : ∃ t, IsTools 3 t ∧ t.terms = 4 ∧ ((X ^ 3 : ℝ[X]).natDegree : Int) ≤ 3 ∧
    (∃ w : Vec, w.size = t.terms ∧ ∀ m < t.terms, w.at' m = (X ^ 3 : ℝ[X]).eval (t.nodes m)) ∧
    ∃ f : ℝ → ℝ → ℝ → ℝ, f = (fun x y z => x ^ 3 * (1 + y) * z) ∧ (∀ y z, PolyOf 3 fun x => f x y z) := by
  refine ⟨mkTools 3, rfl, rfl, by simp, ⟨⟨4, fun m => (X ^ 3 : ℝ[X]).eval (mkNodes 3 m)⟩, rfl, fun _ _ => rfl⟩, _, rfl, fun y z =>
    ⟨C ((1 + y) * z) * X ^ 3, ?_, fun x => by simp; ring⟩⟩
  have : (C ((1 + y) * z) * X ^ 3 : ℝ[X]).natDegree ≤ 3 := natDegree_C_mul_X_pow_le _ _
  exact_mod_cast this

end Verif.Cheb
