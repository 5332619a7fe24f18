import Verif.Lemmas.DuffyRemap
import Mathlib.Analysis.Normed.Module.FiniteDimension
import Mathlib.Topology.Order.Compact
/-
Lower bounds for the distance of the points of a pair, in terms of the coordinates of the unit cube.
-/
namespace Verif.Quad
open MeasureTheory Set

variable {V : Type} [NormedAddCommGroup V] [NormedSpace ℝ V]

/-- A linear map without zeros on a closed cone is bounded below there. -/
theorem cone_bound {n : Nat} (L : (Fin n → ℝ) →ₗ[ℝ] V) (C : Set (Fin n → ℝ)) (hC : IsClosed C)
    (hcone : ∀ q ∈ C, ∀ t : ℝ, 0 < t → t • q ∈ C) (h : ∀ q ∈ C, L q = 0 → q = 0) :
    ∃ c > 0, ∀ q ∈ C, c * ‖q‖ ≤ ‖L q‖ := by
  have hL : Continuous fun q => ‖L q‖ := (LinearMap.continuous_of_finiteDimensional L).norm
  have hK : IsCompact (Metric.sphere (0 : Fin n → ℝ) 1 ∩ C) := (isCompact_sphere 0 1).inter_right hC
  rcases (Metric.sphere (0 : Fin n → ℝ) 1 ∩ C).eq_empty_or_nonempty with he | hne
  · refine ⟨1, one_pos, fun q hq => ?_⟩
    have : q = 0 := by
      by_contra hq0
      have hn : 0 < ‖q‖ := norm_pos_iff.mpr hq0
      have : ‖q‖⁻¹ • q ∈ Metric.sphere (0 : Fin n → ℝ) 1 ∩ C := by
        refine ⟨?_, hcone q hq _ (inv_pos.mpr hn)⟩
        simp [norm_smul, hn.ne']
      rw [he] at this
      exact this
    simp [this]
  · obtain ⟨q0, hq0, hmin⟩ := hK.exists_isMinOn hne hL.continuousOn
    refine ⟨‖L q0‖, ?_, fun q hq => ?_⟩
    · apply norm_pos_iff.mpr
      intro hz
      have := h q0 hq0.2 hz
      have h1 : ‖q0‖ = 1 := by simpa using hq0.1
      rw [this, norm_zero] at h1
      exact zero_ne_one h1
    · by_cases hqz : q = 0
      · simp [hqz]
      · have hn : 0 < ‖q‖ := norm_pos_iff.mpr hqz
        have hm : ‖q‖⁻¹ • q ∈ Metric.sphere (0 : Fin n → ℝ) 1 ∩ C := by
          refine ⟨?_, hcone q hq _ (inv_pos.mpr hn)⟩
          simp [norm_smul, hn.ne']
        have h2 : ‖L q0‖ ≤ ‖L (‖q‖⁻¹ • q)‖ := hmin hm
        rw [map_smul, norm_smul, norm_inv, norm_norm] at h2
        calc ‖L q0‖ * ‖q‖ ≤ (‖q‖⁻¹ * ‖L q‖) * ‖q‖ := mul_le_mul_of_nonneg_right h2 hn.le
          _ = ‖L q‖ := by field_simp

/-- The linear combination of the vectors `e`. -/
def comb {n : Nat} (e : Fin n → V) : (Fin n → ℝ) →ₗ[ℝ] V where
  toFun q := ∑ i, q i • e i
  map_add' q r := by simp [add_smul, Finset.sum_add_distrib]
  map_smul' t q := by simp [mul_smul, Finset.smul_sum]

theorem le_norm_of {n : Nat} (q : Fin n → ℝ) (i : Fin n) : |q i| ≤ ‖q‖ := by
  simpa using norm_le_pi_norm q i

theorem isClosed_nonneg {n : Nat} (S : Set (Fin n)) : IsClosed {q : Fin n → ℝ | ∀ i ∈ S, 0 ≤ q i} := by
  simp only [setOf_forall]
  exact isClosed_iInter fun i => isClosed_iInter fun _ => isClosed_le continuous_const (continuous_apply i)

/-! ## Positions of remapped points -/

theorem place_edge (A : Nat → V) (v0 v1 : Nat) (h0 : v0 ≤ 2) (h1 : v1 ≤ 2) (h : v0 ≠ v1) (p x : ℝ × ℝ)
    (hx : remapSharedEdge v0 v1 (toDune p) = some x) :
    place A x = A v0 + (p.1 - p.2) • (A v1 - A v0) + p.2 • (A (3 - v0 - v1) - A v0) := by
  interval_cases v0 <;> interval_cases v1 <;> first | exact absurd rfl h | skip
  all_goals
    simp [remapSharedEdge, refVertex, toDune] at hx
    subst hx
    simp only [place]
    module

theorem place_vertex (A : Nat → V) (v : Nat) (h : v ≤ 2) (p x : ℝ × ℝ)
    (hx : remapSharedVertex v (toDune p) = some x) :
    ∃ a b, ((a = p.1 - p.2 ∧ b = p.2) ∨ (a = p.2 ∧ b = p.1 - p.2)) ∧
      place A x = A v + a • (A ((v + 1) % 3) - A v) + b • (A ((v + 2) % 3) - A v) := by
  interval_cases v
  · simp [remapSharedVertex, toDune] at hx
    subst hx
    refine ⟨_, _, Or.inl ⟨rfl, rfl⟩, ?_⟩
    simp only [place]; module
  · simp [remapSharedVertex, toDune] at hx
    subst hx
    refine ⟨_, _, Or.inr ⟨rfl, rfl⟩, ?_⟩
    simp only [place]; norm_num; module
  · simp [remapSharedVertex, toDune] at hx
    subst hx
    refine ⟨_, _, Or.inr ⟨rfl, rfl⟩, ?_⟩
    simp only [place]; norm_num; module

/-- How far the points of a pair are from each other, in the coordinates before remapping. -/
noncomputable def separation (c : Config) (p : P4) : ℝ :=
  match c with
  | .coincident => max |(p 0 - p 1) - (p 2 - p 3)| |p 1 - p 3|
  | .edge _ _ _ _ => max |(p 0 - p 1) - (p 2 - p 3)| (max (p 1) (p 3))
  | .vertex _ _ => max (max (p 0 - p 1) (p 1)) (max (p 2 - p 3) (p 3))

theorem separation_le (c : Config) (hc : c.Valid) (A B : Nat → V) (hpl : c.Placed A B) :
    ∃ k > 0, ∀ p ∈ hyenaPairs, ∀ x y, c.remapTest (toDune (p 0, p 1)) = some x →
      c.remapTrial (toDune (p 2, p 3)) = some y → k * separation c p ≤ ‖place A x - place B y‖ := by
  cases c with
  | coincident =>
    obtain ⟨⟨e0, e1, e2⟩, hli⟩ := hpl
    obtain ⟨k, hk, hb⟩ := cone_bound (comb ![A 1 - A 0, A 2 - A 0]) univ isClosed_univ (fun _ _ _ _ => trivial) (by
      intro q _ hq
      simp only [comb, LinearMap.coe_mk, AddHom.coe_mk, Fin.sum_univ_two, Matrix.cons_val] at hq
      obtain ⟨h1, h2⟩ := hli _ _ hq
      funext i; fin_cases i <;> assumption)
    refine ⟨k, hk, fun p _ x y hx hy => ?_⟩
    simp only [Config.remapTest, Config.remapTrial, toDune, Option.some.injEq] at hx hy
    subst hx hy
    have h1 := hb ![(p 0 - p 1) - (p 2 - p 3), p 1 - p 3] trivial
    have h2 : comb ![A 1 - A 0, A 2 - A 0] ![(p 0 - p 1) - (p 2 - p 3), p 1 - p 3] =
        place A (p 0 - p 1, p 1) - place B (p 2 - p 3, p 3) := by
      simp only [comb, LinearMap.coe_mk, AddHom.coe_mk, Fin.sum_univ_two, Matrix.cons_val, place, ← e0, ← e1, ← e2]
      module
    rw [h2] at h1
    refine le_trans (mul_le_mul_of_nonneg_left ?_ hk.le) h1
    exact max_le (le_norm_of ![(p 0 - p 1) - (p 2 - p 3), p 1 - p 3] 0)
      (le_norm_of ![(p 0 - p 1) - (p 2 - p 3), p 1 - p 3] 1)
  | edge t0 t1 s0 s1 =>
    obtain ⟨⟨v1, v2, v3⟩, v4, v5, v6⟩ := hc
    obtain ⟨⟨e0, e1⟩, hli⟩ := hpl
    obtain ⟨k, hk, hb⟩ := cone_bound (comb ![A t1 - A t0, A (3 - t0 - t1) - A t0, -(B (3 - s0 - s1) - B s0)])
      {q | ∀ i ∈ ({1, 2} : Set (Fin 3)), 0 ≤ q i} (isClosed_nonneg _)
      (fun q hq t ht i hi => mul_nonneg ht.le (hq i hi)) (by
      intro q hq hz
      simp only [comb, LinearMap.coe_mk, AddHom.coe_mk, Fin.sum_univ_three, Matrix.cons_val, smul_neg,
        add_neg_eq_zero] at hz
      obtain ⟨h1, h2, h3⟩ := hli _ _ _ (hq 1 (by simp)) (hq 2 (by simp)) hz
      funext i; fin_cases i <;> assumption)
    refine ⟨k, hk, fun p hp x y hx hy => ?_⟩
    obtain ⟨p1, p2, p3, p4, p5, p6⟩ := hp
    have hx := place_edge A t0 t1 v1 v2 v3 _ x hx
    have hy := place_edge B s0 s1 v4 v5 v6 _ y hy
    have h1 := hb ![(p 0 - p 1) - (p 2 - p 3), p 1, p 3] (by
      intro i hi
      rcases hi with rfl | rfl
      · exact p1.le
      · exact p4.le)
    have h2 : comb ![A t1 - A t0, A (3 - t0 - t1) - A t0, -(B (3 - s0 - s1) - B s0)]
        ![(p 0 - p 1) - (p 2 - p 3), p 1, p 3] = place A x - place B y := by
      rw [hx, hy, ← e0, ← e1]
      simp only [comb, LinearMap.coe_mk, AddHom.coe_mk, Fin.sum_univ_three, Matrix.cons_val]
      module
    rw [h2] at h1
    refine le_trans (mul_le_mul_of_nonneg_left ?_ hk.le) h1
    exact max_le (le_norm_of ![(p 0 - p 1) - (p 2 - p 3), p 1, p 3] 0)
      (max_le ((le_abs_self _).trans (le_norm_of ![(p 0 - p 1) - (p 2 - p 3), p 1, p 3] 1))
        ((le_abs_self _).trans (le_norm_of ![(p 0 - p 1) - (p 2 - p 3), p 1, p 3] 2)))
  | vertex t0 s0 =>
    obtain ⟨v1, v2⟩ := hc
    obtain ⟨e0, hli⟩ := hpl
    obtain ⟨k, hk, hb⟩ := cone_bound (comb ![A ((t0 + 1) % 3) - A t0, A ((t0 + 2) % 3) - A t0,
        -(B ((s0 + 1) % 3) - B s0), -(B ((s0 + 2) % 3) - B s0)])
      {q | ∀ i ∈ (univ : Set (Fin 4)), 0 ≤ q i} (isClosed_nonneg _)
      (fun q hq t ht i hi => mul_nonneg ht.le (hq i hi)) (by
      intro q hq hz
      simp only [comb, LinearMap.coe_mk, AddHom.coe_mk, Fin.sum_univ_four, Matrix.cons_val, smul_neg] at hz
      have hz' : q 0 • (A ((t0 + 1) % 3) - A t0) + q 1 • (A ((t0 + 2) % 3) - A t0) =
          q 2 • (B ((s0 + 1) % 3) - B s0) + q 3 • (B ((s0 + 2) % 3) - B s0) := by
        rw [← sub_eq_zero, ← hz]; abel
      obtain ⟨h1, h2, h3, h4⟩ := hli _ _ _ _ (hq 0 trivial) (hq 1 trivial) (hq 2 trivial) (hq 3 trivial) hz'
      funext i; fin_cases i <;> assumption)
    refine ⟨k, hk, fun p hp x y hx hy => ?_⟩
    obtain ⟨p1, p2, p3, p4, p5, p6⟩ := hp
    obtain ⟨a, a', ha, hx⟩ := place_vertex A t0 v1 _ x hx
    obtain ⟨b, b', hb', hy⟩ := place_vertex B s0 v2 _ y hy
    simp only at ha hb'
    have nn : 0 ≤ a ∧ 0 ≤ a' ∧ 0 ≤ b ∧ 0 ≤ b' := by
      rcases ha with ⟨rfl, rfl⟩ | ⟨rfl, rfl⟩ <;> rcases hb' with ⟨rfl, rfl⟩ | ⟨rfl, rfl⟩ <;>
        refine ⟨?_, ?_, ?_, ?_⟩ <;> linarith
    have h1 := hb ![a, a', b, b'] (by
      intro i _
      fin_cases i
      · exact nn.1
      · exact nn.2.1
      · exact nn.2.2.1
      · exact nn.2.2.2)
    have h2 : comb ![A ((t0 + 1) % 3) - A t0, A ((t0 + 2) % 3) - A t0,
        -(B ((s0 + 1) % 3) - B s0), -(B ((s0 + 2) % 3) - B s0)] ![a, a', b, b'] = place A x - place B y := by
      rw [hx, hy, ← e0]
      simp only [comb, LinearMap.coe_mk, AddHom.coe_mk, Fin.sum_univ_four, Matrix.cons_val]
      module
    rw [h2] at h1
    refine le_trans (mul_le_mul_of_nonneg_left ?_ hk.le) h1
    have n0 := (le_abs_self _).trans (le_norm_of ![a, a', b, b'] 0)
    have n1 := (le_abs_self _).trans (le_norm_of ![a, a', b, b'] 1)
    have n2 := (le_abs_self _).trans (le_norm_of ![a, a', b, b'] 2)
    have n3 := (le_abs_self _).trans (le_norm_of ![a, a', b, b'] 3)
    simp only [Matrix.cons_val] at n0 n1 n2 n3
    unfold separation
    rcases ha with ⟨rfl, rfl⟩ | ⟨rfl, rfl⟩ <;> rcases hb' with ⟨rfl, rfl⟩ | ⟨rfl, rfl⟩ <;>
      exact max_le (max_le (by assumption) (by assumption)) (max_le (by assumption) (by assumption))

theorem max_half (a b : ℝ) : a ≤ 2 * max |a| |b| ∧ -a ≤ 2 * max |a| |b| ∧ b ≤ 2 * max |a| |b| ∧ -b ≤ 2 * max |a| |b| ∧
    a + b ≤ 2 * max |a| |b| ∧ a - b ≤ 2 * max |a| |b| ∧ -a + b ≤ 2 * max |a| |b| ∧ -a - b ≤ 2 * max |a| |b| := by
  have h1 := le_max_left |a| |b|
  have h2 := le_max_right |a| |b|
  have h3 := le_abs_self a
  have h4 := neg_le_abs a
  have h5 := le_abs_self b
  have h6 := neg_le_abs b
  have h7 := abs_nonneg a
  have h8 := abs_nonneg b
  refine ⟨?_, ?_, ?_, ?_, ?_, ?_, ?_, ?_⟩ <;> linarith

theorem max_third (a b c : ℝ) (hb : 0 ≤ b) (hc : 0 ≤ c) : a + b + c ≤ 3 * max |a| (max b c) ∧
    -a + b + c ≤ 3 * max |a| (max b c) := by
  have h1 := le_max_left |a| (max b c)
  have h2 := le_max_right |a| (max b c)
  have h3 := le_abs_self a
  have h4 := neg_le_abs a
  have h5 := le_max_left b c
  have h6 := le_max_right b c
  constructor <;> linarith

/-- The weight factors are at most a few times as large as the separation. -/
theorem weight_le_separation (c : Config) (r : Nat) (h : r < c.exSamples.length) (z : P4) (hz : z ∈ cube) :
    c.exSamples[r].w.eval z ≤ 4 * separation c (polyMap (exMap c.exSamples[r]) z) := by
  obtain ⟨⟨h0, h0'⟩, ⟨h1, h1'⟩, ⟨h2, h2'⟩, h3, h3'⟩ := mem_cube.mp hz
  have m01 : 0 < z 0 * z 1 := by positivity
  have m012 : 0 < z 0 * z 1 * z 2 := by positivity
  have m0123 : 0 < z 0 * z 1 * z 2 * z 3 := by positivity
  have m013 : 0 < z 0 * z 1 * z 3 := by positivity
  have m02 : 0 < z 0 * z 2 := by positivity
  have m023 : 0 < z 0 * z 2 * z 3 := by positivity
  have l01 : z 0 * z 1 < z 0 := mul_lt_self h0 h1'
  have l012 : z 0 * z 1 * z 2 < z 0 * z 1 := mul_lt_self m01 h2'
  have l0123 : z 0 * z 1 * z 2 * z 3 < z 0 * z 1 * z 2 := mul_lt_self m012 h3'
  have l013 : z 0 * z 1 * z 3 < z 0 * z 1 := mul_lt_self m01 h3'
  have l02 : z 0 * z 2 < z 0 := mul_lt_self h0 h2'
  have l023 : z 0 * z 2 * z 3 < z 0 * z 2 := mul_lt_self m02 h3'
  have h00 : z 0 * z 0 < 1 := by nlinarith
  have h001 : z 0 * z 0 * z 1 < 1 := by nlinarith [mul_pos h0 h0]
  have w1 : z 0 * z 1 * z 2 * (z 0 * z 0 * z 1) ≤ z 0 * z 1 * z 2 := (mul_lt_self m012 h001).le
  have w2 : z 0 * z 1 * (z 0 * z 0 * z 1) ≤ z 0 * z 1 := (mul_lt_self m01 h001).le
  have w3 : z 0 * z 2 * (z 0 * z 0) ≤ z 0 * z 2 := (mul_lt_self m02 h00).le
  rw [polyMap_exMap]
  cases c with
  | coincident =>
    have h : r < 6 := h
    interval_cases r <;>
      (simp only [Config.exSamples, exCO, triangleCoincident, List.getElem_cons_zero, List.getElem_cons_succ,
          Ex.eval_mul, Ex.eval_var, Ex.eval_add, Ex.eval_sub, Ex.eval_one, separation, Matrix.cons_val]
       refine le_trans ?_ (mul_le_mul_of_nonneg_right (show (2 : ℝ) ≤ 4 by norm_num) (le_max_of_le_left (abs_nonneg _)))
       first
       | (refine le_trans ?_ (max_half _ _).1; linarith)
       | (refine le_trans ?_ (max_half _ _).2.1; linarith)
       | (refine le_trans ?_ (max_half _ _).2.2.1; linarith)
       | (refine le_trans ?_ (max_half _ _).2.2.2.1; linarith)
       | (refine le_trans ?_ (max_half _ _).2.2.2.2.1; linarith)
       | (refine le_trans ?_ (max_half _ _).2.2.2.2.2.1; linarith)
       | (refine le_trans ?_ (max_half _ _).2.2.2.2.2.2.1; linarith)
       | (refine le_trans ?_ (max_half _ _).2.2.2.2.2.2.2; linarith))
  | edge _ _ _ _ =>
    have h : r < 5 := h
    interval_cases r <;>
      (simp only [Config.exSamples, exEA, triangleEdgeAdjacent, List.getElem_cons_zero, List.getElem_cons_succ,
          Ex.eval_mul, Ex.eval_var, Ex.eval_add, Ex.eval_sub, Ex.eval_one, separation, Matrix.cons_val]
       refine le_trans ?_ (mul_le_mul_of_nonneg_right (show (3 : ℝ) ≤ 4 by norm_num) (le_max_of_le_left (abs_nonneg _)))
       first
       | (refine le_trans ?_ (max_third _ _ _ (by linarith) (by linarith)).1; linarith)
       | (refine le_trans ?_ (max_third _ _ _ (by linarith) (by linarith)).2; linarith))
  | vertex _ _ =>
    have h : r < 2 := h
    interval_cases r <;>
      (simp only [Config.exSamples, exVA, triangleVertexAdjacent, List.getElem_cons_zero, List.getElem_cons_succ,
          Ex.eval_mul, Ex.eval_var, Ex.eval_add, Ex.eval_sub, Ex.eval_one, separation, Matrix.cons_val])
    · have g1 := le_max_left (max (z 0 - z 0 * z 1) (z 0 * z 1)) (max (z 0 * z 2 - z 0 * z 2 * z 3) (z 0 * z 2 * z 3))
      have g2 := le_max_left (z 0 - z 0 * z 1) (z 0 * z 1)
      have g3 := le_max_right (z 0 - z 0 * z 1) (z 0 * z 1)
      linarith
    · have g1 := le_max_right (max (z 0 * z 2 - z 0 * z 2 * z 3) (z 0 * z 2 * z 3)) (max (z 0 - z 0 * z 1) (z 0 * z 1))
      have g2 := le_max_left (z 0 - z 0 * z 1) (z 0 * z 1)
      have g3 := le_max_right (z 0 - z 0 * z 1) (z 0 * z 1)
      linarith

end Verif.Quad
