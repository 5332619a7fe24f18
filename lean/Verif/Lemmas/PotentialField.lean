import Verif.Spec.PotentialField
import Verif.Props.Kernels
/-
Lemmas on fields: second derivatives of products of polynomials and radial functions, and of sums.
-/
namespace Verif.Pot
open Verif.Grid Verif.Kernel Filter Topology

/-! ### Radial functions -/

/-- `-(15 + 15 k r + 6 k² r² + k³ r³) / (4 π r⁷) exp (-k r)`. -/
noncomputable def rad3 (k r : ℂ) : ℂ :=
  -(15 + 15 * k * r + 6 * k ^ 2 * r ^ 2 + k ^ 3 * r ^ 3) / (4 * Real.pi * r ^ 7) * Complex.exp (-k * r)
/-- `(105 + 105 k r + 45 k² r² + 10 k³ r³ + k⁴ r⁴) / (4 π r⁹) exp (-k r)`. -/
noncomputable def rad4 (k r : ℂ) : ℂ :=
  (105 + 105 * k * r + 45 * k ^ 2 * r ^ 2 + 10 * k ^ 3 * r ^ 3 + k ^ 4 * r ^ 4) / (4 * Real.pi * r ^ 9) * Complex.exp (-k * r)

theorem rad2_deriv (k r : ℂ) (hr : r ≠ 0) : HasDerivAt (rad2 k) (r * rad3 k r) r := by
  have hd : HasDerivAt (fun r : ℂ => 4 * (Real.pi : ℂ) * r ^ 5) (4 * Real.pi * (5 * r ^ 4)) r := by
    simpa using (hasDerivAt_pow 5 r).const_mul (4 * (Real.pi : ℂ))
  have hn : HasDerivAt (fun r : ℂ => 3 + 3 * k * r + k ^ 2 * r ^ 2) (3 * k + k ^ 2 * (2 * r)) r := by
    have h := (((hasDerivAt_id r).const_mul (3 * k)).const_add 3).add ((hasDerivAt_pow 2 r).const_mul (k ^ 2))
    exact HasDerivAt.congr_deriv (f := fun r : ℂ => 3 + 3 * k * r + k ^ 2 * r ^ 2) h (by push_cast; ring)
  have h := (hn.div hd (mul_ne_zero (mul_ne_zero (by norm_num) pi_ne) (pow_ne_zero _ hr))).mul (exp_deriv k r)
  refine HasDerivAt.congr_deriv (f := rad2 k) h ?_
  have := pi_ne
  unfold rad3
  simp only [Pi.div_apply]
  field_simp
  ring

theorem rad3_deriv (k r : ℂ) (hr : r ≠ 0) : HasDerivAt (rad3 k) (r * rad4 k r) r := by
  have hd : HasDerivAt (fun r : ℂ => 4 * (Real.pi : ℂ) * r ^ 7) (4 * Real.pi * (7 * r ^ 6)) r := by
    simpa using (hasDerivAt_pow 7 r).const_mul (4 * (Real.pi : ℂ))
  have hn : HasDerivAt (fun r : ℂ => -(15 + 15 * k * r + 6 * k ^ 2 * r ^ 2 + k ^ 3 * r ^ 3))
      (-(15 * k + 6 * k ^ 2 * (2 * r) + k ^ 3 * (3 * r ^ 2))) r := by
    have h := (((((hasDerivAt_id r).const_mul (15 * k)).const_add 15).add ((hasDerivAt_pow 2 r).const_mul (6 * k ^ 2))).add
      ((hasDerivAt_pow 3 r).const_mul (k ^ 3))).neg
    exact HasDerivAt.congr_deriv (f := fun r : ℂ => -(15 + 15 * k * r + 6 * k ^ 2 * r ^ 2 + k ^ 3 * r ^ 3)) h (by push_cast; ring)
  have h := (hn.div hd (mul_ne_zero (mul_ne_zero (by norm_num) pi_ne) (pow_ne_zero _ hr))).mul (exp_deriv k r)
  refine HasDerivAt.congr_deriv (f := rad3 k) h ?_
  have := pi_ne
  unfold rad4
  simp only [Pi.div_apply]
  field_simp
  ring

theorem rad_eq0 (k r : ℂ) (hr : r ≠ 0) : 3 * rad1 k r + r ^ 2 * rad2 k r = k ^ 2 * rad0 k r := by
  have := pi_ne
  unfold rad0 rad1 rad2
  field_simp
  ring
theorem rad_eq1 (k r : ℂ) (hr : r ≠ 0) : 5 * rad2 k r + r ^ 2 * rad3 k r = k ^ 2 * rad1 k r := by
  have := pi_ne
  unfold rad1 rad2 rad3
  field_simp
  ring
theorem rad_eq2 (k r : ℂ) (hr : r ≠ 0) : 7 * rad3 k r + r ^ 2 * rad4 k r = k ^ 2 * rad2 k r := by
  have := pi_ne
  unfold rad2 rad3 rad4
  field_simp
  ring

/-! ### Second derivatives -/

theorem along_along (x v : P3 ℝ) (τ σ : ℝ) : along (along x v τ) v σ = along x v (τ + σ) := by
  simp only [along, P3.mk.injEq]
  refine ⟨?_, ?_, ?_⟩ <;> ring

theorem directional_along {F : P3 ℝ → ℂ} {D : ℂ} {x v : P3 ℝ} {τ : ℝ} (h : HasDirectional F D (along x v τ) v) :
    HasDerivAt (fun σ => F (along x v σ)) D τ := by
  unfold HasDirectional at h
  simp only [along_along] at h
  have h1 : HasDerivAt (fun σ : ℝ => σ - τ) 1 τ := (hasDerivAt_id τ).sub_const τ
  have h3 := HasDerivAt.scomp_of_eq τ h h1 (by simp)
  refine HasDerivAt.congr_of_eventuallyEq (h3.congr_deriv (by simp)) (Eventually.of_forall fun σ => ?_)
  simp [Function.comp]

theorem second_of {F F' : P3 ℝ → ℂ} {D : ℂ} {x y v : P3 ℝ} (h : x ≠ y)
    (h1 : ∀ x, x ≠ y → HasDirectional F (F' x) x v) (h2 : HasDirectional F' D x v) : HasSecond F D x v := by
  refine ⟨fun τ => F' (along x v τ), ?_, h2⟩
  filter_upwards [slice_ne h v] with τ hτ
  exact directional_along (h1 _ hτ)

theorem HasSecond.congr {F F' : P3 ℝ → ℂ} {D : ℂ} {x y v : P3 ℝ} (h : HasSecond F D x v) (hx : x ≠ y)
    (he : ∀ p, p ≠ y → F' p = F p) : HasSecond F' D x v := by
  obtain ⟨f', h1, h2⟩ := h
  refine ⟨f', ?_, h2⟩
  have hs := slice_ne hx v
  filter_upwards [h1, hs.eventually_nhds] with τ h1 h3
  refine HasDerivAt.congr_of_eventuallyEq h1 ?_
  filter_upwards [h3] with σ hσ
  exact he _ hσ

theorem HasLaplacian.congr {F F' : P3 ℝ → ℂ} {L : ℂ} {x y : P3 ℝ} (h : HasLaplacian F L x) (hx : x ≠ y)
    (he : ∀ p, p ≠ y → F' p = F p) : HasLaplacian F' L x := by
  obtain ⟨a, b, c, h1, h2, h3, h4⟩ := h
  exact ⟨a, b, c, h1.congr hx he, h2.congr hx he, h3.congr hx he, h4⟩

theorem HasSecond.add {F G : P3 ℝ → ℂ} {D E : ℂ} {x v : P3 ℝ} (h : HasSecond F D x v) (h' : HasSecond G E x v) :
    HasSecond (fun x => F x + G x) (D + E) x v := by
  obtain ⟨f, h1, h2⟩ := h
  obtain ⟨g, g1, g2⟩ := h'
  refine ⟨fun τ => f τ + g τ, ?_, h2.add g2⟩
  filter_upwards [h1, g1] with τ a b
  exact a.add b

theorem HasSecond.const_mul {F : P3 ℝ → ℂ} {D : ℂ} {x v : P3 ℝ} (a : ℂ) (h : HasSecond F D x v) :
    HasSecond (fun x => a * F x) (a * D) x v := by
  obtain ⟨f, h1, h2⟩ := h
  refine ⟨fun τ => a * f τ, ?_, h2.const_mul a⟩
  filter_upwards [h1] with τ h
  exact h.const_mul a

theorem HasLaplacian.add {F G : P3 ℝ → ℂ} {D E : ℂ} {x : P3 ℝ} (h : HasLaplacian F D x) (h' : HasLaplacian G E x) :
    HasLaplacian (fun x => F x + G x) (D + E) x := by
  obtain ⟨a, b, c, h1, h2, h3, rfl⟩ := h
  obtain ⟨a', b', c', g1, g2, g3, rfl⟩ := h'
  exact ⟨_, _, _, h1.add g1, h2.add g2, h3.add g3, by ring⟩

theorem HasLaplacian.const_mul {F : P3 ℝ → ℂ} {D : ℂ} {x : P3 ℝ} (a : ℂ) (h : HasLaplacian F D x) :
    HasLaplacian (fun x => a * F x) (a * D) x := by
  obtain ⟨p, q, r, h1, h2, h3, rfl⟩ := h
  exact ⟨_, _, _, h1.const_mul a, h2.const_mul a, h3.const_mul a, by ring⟩

theorem HasLaplacian.zero (x : P3 ℝ) : HasLaplacian (fun _ => 0) 0 x := by
  have : ∀ v, HasSecond (fun _ => 0) 0 x v := fun v =>
    ⟨fun _ => 0, Eventually.of_forall fun _ => hasDerivAt_const _ _, hasDerivAt_const _ _⟩
  exact ⟨0, 0, 0, this _, this _, this _, by ring⟩

theorem dir_add {F G : P3 ℝ → ℂ} {D E : ℂ} {x v : P3 ℝ} (h : HasDirectional F D x v) (h' : HasDirectional G E x v) :
    HasDirectional (fun x => F x + G x) (D + E) x v := HasDerivAt.add h h'

theorem dir_mul {F G : P3 ℝ → ℂ} {D E : ℂ} {x v : P3 ℝ} (h : HasDirectional F D x v) (h' : HasDirectional G E x v) :
    HasDirectional (fun x => F x * G x) (D * G x + F x * E) x v := by
  have := HasDerivAt.mul h h'
  refine HasDerivAt.congr_deriv this ?_
  simp [along_zero]

theorem dir_const (a : ℂ) (x v : P3 ℝ) : HasDirectional (fun _ => a) 0 x v := hasDerivAt_const _ _

/-- The linear function `(x - y) · n`. -/
noncomputable def lin (y n x : P3 ℝ) : ℂ := ((sumMul (x.sub y) n : ℝ) : ℂ)

theorem lin_deriv (y n x v : P3 ℝ) : HasDirectional (lin y n) ((sumMul v n : ℝ) : ℂ) x v := linear_deriv x y n v

theorem radial {y : P3 ℝ} {φ φ₁ : ℂ → ℂ} (hφ : ∀ r, r ≠ 0 → HasDerivAt φ (r * φ₁ r) r) (v x : P3 ℝ) (h : x ≠ y) :
    HasDirectional (fun x => φ (dist x y : ℂ)) (lin y v x * φ₁ (dist x y : ℂ)) x v := by
  have hd : (dist x y : ℂ) ≠ 0 := by have := (dist_pos h).ne'; exact_mod_cast this
  refine HasDerivAt.congr_deriv (radial_deriv h v (hφ _ hd)) ?_
  unfold lin
  push_cast
  field_simp

/-- The second derivative of a product of a polynomial and a radial function. -/
theorem second_product {y : P3 ℝ} {φ φ₁ φ₂ : ℂ → ℂ} (h0 : ∀ r, r ≠ 0 → HasDerivAt φ (r * φ₁ r) r)
    (h1 : ∀ r, r ≠ 0 → HasDerivAt φ₁ (r * φ₂ r) r) {A A₁ A₂ : P3 ℝ → ℂ} {v : P3 ℝ}
    (hA : ∀ x, HasDirectional A (A₁ x) x v) (hA₁ : ∀ x, HasDirectional A₁ (A₂ x) x v) (x : P3 ℝ) (h : x ≠ y) :
    HasSecond (fun x => A x * φ (dist x y : ℂ))
      (A₂ x * φ (dist x y : ℂ) + 2 * A₁ x * lin y v x * φ₁ (dist x y : ℂ) + A x * (sumMul v v : ℝ) * φ₁ (dist x y : ℂ) +
        A x * lin y v x ^ 2 * φ₂ (dist x y : ℂ)) x v := by
  refine second_of (F' := fun x => A₁ x * φ (dist x y : ℂ) + A x * (lin y v x * φ₁ (dist x y : ℂ))) h ?_ ?_
  · intro x hx
    exact dir_mul (hA x) (radial h0 v x hx)
  · refine HasDerivAt.congr_deriv (dir_add (dir_mul (hA₁ x) (radial h0 v x h)) (dir_mul (hA x) (dir_mul (lin_deriv y v x v) (radial h1 v x h)))) ?_
    ring

theorem axis_squares (y x : P3 ℝ) : lin y ⟨1, 0, 0⟩ x ^ 2 + lin y ⟨0, 1, 0⟩ x ^ 2 + lin y ⟨0, 0, 1⟩ x ^ 2 = (dist x y : ℂ) ^ 2 := by
  rw [← dist2]
  unfold lin sumMul sumSq
  push_cast
  ring

theorem laplacian_product {y : P3 ℝ} {φ φ₁ φ₂ : ℂ → ℂ} (h0 : ∀ r, r ≠ 0 → HasDerivAt φ (r * φ₁ r) r)
    (h1 : ∀ r, r ≠ 0 → HasDerivAt φ₁ (r * φ₂ r) r) {A : P3 ℝ → ℂ} {A₁ A₂ : P3 ℝ → P3 ℝ → ℂ}
    (hA : ∀ v x, HasDirectional A (A₁ v x) x v) (hA₁ : ∀ v x, HasDirectional (A₁ v) (A₂ v x) x v) (x : P3 ℝ) (h : x ≠ y) {L : ℂ}
    (hL : (A₂ ⟨1, 0, 0⟩ x + A₂ ⟨0, 1, 0⟩ x + A₂ ⟨0, 0, 1⟩ x) * φ (dist x y : ℂ) +
      2 * (A₁ ⟨1, 0, 0⟩ x * lin y ⟨1, 0, 0⟩ x + A₁ ⟨0, 1, 0⟩ x * lin y ⟨0, 1, 0⟩ x + A₁ ⟨0, 0, 1⟩ x * lin y ⟨0, 0, 1⟩ x) *
        φ₁ (dist x y : ℂ) + A x * (3 * φ₁ (dist x y : ℂ) + (dist x y : ℂ) ^ 2 * φ₂ (dist x y : ℂ)) = L) :
    HasLaplacian (fun x => A x * φ (dist x y : ℂ)) L x := by
  refine ⟨_, _, _, second_product h0 h1 (hA _) (hA₁ _) x h, second_product h0 h1 (hA _) (hA₁ _) x h,
    second_product h0 h1 (hA _) (hA₁ _) x h, ?_⟩
  have e1 : sumMul (⟨1, 0, 0⟩ : P3 ℝ) ⟨1, 0, 0⟩ = 1 := by simp [sumMul]
  have e2 : sumMul (⟨0, 1, 0⟩ : P3 ℝ) ⟨0, 1, 0⟩ = 1 := by simp [sumMul]
  have e3 : sumMul (⟨0, 0, 1⟩ : P3 ℝ) ⟨0, 0, 1⟩ = 1 := by simp [sumMul]
  rw [e1, e2, e3, ← hL, ← axis_squares]
  push_cast
  ring

theorem dist_ne {x y : P3 ℝ} (h : x ≠ y) : (dist x y : ℂ) ≠ 0 := by have := (dist_pos h).ne'; exact_mod_cast this

/-- The fundamental solution. -/
theorem laplacian_rad0 (k : ℂ) (x y : P3 ℝ) (h : x ≠ y) :
    HasLaplacian (fun x => rad0 k (dist x y)) (k ^ 2 * rad0 k (dist x y)) x := by
  have := laplacian_product (y := y) (rad0_deriv k) (rad1_deriv k) (A := fun _ => 1) (A₁ := fun _ _ => 0) (A₂ := fun _ _ => 0)
    (fun v x => dir_const _ _ _) (fun v x => dir_const _ _ _) x h (L := k ^ 2 * rad0 k (dist x y)) (by
      rw [← rad_eq0 k _ (dist_ne h)]; ring)
  simpa using this

/-- A directional derivative of the fundamental solution. -/
theorem laplacian_rad1 (k : ℂ) (x y n : P3 ℝ) (h : x ≠ y) :
    HasLaplacian (fun x => lin y n x * rad1 k (dist x y)) (k ^ 2 * (lin y n x * rad1 k (dist x y))) x := by
  refine laplacian_product (y := y) (rad1_deriv k) (rad2_deriv k) (A := lin y n) (A₁ := fun v _ => ((sumMul v n : ℝ) : ℂ))
    (A₂ := fun _ _ => 0) (fun v x => lin_deriv y n x v) (fun v x => dir_const _ _ _) x h ?_
  rw [mul_left_comm (k ^ 2), ← rad_eq1 k _ (dist_ne h)]
  have e : ((sumMul ⟨1, 0, 0⟩ n : ℝ) : ℂ) * lin y ⟨1, 0, 0⟩ x + ((sumMul ⟨0, 1, 0⟩ n : ℝ) : ℂ) * lin y ⟨0, 1, 0⟩ x +
      ((sumMul ⟨0, 0, 1⟩ n : ℝ) : ℂ) * lin y ⟨0, 0, 1⟩ x = lin y n x := by
    simp only [lin, sumMul, P3.sub]
    push_cast
    ring
  rw [e]
  ring

/-- Two directional derivatives of the fundamental solution. -/
theorem laplacian_rad2 (k : ℂ) (x y m n : P3 ℝ) (h : x ≠ y) :
    HasLaplacian (fun x => (sumMul m n : ℝ) * rad1 k (dist x y) + lin y m x * lin y n x * rad2 k (dist x y))
      (k ^ 2 * ((sumMul m n : ℝ) * rad1 k (dist x y) + lin y m x * lin y n x * rad2 k (dist x y))) x := by
  have h1 : HasLaplacian (fun x => (sumMul m n : ℝ) * rad1 k (dist x y))
      ((sumMul m n : ℝ) * (3 * rad2 k (dist x y) + (dist x y : ℂ) ^ 2 * rad3 k (dist x y))) x :=
    laplacian_product (y := y) (rad1_deriv k) (rad2_deriv k) (A := fun _ => ((sumMul m n : ℝ) : ℂ)) (A₁ := fun _ _ => 0)
      (A₂ := fun _ _ => 0) (fun v x => dir_const _ _ _) (fun v x => dir_const _ _ _) x h (by ring)
  have h2 : HasLaplacian (fun x => lin y m x * lin y n x * rad2 k (dist x y))
      (2 * (sumMul m n : ℝ) * rad2 k (dist x y) + lin y m x * lin y n x * (7 * rad3 k (dist x y) + (dist x y : ℂ) ^ 2 * rad4 k (dist x y)))
      x := by
    refine laplacian_product (y := y) (rad2_deriv k) (rad3_deriv k) (A := fun x => lin y m x * lin y n x)
      (A₁ := fun v x => ((sumMul v m : ℝ) : ℂ) * lin y n x + lin y m x * ((sumMul v n : ℝ) : ℂ))
      (A₂ := fun v x => 2 * ((sumMul v m : ℝ) : ℂ) * ((sumMul v n : ℝ) : ℂ))
      (fun v x => dir_mul (lin_deriv y m x v) (lin_deriv y n x v)) (fun v x => ?_) x h ?_
    · refine HasDerivAt.congr_deriv (dir_add (dir_mul (dir_const ((sumMul v m : ℝ) : ℂ) x v) (lin_deriv y n x v))
        (dir_mul (lin_deriv y m x v) (dir_const ((sumMul v n : ℝ) : ℂ) x v))) ?_
      ring
    · simp only [lin, sumMul, P3.sub]
      push_cast
      ring
  have := h1.add h2
  obtain ⟨a, b, c, g1, g2, g3, g4⟩ := this
  refine ⟨a, b, c, g1, g2, g3, g4.trans ?_⟩
  rw [mul_add (k ^ 2), mul_left_comm (k ^ 2), mul_left_comm (k ^ 2), ← rad_eq1 k _ (dist_ne h), ← rad_eq2 k _ (dist_ne h)]
  ring

end Verif.Pot
