import Verif.Model.Kernels
import Verif.Spec.Kernels
import Mathlib.Tactic
import Mathlib.Analysis.SpecialFunctions.ExpDeriv
import Mathlib.Analysis.Calculus.Deriv.Inv
/-
C73: the kernels are the fundamental solution and its derivatives.
-/
namespace Verif.Kernel
open Verif.Grid

theorem sumSq_sub (x y : P3 ℝ) : sumSq (x.sub y) = (x.x - y.x) ^ 2 + (x.y - y.y) ^ 2 + (x.z - y.z) ^ 2 := by
  simp only [sumSq, P3.sub]; ring

theorem sqrt_sumSq (x y : P3 ℝ) : Real.sqrt (sumSq (x.sub y)) = dist x y := by rw [sumSq_sub]; rfl

theorem dist_comm (x y : P3 ℝ) : dist x y = dist y x := by
  unfold dist; congr 1; ring

theorem sumSq_comm (x y : P3 ℝ) : sumSq (x.sub y) = sumSq (y.sub x) := by
  rw [sumSq_sub, sumSq_sub]; ring

theorem dist_sq (x y : P3 ℝ) : dist x y ^ 2 = (x.x - y.x) ^ 2 + (x.y - y.y) ^ 2 + (x.z - y.z) ^ 2 :=
  Real.sq_sqrt (by positivity)

theorem dist_pos {x y : P3 ℝ} (h : x ≠ y) : 0 < dist x y := by
  apply Real.sqrt_pos.mpr
  by_contra h0
  apply h
  have h1 := sq_nonneg (x.x - y.x)
  have h2 := sq_nonneg (x.y - y.y)
  have h3 := sq_nonneg (x.z - y.z)
  have e1 : (x.x - y.x) ^ 2 = 0 := by linarith
  have e2 : (x.y - y.y) ^ 2 = 0 := by linarith
  have e3 : (x.z - y.z) ^ 2 = 0 := by linarith
  obtain ⟨a, b, c⟩ := x
  obtain ⟨a', b', c'⟩ := y
  simp only [P3.mk.injEq]
  exact ⟨by have := pow_eq_zero_iff (two_ne_zero) |>.mp e1; simp only at this; linarith,
    by have := pow_eq_zero_iff (two_ne_zero) |>.mp e2; simp only at this; linarith,
    by have := pow_eq_zero_iff (two_ne_zero) |>.mp e3; simp only at this; linarith⟩

theorem along_zero (x v : P3 ℝ) : along x v 0 = x := by simp [along]

/-- The derivative of the distance. -/
theorem dist_deriv {x y : P3 ℝ} (h : x ≠ y) (v : P3 ℝ) :
    HasDerivAt (fun τ => dist (along x v τ) y) (sumMul (x.sub y) v / dist x y) 0 := by
  have hp := dist_pos h
  have hsq : (x.x - y.x) ^ 2 + (x.y - y.y) ^ 2 + (x.z - y.z) ^ 2 ≠ 0 := by
    rw [← dist_sq]; positivity
  have hl : ∀ a b c : ℝ, HasDerivAt (fun τ : ℝ => (a + τ * b - c) ^ 2) (2 * (a - c) * b) 0 := by
    intro a b c
    have h1 : HasDerivAt (fun τ : ℝ => a + τ * b - c) b 0 := by
      have := ((hasDerivAt_id (0 : ℝ)).mul_const b).const_add a |>.sub_const c
      simpa using this
    have h2 := h1.pow 2
    refine HasDerivAt.congr_deriv (f := fun τ : ℝ => (a + τ * b - c) ^ 2) h2 ?_
    simp
  have hs := ((hl x.x v.x y.x).add (hl x.y v.y y.y)).add (hl x.z v.z y.z)
  have hr := hs.sqrt (by simpa using hsq)
  refine HasDerivAt.congr_deriv (f := fun τ => dist (along x v τ) y) hr ?_
  have e : ((fun τ => (x.x + τ * v.x - y.x) ^ 2) + (fun τ => (x.y + τ * v.y - y.y) ^ 2) + (fun τ : ℝ =>
            (x.z + τ * v.z - y.z) ^ 2) : ℝ → ℝ) 0 = (x.x - y.x) ^ 2 + (x.y - y.y) ^ 2 + (x.z - y.z) ^ 2 := by simp
  rw [e]
  change _ / (2 * dist x y) = _
  simp only [sumMul, P3.sub]
  field_simp
  ring

theorem distC_deriv {x y : P3 ℝ} (h : x ≠ y) (v : P3 ℝ) :
    HasDerivAt (fun τ => ((dist (along x v τ) y : ℝ) : ℂ)) ((sumMul (x.sub y) v / dist x y : ℝ) : ℂ) 0 :=
  (dist_deriv h v).ofReal_comp

/-- A factor that depends on the distance only. -/
theorem radial_deriv {x y : P3 ℝ} (h : x ≠ y) (v : P3 ℝ) {φ : ℂ → ℂ} {φ' : ℂ} (hφ : HasDerivAt φ φ' (dist x y : ℂ)) :
    HasDirectional (fun x => φ (dist x y : ℂ)) (φ' * ((sumMul (x.sub y) v / dist x y : ℝ) : ℂ)) x v := by
  have h1 := distC_deriv h v
  have h2 : HasDerivAt φ φ' (((dist (along x v 0) y : ℝ) : ℂ)) := by rw [along_zero]; exact hφ
  exact h2.scomp_of_eq 0 h1 rfl |>.congr_deriv (by rw [smul_eq_mul, mul_comm])

/-- The product of an affine function and a factor that depends on the distance only. -/
theorem product_deriv {x y : P3 ℝ} (h : x ≠ y) (v : P3 ℝ) {φ : ℂ → ℂ} {φ' : ℂ} (hφ : HasDerivAt φ φ' (dist x y : ℂ))
    {A : P3 ℝ → ℂ} {A' : ℂ} (hA : HasDirectional A A' x v) :
    HasDirectional (fun x => A x * φ (dist x y : ℂ))
      (A' * φ (dist x y : ℂ) + A x * (φ' * ((sumMul (x.sub y) v / dist x y : ℝ) : ℂ))) x v := by
  have := HasDerivAt.mul hA (radial_deriv h v hφ)
  unfold HasDirectional
  refine HasDerivAt.congr_deriv (f := fun τ => A (along x v τ) * φ (dist (along x v τ) y : ℂ)) this ?_
  simp [along_zero]

theorem linear_deriv (x y n v : P3 ℝ) :
    HasDirectional (fun x => ((sumMul (x.sub y) n : ℝ) : ℂ)) ((sumMul v n : ℝ) : ℂ) x v := by
  have h : HasDerivAt (fun τ : ℝ => sumMul ((along x v τ).sub y) n) (sumMul v n) 0 := by
    have hl : ∀ a b c d : ℝ, HasDerivAt (fun τ : ℝ => (a + τ * b - c) * d) (b * d) 0 := by
      intro a b c d
      have h1 : HasDerivAt (fun τ : ℝ => a + τ * b - c) b 0 := by
        have := ((hasDerivAt_id (0 : ℝ)).mul_const b).const_add a |>.sub_const c
        simpa using this
      exact h1.mul_const d
    have := ((hl x.x v.x y.x n.x).add (hl x.y v.y y.y n.y)).add (hl x.z v.z y.z n.z)
    have h2 : HasDerivAt (fun τ : ℝ => (x.x + τ * v.x - y.x) * n.x + (x.y + τ * v.y - y.y) * n.y +
      (x.z + τ * v.z - y.z) * n.z) (v.x * n.x + v.y * n.y + v.z * n.z) 0 := this
    simpa [sumMul, along, P3.sub] using h2
  exact h.ofReal_comp

/-! ### Radial factors -/

/-- `exp (-k r) / (4 π r)`. -/
noncomputable def rad0 (k r : ℂ) : ℂ := Complex.exp (-k * r) / (4 * Real.pi * r)
/-- `-(1 + k r) / (4 π r³) exp (-k r)`. -/
noncomputable def rad1 (k r : ℂ) : ℂ := -(1 + k * r) / (4 * Real.pi * r ^ 3) * Complex.exp (-k * r)
/-- `(3 + 3 k r + k² r²) / (4 π r⁵) exp (-k r)`. -/
noncomputable def rad2 (k r : ℂ) : ℂ := (3 + 3 * k * r + k ^ 2 * r ^ 2) / (4 * Real.pi * r ^ 5) * Complex.exp (-k * r)

theorem exp_deriv (k r : ℂ) : HasDerivAt (fun r => Complex.exp (-k * r)) (-k * Complex.exp (-k * r)) r := by
  have h1 : HasDerivAt (fun r : ℂ => -k * r) (-k) r := by simpa using (hasDerivAt_id r).const_mul (-k)
  exact h1.cexp.congr_deriv (by ring)

theorem pi_ne : (Real.pi : ℂ) ≠ 0 := by exact_mod_cast Real.pi_ne_zero

theorem rad0_deriv (k r : ℂ) (hr : r ≠ 0) : HasDerivAt (rad0 k) (r * rad1 k r) r := by
  have hd : HasDerivAt (fun r : ℂ => 4 * (Real.pi : ℂ) * r) (4 * Real.pi) r := by
    simpa using (hasDerivAt_id r).const_mul (4 * (Real.pi : ℂ))
  have h := (exp_deriv k r).div hd (mul_ne_zero (mul_ne_zero (by norm_num) pi_ne) hr)
  refine HasDerivAt.congr_deriv (f := rad0 k) h ?_
  have := pi_ne
  unfold rad1
  field_simp
  ring

theorem rad1_deriv (k r : ℂ) (hr : r ≠ 0) : HasDerivAt (rad1 k) (r * rad2 k r) r := by
  have hd : HasDerivAt (fun r : ℂ => 4 * (Real.pi : ℂ) * r ^ 3) (4 * Real.pi * (3 * r ^ 2)) r := by
    simpa using (hasDerivAt_pow 3 r).const_mul (4 * (Real.pi : ℂ))
  have hn : HasDerivAt (fun r : ℂ => -(1 + k * r)) (-k) r := by
    have h := (((hasDerivAt_id r).const_mul k).const_add 1).neg
    exact HasDerivAt.congr_deriv (f := fun r : ℂ => -(1 + k * r)) h (by ring)
  have h := (hn.div hd (mul_ne_zero (mul_ne_zero (by norm_num) pi_ne) (pow_ne_zero _ hr))).mul (exp_deriv k r)
  refine HasDerivAt.congr_deriv (f := rad1 k) h ?_
  have := pi_ne
  unfold rad2
  simp only [Pi.div_apply]
  field_simp
  ring

/-! ### The kernels in terms of the radial factors -/

section
variable (k : ℂ) (s t : Slice)

theorem fundamental_rad (x y : P3 ℝ) : fundamental k x y = rad0 k (dist x y) := rfl

theorem dist2 (x y : P3 ℝ) : ((sumSq (x.sub y) : ℝ) : ℂ) = (dist x y : ℂ) ^ 2 := by
  rw [sumSq_sub, ← dist_sq]; push_cast; rfl

theorem slC : helmholtzSL k s t = rad0 k (dist s.global t.global) := by
  unfold helmholtzSL rad0
  dsimp only
  rw [sqrt_sumSq]
  push_cast
  by_cases h : (dist s.global t.global : ℂ) = 0
  · rw [h]; simp
  · have := pi_ne
    field_simp

variable (h : s.global ≠ t.global)
include h

theorem distC_ne : (dist s.global t.global : ℂ) ≠ 0 := by
  have := (dist_pos h).ne'
  exact_mod_cast this

theorem maxwellDL_rad : maxwellDL k s t = (((s.global.x - t.global.x : ℝ) : ℂ) * rad1 k (dist s.global t.global),
    ((s.global.y - t.global.y : ℝ) : ℂ) * rad1 k (dist s.global t.global),
    ((s.global.z - t.global.z : ℝ) : ℂ) * rad1 k (dist s.global t.global)) := by
  have hd := distC_ne s t h
  have := pi_ne
  unfold maxwellDL rad1
  dsimp only
  rw [sqrt_sumSq]
  simp only [Complex.ofReal_mul, dist2]
  simp only [P3.sub, Prod.mk.injEq]
  push_cast
  refine ⟨?_, ?_, ?_⟩ <;> field_simp

theorem adl_rad : helmholtzADL k s t = ((sumMul (s.global.sub t.global) s.normal : ℝ) : ℂ) * rad1 k (dist s.global t.global) := by
  have hd := distC_ne s t h
  have := pi_ne
  unfold helmholtzADL rad1
  dsimp only
  rw [sqrt_sumSq]
  simp only [Complex.ofReal_mul, Complex.ofReal_div, Complex.ofReal_neg, dist2]
  push_cast
  field_simp
  ring

theorem dl_rad : helmholtzDL k s t = ((-sumMul (s.global.sub t.global) t.normal : ℝ) : ℂ) * rad1 k (dist s.global t.global) := by
  have hd := distC_ne s t h
  have := pi_ne
  unfold helmholtzDL rad1
  dsimp only
  rw [sumSq_comm t.global s.global, sqrt_sumSq]
  simp only [Complex.ofReal_mul, Complex.ofReal_div, Complex.ofReal_neg, dist2]
  have e : sumMul (t.global.sub s.global) t.normal = -sumMul (s.global.sub t.global) t.normal := by
    simp only [sumMul, P3.sub]; ring
  rw [e]
  push_cast
  field_simp
  ring

theorem hyp_rad : helmholtzHyp k s t =
    ((sumMul s.normal t.normal : ℝ) : ℂ) * rad1 k (dist s.global t.global) +
      ((sumMul (s.global.sub t.global) s.normal * sumMul (s.global.sub t.global) t.normal : ℝ) : ℂ) *
        rad2 k (dist s.global t.global) := by
  have hd := distC_ne s t h
  have := pi_ne
  unfold helmholtzHyp rad1 rad2
  dsimp only
  rw [sumSq_comm t.global s.global, sqrt_sumSq]
  simp only [Complex.ofReal_mul, Complex.ofReal_div, Complex.ofReal_neg, dist2]
  have e : ∀ n, sumMul (t.global.sub s.global) n = -sumMul (s.global.sub t.global) n := by
    intro n; simp only [sumMul, P3.sub]; ring
  rw [e, e, ← neg_mul]
  push_cast
  field_simp

/-! ### Laplace kernels are those of wave number 0 -/

theorem laplace_zero : ((laplaceSL s t : ℝ) : ℂ) = helmholtzSL 0 s t ∧ ((laplaceDL s t : ℝ) : ℂ) = helmholtzDL 0 s t ∧
    ((laplaceADL s t : ℝ) : ℂ) = helmholtzADL 0 s t ∧ ((laplaceHyp s t : ℝ) : ℂ) = helmholtzHyp 0 s t ∧
    (let g := laplaceSLGrad s t; (((g.x : ℝ) : ℂ), ((g.y : ℝ) : ℂ), ((g.z : ℝ) : ℂ)) = maxwellDL 0 s t) := by
  have hd := distC_ne s t h
  have hp := pi_ne
  refine ⟨?_, ?_, ?_, ?_, ?_⟩
  · unfold laplaceSL helmholtzSL; simp
  · unfold laplaceDL helmholtzDL
    dsimp only
    rw [sumSq_comm t.global s.global, sqrt_sumSq]
    simp only [Complex.ofReal_mul, Complex.ofReal_div, Complex.ofReal_neg, dist2]
    simp
    field_simp
  · unfold laplaceADL helmholtzADL
    dsimp only
    rw [sqrt_sumSq]
    simp only [Complex.ofReal_mul, Complex.ofReal_div, Complex.ofReal_neg, dist2]
    simp
    field_simp
  · unfold laplaceHyp helmholtzHyp
    dsimp only
    rw [sumSq_comm t.global s.global, sqrt_sumSq]
    simp only [Complex.ofReal_mul, Complex.ofReal_div, Complex.ofReal_neg, Complex.ofReal_sub, dist2]
    simp
    field_simp
    ring
  · rw [maxwellDL_rad 0 s t h]
    unfold laplaceSLGrad rad1
    dsimp only
    rw [sqrt_sumSq]
    simp only [P3.sub, Prod.mk.injEq]
    push_cast
    simp only [zero_mul, neg_zero, Complex.exp_zero, add_zero]
    refine ⟨?_, ?_, ?_⟩ <;> field_simp
end

/-! ### Properties -/

/-- **C73 (single layer)** The single-layer kernels are the fundamental solutions, and symmetric. -/
theorem C73_single_layer (k : ℂ) (s t : Slice) :
    helmholtzSL k s t = fundamental k s.global t.global ∧ ((laplaceSL s t : ℝ) : ℂ) = fundamental 0 s.global t.global ∧
    helmholtzSL k s t = helmholtzSL k t s ∧ laplaceSL s t = laplaceSL t s := by
  refine ⟨slC k s t, ?_, ?_, ?_⟩
  · rw [fundamental_rad, ← slC]; unfold laplaceSL helmholtzSL; simp
  · rw [slC, slC, dist_comm]
  · unfold laplaceSL; rw [sumSq_comm]

theorem fundamental_comm (k : ℂ) (x y : P3 ℝ) : fundamental k x y = fundamental k y x := by
  unfold fundamental; rw [dist_comm]

theorem fundamental_deriv (k : ℂ) {x y : P3 ℝ} (h : x ≠ y) (v : P3 ℝ) :
    HasDirectional (fun x => fundamental k x y) (((sumMul (x.sub y) v : ℝ) : ℂ) * rad1 k (dist x y)) x v := by
  have hd : (dist x y : ℂ) ≠ 0 := by have := (dist_pos h).ne'; exact_mod_cast this
  have := radial_deriv h v (rad0_deriv k (dist x y : ℂ) hd)
  refine HasDerivAt.congr_deriv (f := fun τ => fundamental k (along x v τ) y) this ?_
  push_cast
  field_simp

/-- **C73 (double layer)** The double-layer kernels are the derivatives of the fundamental solution in the trial point in the
direction of the trial normal, the adjoint ones those in the test point in the direction of the test normal; each is the other
with the roles of the points exchanged. -/
theorem C73_double_layer (k : ℂ) (s t : Slice) (h : s.global ≠ t.global) :
    HasDirectional (fun y => fundamental k s.global y) (helmholtzDL k s t) t.global t.normal ∧
    HasDirectional (fun y => fundamental 0 s.global y) ((laplaceDL s t : ℝ) : ℂ) t.global t.normal ∧
    HasDirectional (fun x => fundamental k x t.global) (helmholtzADL k s t) s.global s.normal ∧
    HasDirectional (fun x => fundamental 0 x t.global) ((laplaceADL s t : ℝ) : ℂ) s.global s.normal ∧
    helmholtzADL k s t = helmholtzDL k t s ∧ laplaceADL s t = laplaceDL t s := by
  have key : ∀ k, HasDirectional (fun y => fundamental k s.global y) (helmholtzDL k s t) t.global t.normal := by
    intro k
    have := fundamental_deriv k (Ne.symm h) t.normal
    rw [dl_rad k s t h]
    have e : (fun y => fundamental k s.global y) = fun y => fundamental k y s.global := by
      funext y; exact fundamental_comm _ _ _
    rw [e]
    convert this using 1
    rw [dist_comm]
    congr 2
    simp only [sumMul, P3.sub]; ring
  have key2 : ∀ k, HasDirectional (fun x => fundamental k x t.global) (helmholtzADL k s t) s.global s.normal := by
    intro k
    rw [adl_rad k s t h]
    exact fundamental_deriv k h s.normal
  refine ⟨key k, ?_, key2 k, ?_, ?_, ?_⟩
  · rw [(laplace_zero s t h).2.1]; exact key 0
  · rw [(laplace_zero s t h).2.2.1]; exact key2 0
  · unfold helmholtzADL helmholtzDL; rfl
  · unfold laplaceADL laplaceDL; dsimp only; ring

theorem slice_ne {x y : P3 ℝ} (h : x ≠ y) (v : P3 ℝ) : ∀ᶠ τ in nhds (0 : ℝ), along x v τ ≠ y := by
  have hc := (dist_deriv h v).continuousAt
  have h0 : (fun τ => dist (along x v τ) y) 0 ≠ 0 := by
    simp only [along_zero]; exact (dist_pos h).ne'
  filter_upwards [hc.eventually_ne h0] with τ hτ h1
  apply hτ
  rw [h1]; simp [dist]

/-- **C73 (hypersingular)** The off-diagonal hypersingular kernels are minus the derivatives of the double-layer kernels in the
test point in the direction of the test normal, and symmetric. -/
theorem C73_hypersingular (k : ℂ) (s t : Slice) (h : s.global ≠ t.global) :
    HasDirectional (fun x => helmholtzDL k ⟨x, s.normal⟩ t) (-helmholtzHyp k s t) s.global s.normal ∧
    HasDirectional (fun x => ((laplaceDL ⟨x, s.normal⟩ t : ℝ) : ℂ)) (-((laplaceHyp s t : ℝ) : ℂ)) s.global s.normal ∧
    helmholtzHyp k s t = helmholtzHyp k t s ∧ laplaceHyp s t = laplaceHyp t s := by
  have hd := distC_ne s t h
  have key : ∀ k, HasDirectional (fun x => helmholtzDL k ⟨x, s.normal⟩ t) (-helmholtzHyp k s t) s.global s.normal := by
    intro k
    have hA := linear_deriv s.global t.global t.normal s.normal
    have hN : HasDirectional (fun x => ((-sumMul (x.sub t.global) t.normal : ℝ) : ℂ)) (-((sumMul s.normal t.normal : ℝ) : ℂ))
        s.global s.normal := by
      have := HasDerivAt.neg hA
      refine HasDerivAt.congr_of_eventuallyEq this (Filter.Eventually.of_forall fun τ => ?_)
      simp
    have hp := product_deriv h s.normal (rad1_deriv k _ hd) hN
    refine HasDerivAt.congr_of_eventuallyEq (HasDerivAt.congr_deriv hp ?_) ?_
    · rw [hyp_rad k s t h]
      push_cast
      field_simp
      ring
    · filter_upwards [slice_ne h s.normal] with τ hτ
      exact dl_rad k ⟨along s.global s.normal τ, s.normal⟩ t hτ
  refine ⟨key k, ?_, ?_, ?_⟩
  · rw [(laplace_zero s t h).2.2.2.1]
    refine HasDerivAt.congr_of_eventuallyEq (key 0) ?_
    filter_upwards [slice_ne h s.normal] with τ hτ
    exact (laplace_zero ⟨along s.global s.normal τ, s.normal⟩ t hτ).2.1
  · rw [hyp_rad k s t h, hyp_rad k t s (Ne.symm h), dist_comm]
    congr 3
    · simp only [sumMul]; ring
    · simp only [sumMul, P3.sub]; ring
  · unfold laplaceHyp
    dsimp only
    rw [sumSq_comm]
    congr 1
    simp only [sumMul, P3.sub]; ring

/-- **C73 (gradients)** The kernels of the gradients of the single-layer and double-layer potentials are the gradients of the
kernels in the test point, the Maxwell double-layer kernel is the gradient of the fundamental solution, and the two kernels of
the Maxwell single-layer potential are `k` times the fundamental solution and its gradient divided by `k`. -/
theorem C73_gradients (k : ℂ) (s t : Slice) (h : s.global ≠ t.global) :
    HasGradient (fun x => fundamental k x t.global) (maxwellDL k s t) s.global ∧
    (let g := laplaceSLGrad s t
     HasGradient (fun x => fundamental 0 x t.global) (((g.x : ℝ) : ℂ), ((g.y : ℝ) : ℂ), ((g.z : ℝ) : ℂ)) s.global) ∧
    (let g := laplaceDLGrad s t
     HasGradient (fun x => ((laplaceDL ⟨x, s.normal⟩ t : ℝ) : ℂ)) (((g.x : ℝ) : ℂ), ((g.y : ℝ) : ℂ), ((g.z : ℝ) : ℂ)) s.global) ∧
    (k ≠ 0 → (maxwellSLPot k s t).1 = k * fundamental k s.global t.global ∧
      HasGradient (fun x => fundamental k x t.global / k) (maxwellSLPot k s t).2 s.global) := by
  have hd := distC_ne s t h
  have hpi := pi_ne
  have key : ∀ k, HasGradient (fun x => fundamental k x t.global) (maxwellDL k s t) s.global := by
    intro k v
    have := fundamental_deriv k h v
    rw [maxwellDL_rad k s t h]
    refine HasDerivAt.congr_deriv this ?_
    simp only [sumMul, P3.sub]
    push_cast
    ring
  refine ⟨key k, ?_, ?_, ?_⟩
  · have := (laplace_zero s t h).2.2.2.2
    dsimp only at this ⊢
    rw [this]
    exact key 0
  · intro g v
    have hA := linear_deriv s.global t.global t.normal v
    have hN : HasDirectional (fun x => ((-sumMul (x.sub t.global) t.normal : ℝ) : ℂ)) (-((sumMul v t.normal : ℝ) : ℂ))
        s.global v := by
      have := HasDerivAt.neg hA
      refine HasDerivAt.congr_of_eventuallyEq this (Filter.Eventually.of_forall fun τ => ?_)
      simp
    have hp := product_deriv h v (rad1_deriv 0 _ hd) hN
    refine HasDerivAt.congr_of_eventuallyEq (HasDerivAt.congr_deriv hp ?_) ?_
    · simp only [g, laplaceDLGrad, rad1, rad2]
      rw [sqrt_sumSq]
      simp only [Complex.ofReal_mul, Complex.ofReal_div, Complex.ofReal_neg, Complex.ofReal_sub, Complex.ofReal_add, dist2]
      simp only [sumMul, P3.sub]
      push_cast
      simp only [zero_mul, neg_zero, Complex.exp_zero, add_zero]
      field_simp
      ring
    · filter_upwards [slice_ne h v] with τ hτ
      have := dl_rad 0 ⟨along s.global v τ, s.normal⟩ t hτ
      rw [← (laplace_zero ⟨along s.global v τ, s.normal⟩ t hτ).2.1] at this
      exact this
  · intro hk
    constructor
    · unfold maxwellSLPot fundamental
      dsimp only
      rw [sqrt_sumSq]
      push_cast
      rfl
    · have e : (maxwellSLPot k s t).2 = ((maxwellDL k s t).1 / k, (maxwellDL k s t).2.1 / k, (maxwellDL k s t).2.2 / k) := by
        rw [maxwellDL_rad k s t h]
        unfold maxwellSLPot rad1
        dsimp only
        rw [sqrt_sumSq]
        simp only [Complex.ofReal_mul, dist2]
        simp only [P3.sub, Prod.mk.injEq]
        push_cast
        refine ⟨?_, ?_, ?_⟩ <;> field_simp
      rw [e]
      intro v
      have := (key k v).div_const k
      refine HasDerivAt.congr_deriv this ?_
      ring

/-- **C73 (equation)** The fundamental solution satisfies `Δ u = k² u` away from the source: the derivatives of the components of
its gradient (the Maxwell double-layer kernel) in the coordinate directions add up to `k²` times the single-layer kernel. -/
theorem C73_equation (k : ℂ) (s t : Slice) (h : s.global ≠ t.global) :
    ∃ d1 d2 d3, HasDirectional (fun x => (maxwellDL k ⟨x, s.normal⟩ t).1) d1 s.global ⟨1, 0, 0⟩ ∧
      HasDirectional (fun x => (maxwellDL k ⟨x, s.normal⟩ t).2.1) d2 s.global ⟨0, 1, 0⟩ ∧
      HasDirectional (fun x => (maxwellDL k ⟨x, s.normal⟩ t).2.2) d3 s.global ⟨0, 0, 1⟩ ∧
      d1 + d2 + d3 = k ^ 2 * helmholtzSL k s t := by
  have hd := distC_ne s t h
  have hpi := pi_ne
  have key : ∀ v : P3 ℝ, HasDirectional (fun x => ((sumMul (x.sub t.global) v : ℝ) : ℂ) * rad1 k (dist x t.global))
      (((sumMul v v : ℝ) : ℂ) * rad1 k (dist s.global t.global) + ((sumMul (s.global.sub t.global) v : ℝ) : ℂ) ^ 2 *
        rad2 k (dist s.global t.global)) s.global v := by
    intro v
    refine HasDerivAt.congr_deriv (product_deriv h v (rad1_deriv k _ hd) (linear_deriv s.global t.global v v)) ?_
    push_cast
    field_simp
  refine ⟨_, _, _, HasDerivAt.congr_of_eventuallyEq (key ⟨1, 0, 0⟩) ?_, HasDerivAt.congr_of_eventuallyEq (key ⟨0, 1, 0⟩) ?_,
    HasDerivAt.congr_of_eventuallyEq (key ⟨0, 0, 1⟩) ?_, ?_⟩
  · filter_upwards [slice_ne h ⟨1, 0, 0⟩] with τ hτ
    rw [maxwellDL_rad k ⟨along s.global ⟨1, 0, 0⟩ τ, s.normal⟩ t hτ]
    simp [sumMul, P3.sub]
  · filter_upwards [slice_ne h ⟨0, 1, 0⟩] with τ hτ
    rw [maxwellDL_rad k ⟨along s.global ⟨0, 1, 0⟩ τ, s.normal⟩ t hτ]
    simp [sumMul, P3.sub]
  · filter_upwards [slice_ne h ⟨0, 0, 1⟩] with τ hτ
    rw [maxwellDL_rad k ⟨along s.global ⟨0, 0, 1⟩ τ, s.normal⟩ t hτ]
    simp [sumMul, P3.sub]
  · have hsq : (dist s.global t.global : ℂ) ^ 2 = ((s.global.x - t.global.x : ℝ) : ℂ) ^ 2 +
        ((s.global.y - t.global.y : ℝ) : ℂ) ^ 2 + ((s.global.z - t.global.z : ℝ) : ℂ) ^ 2 := by
      have := congrArg (fun r : ℝ => (r : ℂ)) (dist_sq s.global t.global)
      push_cast at this ⊢
      exact this
    rw [slC]
    have e : ∀ a b c : ℝ, sumMul (s.global.sub t.global) ⟨a, b, c⟩ =
      (s.global.x - t.global.x) * a + (s.global.y - t.global.y) * b + (s.global.z - t.global.z) * c := by
      intro a b c; simp [sumMul, P3.sub]
    rw [e, e, e]
    simp only [sumMul, mul_one, mul_zero, add_zero, zero_add, Complex.ofReal_one]
    have step : (((s.global.x - t.global.x : ℝ) : ℂ) ^ 2 + ((s.global.y - t.global.y : ℝ) : ℂ) ^ 2 +
        ((s.global.z - t.global.z : ℝ) : ℂ) ^ 2) * rad2 k (dist s.global t.global) + 3 * rad1 k (dist s.global t.global) =
        k ^ 2 * rad0 k (dist s.global t.global) := by
      rw [← hsq]
      unfold rad0 rad1 rad2
      field_simp
      ring
    rw [← step]
    ring

/-- **C73 (pairs of kernels)** The two kernels of the hypersingular operator are the fundamental solution and `k²` times it; those of
the Maxwell single-layer boundary operator are the fundamental solution times and divided by `k`. -/
theorem C73_pairs (k : ℂ) (s t : Slice) :
    helmholtzHypPair k s t = (fundamental k s.global t.global, k ^ 2 * fundamental k s.global t.global) ∧
    maxwellSL k s t = (k * fundamental k s.global t.global, fundamental k s.global t.global / k) := by
  have := (C73_single_layer k s t).1
  unfold helmholtzHypPair maxwellSL
  rw [this]
  dsimp only
  refine ⟨?_, ?_⟩ <;> simp only [Prod.mk.injEq, true_and, and_true] <;> ring

/-- **C73 (relative scale)** `estimateRelativeScale` is the factor by which the wave number changes the modulus of the kernel. -/
theorem C73_scale (k : ℂ) (s t : Slice) :
    ‖helmholtzSL k s t‖ = estimateRelativeScale k (dist s.global t.global) * ‖helmholtzSL 0 s t‖ := by
  rw [slC, slC]
  unfold rad0 estimateRelativeScale
  rw [norm_div, norm_div, Complex.norm_exp, Complex.norm_exp]
  simp
  ring

/-! ### Far field -/

section
open Filter Topology

/-- The point at distance `r` in direction `x`. -/
def far (x : P3 ℝ) (r : ℝ) : P3 ℝ := P3.mk (r * x.x) (r * x.y) (r * x.z)

variable (x y : P3 ℝ) (hx : sumMul x x = 1)
include hx

theorem far_sq (r : ℝ) : dist (far x r) y ^ 2 = r ^ 2 - 2 * r * sumMul x y + sumMul y y := by
  rw [dist_sq]
  simp only [far, sumMul] at *
  linear_combination r ^ 2 * hx

theorem far_ratio : Tendsto (fun r => dist (far x r) y / r) atTop (𝓝 1) := by
  have h1 : Tendsto (fun r : ℝ => 1 - 2 * sumMul x y * r⁻¹ + sumMul y y * (r⁻¹ * r⁻¹)) atTop (𝓝 (1 - 2 * sumMul x y * 0 + sumMul y y * (0 * 0))) :=
    ((tendsto_inv_atTop_zero.const_mul _).const_sub _).add ((tendsto_inv_atTop_zero.mul tendsto_inv_atTop_zero).const_mul _)
  have h2 := (Real.continuous_sqrt.tendsto _).comp h1
  simp only [mul_zero, sub_zero, add_zero, Real.sqrt_one] at h2
  refine h2.congr' ?_
  filter_upwards [eventually_gt_atTop 0] with r hr
  have h3 : dist (far x r) y = Real.sqrt (r ^ 2 - 2 * r * sumMul x y + sumMul y y) := by
    rw [← far_sq x y hx]; exact (Real.sqrt_sq (Real.sqrt_nonneg _)).symm
  rw [h3]
  have h4 : r ^ 2 - 2 * r * sumMul x y + sumMul y y = r ^ 2 * (1 - 2 * sumMul x y * r⁻¹ + sumMul y y * (r⁻¹ * r⁻¹)) := by
    field_simp
  rw [h4, Real.sqrt_mul (by positivity), Real.sqrt_sq hr.le]
  simp only [Function.comp]
  field_simp

theorem far_ratio' : Tendsto (fun r => r / dist (far x r) y) atTop (𝓝 1) := by
  have := (far_ratio x y hx).inv₀ one_ne_zero
  simpa using this

theorem far_pos : ∀ᶠ r in atTop, 0 < r ∧ 0 < dist (far x r) y := by
  have := (far_ratio x y hx).eventually (lt_mem_nhds (show (0 : ℝ) < 1 by norm_num))
  filter_upwards [this, eventually_gt_atTop 0] with r hr h0
  refine ⟨h0, ?_⟩
  by_contra h
  have : dist (far x r) y / r ≤ 0 := div_nonpos_of_nonpos_of_nonneg (not_lt.mp h) h0.le
  linarith

theorem far_diff : Tendsto (fun r => r - dist (far x r) y) atTop (𝓝 (sumMul x y)) := by
  have h1 : Tendsto (fun r : ℝ => (2 * sumMul x y - sumMul y y * r⁻¹) / (1 + dist (far x r) y / r)) atTop
      (𝓝 ((2 * sumMul x y - sumMul y y * 0) / (1 + 1))) :=
    ((tendsto_inv_atTop_zero.const_mul _).const_sub _).div ((far_ratio x y hx).const_add 1) (by norm_num)
  have e : (2 * sumMul x y - sumMul y y * 0) / (1 + 1) = sumMul x y := by ring
  rw [e] at h1
  refine h1.congr' ?_
  filter_upwards [far_pos x y hx] with r hr
  have h2 := far_sq x y hx r
  have h3 : 0 < r + dist (far x r) y := by linarith [hr.1, hr.2]
  have h4 := hr.1
  have h5 := hr.2
  generalize dist (far x r) y = ρ at *
  rw [div_eq_iff (by positivity)]
  field_simp
  linear_combination h2

/-- The common limit. -/
theorem far_exp (k : ℂ) : Tendsto (fun r : ℝ => Complex.exp (k * r) * Complex.exp (-k * dist (far x r) y)) atTop
    (𝓝 (Complex.exp (k * sumMul x y))) := by
  have h1 : Tendsto (fun r : ℝ => ((r - dist (far x r) y : ℝ) : ℂ)) atTop (𝓝 ((sumMul x y : ℝ) : ℂ)) :=
    (Complex.continuous_ofReal.tendsto _).comp (far_diff x y hx)
  have h2 := (Complex.continuous_exp.tendsto _).comp (h1.const_mul k)
  refine h2.congr fun r => ?_
  simp only [Function.comp]
  rw [← Complex.exp_add]
  congr 1
  push_cast
  ring

theorem far_rad0 (k : ℂ) : HasFarField k (fun p => rad0 k (dist p y)) (1 / (4 * Real.pi) * Complex.exp (k * sumMul x y)) x := by
  have h1 : Tendsto (fun r : ℝ => ((r / dist (far x r) y : ℝ) : ℂ)) atTop (𝓝 ((1 : ℝ) : ℂ)) :=
    (Complex.continuous_ofReal.tendsto _).comp (far_ratio' x y hx)
  have h2 := (h1.mul (far_exp x y hx k)).const_mul (1 / (4 * (Real.pi : ℂ)))
  have e : 1 / (4 * (Real.pi : ℂ)) * (((1 : ℝ) : ℂ) * Complex.exp (k * sumMul x y)) =
      1 / (4 * Real.pi) * Complex.exp (k * sumMul x y) := by push_cast; ring
  rw [e] at h2
  refine h2.congr' ?_
  filter_upwards [far_pos x y hx] with r hr
  have h3 : (dist (far x r) y : ℂ) ≠ 0 := by have := hr.2.ne'; exact_mod_cast this
  have := pi_ne
  change _ = (r : ℂ) * Complex.exp (k * r) * rad0 k (dist (far x r) y)
  unfold rad0
  push_cast
  field_simp

theorem far_rad1 (k : ℂ) (n : P3 ℝ) : HasFarField k (fun p => ((sumMul (p.sub y) n : ℝ) : ℂ) * rad1 k (dist p y))
    (-(1 / (4 * Real.pi)) * k * (sumMul x n : ℝ) * Complex.exp (k * sumMul x y)) x := by
  have h1 : Tendsto (fun r : ℝ => ((r / dist (far x r) y : ℝ) : ℂ)) atTop (𝓝 ((1 : ℝ) : ℂ)) :=
    (Complex.continuous_ofReal.tendsto _).comp (far_ratio' x y hx)
  have h2 : Tendsto (fun r : ℝ => ((r / dist (far x r) y * (sumMul x n - sumMul y n * r⁻¹) : ℝ) : ℂ)) atTop
      (𝓝 ((1 * (sumMul x n - sumMul y n * 0) : ℝ) : ℂ)) :=
    (Complex.continuous_ofReal.tendsto _).comp
      ((far_ratio' x y hx).mul ((tendsto_inv_atTop_zero.const_mul _).const_sub _))
  have h3 : Tendsto (fun r : ℝ => ((r / dist (far x r) y * r⁻¹ : ℝ) : ℂ) + k) atTop (𝓝 (((1 * 0 : ℝ) : ℂ) + k)) :=
    ((Complex.continuous_ofReal.tendsto _).comp ((far_ratio' x y hx).mul tendsto_inv_atTop_zero)).add_const k
  have h4 := (((h1.mul h2).mul h3).mul (far_exp x y hx k)).const_mul (-(1 / (4 * (Real.pi : ℂ))))
  have e : -(1 / (4 * (Real.pi : ℂ))) * (((1 : ℝ) : ℂ) * ((1 * (sumMul x n - sumMul y n * 0) : ℝ) : ℂ) * (((1 * 0 : ℝ) : ℂ) + k) *
      Complex.exp (k * sumMul x y)) = -(1 / (4 * Real.pi)) * k * (sumMul x n : ℝ) * Complex.exp (k * sumMul x y) := by
    push_cast; ring
  rw [e] at h4
  refine h4.congr' ?_
  filter_upwards [far_pos x y hx] with r hr
  have h5 : (dist (far x r) y : ℂ) ≠ 0 := by have := hr.2.ne'; exact_mod_cast this
  have h6 : (r : ℂ) ≠ 0 := by have := hr.1.ne'; exact_mod_cast this
  have := pi_ne
  change _ = (r : ℂ) * Complex.exp (k * r) * (((sumMul ((far x r).sub y) n : ℝ) : ℂ) * rad1 k (dist (far x r) y))
  have e2 : sumMul ((far x r).sub y) n = r * sumMul x n - sumMul y n := by
    simp only [sumMul, far, P3.sub]; ring
  rw [e2]
  unfold rad1
  push_cast
  field_simp

theorem HasFarField.congr' {k : ℂ} {F G : P3 ℝ → ℂ} {L : ℂ} (h : HasFarField k F L x)
    (he : ∀ p, p ≠ y → F p = G p) : HasFarField k G L x := by
  unfold HasFarField at *
  refine Tendsto.congr' ?_ h
  filter_upwards [far_pos x y hx] with r hr
  rw [he]
  intro h2
  have : dist (far x r) y = 0 := by
    unfold far; rw [h2]; simp [dist]
  linarith [hr.2]

end

/-- **C73 (far field)** For a unit vector `x`, the far-field kernels are the far-field patterns in direction `x` of the kernels of
the potentials: single layer, double layer, Maxwell double layer (componentwise) and the two kernels of the Maxwell single
layer. -/
theorem C73_far_field (k : ℂ) (s t : Slice) (hx : s.global.x ^ 2 + s.global.y ^ 2 + s.global.z ^ 2 = 1) (n : P3 ℝ) :
    HasFarField k (fun p => helmholtzSL k ⟨p, n⟩ t) (farSL k s t) s.global ∧
    HasFarField k (fun p => helmholtzDL k ⟨p, n⟩ t) (farDL k s t) s.global ∧
    HasFarField k (fun p => (maxwellDL k ⟨p, n⟩ t).1) (maxwellFarDL k s t).1 s.global ∧
    HasFarField k (fun p => (maxwellDL k ⟨p, n⟩ t).2.1) (maxwellFarDL k s t).2.1 s.global ∧
    HasFarField k (fun p => (maxwellDL k ⟨p, n⟩ t).2.2) (maxwellFarDL k s t).2.2 s.global ∧
    (k ≠ 0 →
      HasFarField k (fun p => (maxwellSLPot k ⟨p, n⟩ t).1) (maxwellFarSL k s t).1 s.global ∧
      HasFarField k (fun p => (maxwellSLPot k ⟨p, n⟩ t).2.1) (maxwellFarSL k s t).2.1 s.global ∧
      HasFarField k (fun p => (maxwellSLPot k ⟨p, n⟩ t).2.2.1) (maxwellFarSL k s t).2.2.1 s.global ∧
      HasFarField k (fun p => (maxwellSLPot k ⟨p, n⟩ t).2.2.2) (maxwellFarSL k s t).2.2.2 s.global) := by
  have hu : sumMul s.global s.global = 1 := by simp only [sumMul]; linarith
  have hpi := pi_ne
  have key := far_rad1 s.global t.global hu k
  have k0 := far_rad0 s.global t.global hu k
  have ex : ∀ a b c : ℝ, sumMul s.global ⟨a, b, c⟩ = s.global.x * a + s.global.y * b + s.global.z * c := by
    intro a b c; simp [sumMul]
  have exy : ∀ (p : P3 ℝ) (a b c : ℝ), sumMul (p.sub t.global) ⟨a, b, c⟩ =
      (p.x - t.global.x) * a + (p.y - t.global.y) * b + (p.z - t.global.z) * c := by
    intro p a b c; simp [sumMul, P3.sub]
  have hpot : ∀ p, p ≠ t.global → k ≠ 0 → maxwellSLPot k ⟨p, n⟩ t = (k * rad0 k (dist p t.global),
      (maxwellDL k ⟨p, n⟩ t).1 / k, (maxwellDL k ⟨p, n⟩ t).2.1 / k, (maxwellDL k ⟨p, n⟩ t).2.2 / k) := by
    intro p hp hk
    have hd := distC_ne ⟨p, n⟩ t hp
    rw [maxwellDL_rad k ⟨p, n⟩ t hp]
    unfold maxwellSLPot rad1 rad0
    dsimp only at hd ⊢
    rw [sqrt_sumSq]
    simp only [Complex.ofReal_mul, dist2]
    simp only [P3.sub, Prod.mk.injEq]
    push_cast
    refine ⟨by field_simp, ?_, ?_, ?_⟩ <;> field_simp
  have kx := key ⟨1, 0, 0⟩
  have ky := key ⟨0, 1, 0⟩
  have kz := key ⟨0, 0, 1⟩
  rw [ex] at kx ky kz
  have scale : ∀ {F : P3 ℝ → ℂ} {L : ℂ} (c : ℂ), HasFarField k F L s.global → HasFarField k (fun p => c * F p) (c * L) s.global := by
    intro F L c h
    refine (Filter.Tendsto.const_mul c h).congr fun r => ?_
    ring
  have dx : HasFarField k (fun p => (maxwellDL k ⟨p, n⟩ t).1) (maxwellFarDL k s t).1 s.global := by
    have e : (maxwellFarDL k s t).1 = -(1 / (4 * (Real.pi : ℂ))) * k *
        ((s.global.x * 1 + s.global.y * 0 + s.global.z * 0 : ℝ) : ℂ) * Complex.exp (k * sumMul s.global t.global) := by
      unfold maxwellFarDL; push_cast; ring
    rw [e]
    refine HasFarField.congr' s.global t.global hu kx fun p hp => ?_
    rw [maxwellDL_rad k ⟨p, n⟩ t hp, exy]
    simp
  have dy : HasFarField k (fun p => (maxwellDL k ⟨p, n⟩ t).2.1) (maxwellFarDL k s t).2.1 s.global := by
    have e : (maxwellFarDL k s t).2.1 = -(1 / (4 * (Real.pi : ℂ))) * k *
        ((s.global.x * 0 + s.global.y * 1 + s.global.z * 0 : ℝ) : ℂ) * Complex.exp (k * sumMul s.global t.global) := by
      unfold maxwellFarDL; push_cast; ring
    rw [e]
    refine HasFarField.congr' s.global t.global hu ky fun p hp => ?_
    rw [maxwellDL_rad k ⟨p, n⟩ t hp, exy]
    simp
  have dz : HasFarField k (fun p => (maxwellDL k ⟨p, n⟩ t).2.2) (maxwellFarDL k s t).2.2 s.global := by
    have e : (maxwellFarDL k s t).2.2 = -(1 / (4 * (Real.pi : ℂ))) * k *
        ((s.global.x * 0 + s.global.y * 0 + s.global.z * 1 : ℝ) : ℂ) * Complex.exp (k * sumMul s.global t.global) := by
      unfold maxwellFarDL; push_cast; ring
    rw [e]
    refine HasFarField.congr' s.global t.global hu kz fun p hp => ?_
    rw [maxwellDL_rad k ⟨p, n⟩ t hp, exy]
    simp
  refine ⟨?_, ?_, dx, dy, dz, fun hk => ⟨?_, ?_, ?_, ?_⟩⟩
  · have e : farSL k s t = 1 / (4 * Real.pi) * Complex.exp (k * sumMul s.global t.global) := by
      unfold farSL; push_cast; ring
    rw [e]
    exact HasFarField.congr' s.global t.global hu k0 fun p hp => (slC k ⟨p, n⟩ t).symm
  · have e : farDL k s t = -1 * (-(1 / (4 * (Real.pi : ℂ))) * k * ((sumMul s.global t.normal : ℝ) : ℂ) *
        Complex.exp (k * sumMul s.global t.global)) := by
      unfold farDL; push_cast; ring
    rw [e]
    refine HasFarField.congr' s.global t.global hu (scale (-1) (key t.normal)) fun p hp => ?_
    rw [dl_rad k ⟨p, n⟩ t hp]
    push_cast
    ring
  · have e : (maxwellFarSL k s t).1 = k * (1 / (4 * Real.pi) * Complex.exp (k * sumMul s.global t.global)) := by
      unfold maxwellFarSL; push_cast; ring
    rw [e]
    exact HasFarField.congr' s.global t.global hu (scale k k0) fun p hp => by rw [hpot p hp hk]
  · have e : (maxwellFarSL k s t).2.1 = k⁻¹ * (maxwellFarDL k s t).1 := by
      unfold maxwellFarSL maxwellFarDL; push_cast; field_simp
    rw [e]
    exact HasFarField.congr' s.global t.global hu (scale k⁻¹ dx) fun p hp => by rw [hpot p hp hk]; ring
  · have e : (maxwellFarSL k s t).2.2.1 = k⁻¹ * (maxwellFarDL k s t).2.1 := by
      unfold maxwellFarSL maxwellFarDL; push_cast; field_simp
    rw [e]
    exact HasFarField.congr' s.global t.global hu (scale k⁻¹ dy) fun p hp => by rw [hpot p hp hk]; ring
  · have e : (maxwellFarSL k s t).2.2.2 = k⁻¹ * (maxwellFarDL k s t).2.2 := by
      unfold maxwellFarSL maxwellFarDL; push_cast; field_simp
    rw [e]
    exact HasFarField.congr' s.global t.global hu (scale k⁻¹ dz) fun p hp => by rw [hpot p hp hk]; ring

/-- **C73 (declarations)** Every kernel functor writes as many kernels, with as many rows, as it declares, and reads normals only if it
asks for them. -/
theorem C73_declarations (k : ℂ) (F : Functor) (hF : F ∈ functors k) (s s' t t' : Slice) :
    ((F.evaluate s t).length = F.kernelCount ∧
      ∀ (i : Nat) (rows : List ℂ), (F.evaluate s t)[i]? = some rows → rows.length = F.kernelRowCount i) ∧
    (s.global = s'.global → t.global = t'.global → (F.testNormals = true → s.normal = s'.normal) →
      (F.trialNormals = true → t.normal = t'.normal) → F.evaluate s t = F.evaluate s' t') := by
  obtain ⟨sg, sn⟩ := s
  obtain ⟨sg', sn'⟩ := s'
  obtain ⟨tg, tn⟩ := t
  obtain ⟨tg', tn'⟩ := t'
  simp only [functors, List.mem_cons, List.not_mem_nil, or_false] at hF
  constructor
  · rcases hF with rfl | rfl | rfl | rfl | rfl | rfl | rfl | rfl | rfl | rfl | rfl | rfl | rfl | rfl | rfl | rfl | rfl | rfl <;>
    · refine ⟨rfl, ?_⟩
      intro i rows h
      match i with
      | 0 => cases h; rfl
      | 1 => first | cases h; rfl | exact absurd h (by simp [laplaceSLFunctor, laplaceDLFunctor, laplaceADLFunctor, laplaceHypFunctor, laplaceSLGradFunctor,
          laplaceDLGradFunctor, helmholtzSLFunctor, helmholtzDLFunctor, helmholtzADLFunctor, helmholtzHypFunctor, farSLFunctor,
          farDLFunctor, maxwellDLFunctor, maxwellFarDLFunctor])
      | i + 2 => exact absurd h (by simp [laplaceSLFunctor, laplaceDLFunctor, laplaceADLFunctor, laplaceHypFunctor, laplaceSLGradFunctor,
          laplaceDLGradFunctor, helmholtzSLFunctor, helmholtzDLFunctor, helmholtzADLFunctor, helmholtzHypFunctor, farSLFunctor,
          farDLFunctor, maxwellDLFunctor, maxwellFarDLFunctor, helmholtzHypPairFunctor, maxwellSLFunctor, maxwellSLPotFunctor,
          maxwellFarSLFunctor])
  · intro h1 h2 h3 h4
    simp only at h1 h2 h3 h4
    subst h1 h2
    rcases hF with rfl | rfl | rfl | rfl | rfl | rfl | rfl | rfl | rfl | rfl | rfl | rfl | rfl | rfl | rfl | rfl | rfl | rfl
    · rfl
    · cases h4 rfl; rfl
    · cases h3 rfl; rfl
    · cases h3 rfl; cases h4 rfl; rfl
    · rfl
    · cases h4 rfl; rfl
    · rfl
    · cases h4 rfl; rfl
    · cases h3 rfl; rfl
    · cases h3 rfl; cases h4 rfl; rfl
    · rfl
    · rfl
    · cases h4 rfl; rfl
    · rfl
    · rfl
    · rfl
    · rfl
    · rfl

/-- **Defect** `laplace_3d_double_layer_gradient_potential_kernel_functor.hpp:66` asserts that `result` has three kernels, but the
functor declares one and writes one; every other assertion agrees with the declaration. -/
theorem C73_counterexample_assertion :
    laplaceDLGradFunctor.assertedSize ≠ some laplaceDLGradFunctor.kernelCount ∧
    ∀ k, ∀ F ∈ functors k, F = laplaceDLGradFunctor ∨ F.assertedSize = none ∨ F.assertedSize = some F.kernelCount := by
  refine ⟨by simp [laplaceDLGradFunctor], ?_⟩
  intro k F hF
  simp only [functors, List.mem_cons, List.not_mem_nil, or_false] at hF
  rcases hF with rfl | rfl | rfl | rfl | rfl | rfl | rfl | rfl | rfl | rfl | rfl | rfl | rfl | rfl | rfl | rfl | rfl | rfl <;>
    first | exact Or.inl rfl | exact Or.inr (Or.inl rfl) | exact Or.inr (Or.inr rfl)

/-- Non-vacuity of C73: two points at distance 3, the first a unit vector. -/
example : (⟨⟨1, 0, 0⟩, ⟨0, 1, 0⟩⟩ : Slice).global ≠ (⟨⟨-1, 2, 1⟩, ⟨0, 0, 1⟩⟩ : Slice).global ∧
    dist ⟨1, 0, 0⟩ ⟨-1, 2, 1⟩ = 3 ∧ ((1 : ℝ) ^ 2 + 0 ^ 2 + 0 ^ 2 = 1) := by
  refine ⟨by simp [P3.mk.injEq], ?_, by norm_num⟩
  unfold dist
  rw [show ((1 : ℝ) - -1) ^ 2 + (0 - 2) ^ 2 + (0 - 1) ^ 2 = 3 ^ 2 by norm_num]
  exact Real.sqrt_sq (by norm_num)

end Verif.Kernel
