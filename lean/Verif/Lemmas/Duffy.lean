import Verif.Model.Duffy
import Mathlib.MeasureTheory.Function.Jacobian
import Mathlib.MeasureTheory.Integral.Bochner.Set
import Mathlib.MeasureTheory.Constructions.Pi
import Mathlib.MeasureTheory.Measure.Lebesgue.EqHaar
import Mathlib.Analysis.Calculus.FDeriv.Mul
import Mathlib.Analysis.Calculus.FDeriv.Add
import Mathlib.LinearAlgebra.Matrix.ToLin
import Mathlib.Topology.Algebra.Module.Determinant
/-
Lemmas for the singular quadrature rules: polynomial maps, their Jacobians, and tilings by them.
-/
namespace Verif.Quad
open MeasureTheory Set

/-- Points of the four-dimensional domain of integration: two coordinates for each element. -/
abbrev P4 := Fin 4 → ℝ

/-- Polynomial expressions in four variables, used to differentiate the maps of the model. -/
inductive Ex where
  | zero
  | one
  | var (i : Fin 4)
  | add (a b : Ex)
  | sub (a b : Ex)
  | mul (a b : Ex)

namespace Ex
instance : One Ex := ⟨.one⟩
instance : Add Ex := ⟨.add⟩
instance : Sub Ex := ⟨.sub⟩
instance : Mul Ex := ⟨.mul⟩

/-- Value. -/
def eval (z : P4) : Ex → ℝ
  | .zero => 0
  | .one => 1
  | .var i => z i
  | .add a b => a.eval z + b.eval z
  | .sub a b => a.eval z - b.eval z
  | .mul a b => a.eval z * b.eval z

/-- Partial derivative. -/
def d (z : P4) (j : Fin 4) : Ex → ℝ
  | .zero => 0
  | .one => 0
  | .var i => if i = j then 1 else 0
  | .add a b => a.d z j + b.d z j
  | .sub a b => a.d z j - b.d z j
  | .mul a b => a.eval z * b.d z j + b.eval z * a.d z j

theorem eval_one (z : P4) : (1 : Ex).eval z = 1 := rfl
theorem eval_var (z : P4) (i : Fin 4) : (Ex.var i).eval z = z i := rfl
theorem eval_add (z : P4) (a b : Ex) : (a + b).eval z = a.eval z + b.eval z := rfl
theorem eval_sub (z : P4) (a b : Ex) : (a - b).eval z = a.eval z - b.eval z := rfl
theorem eval_mul (z : P4) (a b : Ex) : (a * b).eval z = a.eval z * b.eval z := rfl
theorem d_one (z : P4) (j : Fin 4) : (1 : Ex).d z j = 0 := rfl
theorem d_var (z : P4) (i j : Fin 4) : (Ex.var i).d z j = if i = j then 1 else 0 := rfl
theorem d_add (z : P4) (j : Fin 4) (a b : Ex) : (a + b).d z j = a.d z j + b.d z j := rfl
theorem d_sub (z : P4) (j : Fin 4) (a b : Ex) : (a - b).d z j = a.d z j - b.d z j := rfl
theorem d_mul (z : P4) (j : Fin 4) (a b : Ex) : (a * b).d z j = a.eval z * b.d z j + b.eval z * a.d z j := rfl

/-- The differential. -/
noncomputable def D (e : Ex) (z : P4) : P4 →L[ℝ] ℝ := ∑ j : Fin 4, e.d z j • ContinuousLinearMap.proj (R := ℝ) j

theorem hasFDerivAt (e : Ex) (z : P4) : HasFDerivAt (fun z => e.eval z) (e.D z) z := by
  induction e with
  | zero => simpa [D, d, eval] using hasFDerivAt_const (0 : ℝ) z
  | one => simpa [D, d, eval] using hasFDerivAt_const (1 : ℝ) z
  | var i =>
    have h : (Ex.var i).D z = ContinuousLinearMap.proj (R := ℝ) i := by
      ext v; simp [D, d]
    rw [h]
    exact (ContinuousLinearMap.proj (R := ℝ) (φ := fun _ : Fin 4 => ℝ) i).hasFDerivAt
  | add a b iha ihb =>
    have h : (Ex.add a b).D z = a.D z + b.D z := by simp [D, d, add_smul, Finset.sum_add_distrib]
    rw [h]; exact iha.add ihb
  | sub a b iha ihb =>
    have h : (Ex.sub a b).D z = a.D z - b.D z := by
      ext v; simp [D, d, sub_mul, Finset.sum_sub_distrib]
    rw [h]; exact iha.sub ihb
  | mul a b iha ihb =>
    have h : (Ex.mul a b).D z = a.eval z • b.D z + b.eval z • a.D z := by
      simp only [D, d, add_smul, Finset.sum_add_distrib, Finset.smul_sum, smul_smul]
    rw [h]; exact iha.mul ihb

end Ex

/-- A polynomial map. -/
def polyMap (T : Fin 4 → Ex) (z : P4) : P4 := fun i => (T i).eval z

/-- Its Jacobian matrix. -/
def jac (T : Fin 4 → Ex) (z : P4) : Matrix (Fin 4) (Fin 4) ℝ := fun i j => (T i).d z j

theorem polyMap_hasFDerivAt (T : Fin 4 → Ex) (z : P4) :
    HasFDerivAt (polyMap T) (LinearMap.toContinuousLinearMap (Matrix.toLin' (jac T z))) z := by
  rw [hasFDerivAt_pi']
  intro i
  have h : (ContinuousLinearMap.proj (R := ℝ) (φ := fun _ : Fin 4 => ℝ) i).comp
      (LinearMap.toContinuousLinearMap (Matrix.toLin' (jac T z))) = (T i).D z := by
    ext v
    simp [Ex.D, jac, Matrix.mulVec, dotProduct]
  rw [h]
  exact (T i).hasFDerivAt z

theorem det_jac (T : Fin 4 → Ex) (z : P4) :
    (LinearMap.toContinuousLinearMap (Matrix.toLin' (jac T z))).det = (jac T z).det := by
  rw [ContinuousLinearMap.det, LinearMap.coe_toContinuousLinearMap, LinearMap.det_toLin']

theorem polyMap_continuous (T : Fin 4 → Ex) : Continuous (polyMap T) :=
  continuous_iff_continuousAt.mpr fun z => (polyMap_hasFDerivAt T z).continuousAt

/-- The open unit cube, the domain of the basic rules. -/
def cube : Set P4 := {z | ∀ i, 0 < z i ∧ z i < 1}

theorem isOpen_cube : IsOpen cube := by
  have : cube = Set.pi univ fun _ : Fin 4 => Ioo (0 : ℝ) 1 := by
    ext z; simp [cube]
  rw [this]
  exact isOpen_set_pi finite_univ fun _ _ => isOpen_Ioo

theorem measurable_cube : MeasurableSet cube := isOpen_cube.measurableSet

/-- A proper linear subspace given by one equation is a null set. -/
theorem null_hyperplane (a : P4) (ha : ∃ i, a i ≠ 0) : volume {z : P4 | ∑ i, a i * z i = 0} = 0 := by
  let l : P4 →ₗ[ℝ] ℝ := ∑ i, a i • LinearMap.proj i
  have hl : ∀ z, l z = ∑ i, a i * z i := by intro z; simp [l]
  have hs : {z : P4 | ∑ i, a i * z i = 0} = (LinearMap.ker l : Set P4) := by
    ext z; simp [hl]
  rw [hs]
  apply Measure.addHaar_submodule
  intro htop
  obtain ⟨i, hi⟩ := ha
  have : Pi.single i (1 : ℝ) ∈ LinearMap.ker l := by rw [htop]; trivial
  rw [LinearMap.mem_ker, hl] at this
  simp [Pi.single_apply] at this
  exact hi this

/-- **Tiling lemma.**  If finitely many polynomial maps send the cube bijectively to disjoint subsets of `S` that
exhaust `S` up to a null set, and `w r` is the modulus of the Jacobian determinant of map `r`, then integrals over `S`
are sums of integrals over the cube. -/
theorem integral_tiling {E : Type} [NormedAddCommGroup E] [NormedSpace ℝ E] {n : Nat} (T : Fin n → Fin 4 → Ex)
    (w : Fin n → P4 → ℝ) (R : Fin n → Set P4) (S : Set P4)
    (hdet : ∀ r, ∀ z ∈ cube, |(jac (T r) z).det| = w r z)
    (hbij : ∀ r, BijOn (polyMap (T r)) cube (R r))
    (hdisj : Pairwise (Function.onFun Disjoint R))
    (hsub : ∀ r, R r ⊆ S) (hnull : volume (S \ ⋃ r, R r) = 0) (f : P4 → E) (hf : IntegrableOn f S) :
    (∀ r, IntegrableOn (fun z => w r z • f (polyMap (T r) z)) cube) ∧
      ∫ p in S, f p = ∑ r, ∫ z in cube, w r z • f (polyMap (T r) z) := by
  have hd : ∀ r, ∀ z ∈ cube, HasFDerivWithinAt (polyMap (T r))
      (LinearMap.toContinuousLinearMap (Matrix.toLin' (jac (T r) z))) cube z :=
    fun r z _ => (polyMap_hasFDerivAt (T r) z).hasFDerivWithinAt
  have himg : ∀ r, polyMap (T r) '' cube = R r := fun r => (hbij r).image_eq
  have hmeas : ∀ r, MeasurableSet (R r) := by
    intro r
    rw [← himg r]
    exact measurable_cube.image_of_continuousOn_injOn (polyMap_continuous _).continuousOn (hbij r).injOn
  have hfR : ∀ r, IntegrableOn f (R r) := fun r => hf.mono_set (hsub r)
  have hw : ∀ r, EqOn (fun z => |(LinearMap.toContinuousLinearMap (Matrix.toLin' (jac (T r) z))).det| •
      f (polyMap (T r) z)) (fun z => w r z • f (polyMap (T r) z)) cube := by
    intro r z hz
    simp only [det_jac]
    rw [hdet r z hz]
  constructor
  · intro r
    have := (integrableOn_image_iff_integrableOn_abs_det_fderiv_smul volume measurable_cube (hd r) (hbij r).injOn f).mp
      (by rw [himg r]; exact hfR r)
    exact this.congr_fun (hw r) measurable_cube
  · have hae : (⋃ r, R r) =ᵐ[volume] S := by
      apply Filter.EventuallyLE.antisymm
      · exact (iUnion_subset hsub).eventuallyLE
      · exact ae_le_set.mpr hnull
    rw [← setIntegral_congr_set hae, integral_iUnion_fintype hmeas hdisj hfR]
    refine Finset.sum_congr rfl fun r _ => ?_
    rw [← himg r, integral_image_eq_integral_abs_det_fderiv_smul volume measurable_cube (hd r) (hbij r).injOn f]
    exact setIntegral_congr_fun measurable_cube (hw r)

/-- The converse for integrability. -/
theorem integrable_tiling {E : Type} [NormedAddCommGroup E] [NormedSpace ℝ E] {n : Nat} (T : Fin n → Fin 4 → Ex)
    (w : Fin n → P4 → ℝ) (R : Fin n → Set P4) (S : Set P4)
    (hdet : ∀ r, ∀ z ∈ cube, |(jac (T r) z).det| = w r z)
    (hbij : ∀ r, BijOn (polyMap (T r)) cube (R r))
    (hsub : ∀ r, R r ⊆ S) (hnull : volume (S \ ⋃ r, R r) = 0) (f : P4 → E)
    (hf : ∀ r, IntegrableOn (fun z => w r z • f (polyMap (T r) z)) cube) : IntegrableOn f S := by
  have hR : ∀ r, IntegrableOn f (R r) := by
    intro r
    rw [← (hbij r).image_eq]
    refine (integrableOn_image_iff_integrableOn_abs_det_fderiv_smul volume measurable_cube
      (fun z _ => (polyMap_hasFDerivAt (T r) z).hasFDerivWithinAt) (hbij r).injOn f).mpr ?_
    refine (hf r).congr_fun (fun z hz => ?_) measurable_cube
    simp only [det_jac]
    rw [hdet r z hz]
  have hU : IntegrableOn f (⋃ r, R r) := integrableOn_finite_iUnion.mpr hR
  have hae : (⋃ r, R r) =ᵐ[volume] S := by
    apply Filter.EventuallyLE.antisymm
    · exact (iUnion_subset hsub).eventuallyLE
    · exact ae_le_set.mpr hnull
  exact hU.congr_set_ae hae.symm

end Verif.Quad
