import Verif.Lemmas.BoundaryEntries
import Verif.Lemmas.PotentialOperators
import Verif.Spec.BoundaryOperators
/-
The integrands of boundary integral operators are the documented bilinear forms.
-/
namespace Verif.Bio
open Verif.Grid Verif.Space Verif.Shape Verif.SingleQuad Verif.HMat Verif.LocalOps Verif.GridFun Verif.Kernel Verif.Pot Verif.Integral Verif.Integrator
open Finset

/-! ### The integrands -/

theorem integrand_scalar (F : Kernel.Functor) (hc : F.kernelCount = 1) (r blas : Bool) (d d' : Data) (b b' : BasisAt) :
    BoundaryOperator.integrand ⟨F, r, [scalarValueT], [scalarValueT], chooseIntegral blas 1⟩ d d' b b' =
      kernelValues F (sliceOf d) (sliceOf d') 0 0 * (star ((b.v0 : ℝ) : ℂ) * ((b'.v0 : ℝ) : ℂ)) := by
  cases blas with
  | true =>
    simp [BoundaryOperator.integrand, chooseIntegral, kernelFor, hc, transformed, scalarValueT]
  | false =>
    simp [BoundaryOperator.integrand, chooseIntegral, simple, transformed, scalarValueT]
    ring

/-- The scalar product of two vectors with complex values. -/
noncomputable def dot3 (v w : P3 ℝ) : ℂ :=
  star ((v.x : ℝ) : ℂ) * ((w.x : ℝ) : ℂ) + star ((v.y : ℝ) : ℂ) * ((w.y : ℝ) : ℂ) + star ((v.z : ℝ) : ℂ) * ((w.z : ℝ) : ℂ)

theorem integrand_curl (F : Kernel.Functor) (hc : F.kernelCount = 1) (r blas : Bool) (d d' : Data) (b b' : BasisAt) :
    BoundaryOperator.integrand ⟨F, r, [surfaceCurlT], [surfaceCurlT], chooseIntegral blas 3⟩ d d' b b' =
      kernelValues F (sliceOf d) (sliceOf d') 0 0 * dot3 (surfaceCurl b d.geom) (surfaceCurl b' d'.geom) := by
  cases blas with
  | true =>
    simp only [BoundaryOperator.integrand, chooseIntegral, kernelFor, hc, transformed, surfaceCurlT, List.length_singleton, if_true,
      Finset.sum_range_one, List.map_cons, List.map_nil, List.getD_cons_zero, Finset.sum_range_succ, Finset.sum_range_zero, comp]
    unfold dot3
    norm_num
  | false =>
    simp only [BoundaryOperator.integrand, chooseIntegral, simple, transformed, surfaceCurlT, List.range, List.range.loop, List.foldl,
      List.map_cons, List.map_nil, List.getD_cons_zero, comp, Bool.false_eq_true, if_false]
    unfold dot3
    norm_num
    ring

theorem integrand_hypersingular (r blas : Bool) (k : ℂ) (d d' : Data) (b b' : BasisAt) :
    (modifiedHelmholtzHypersingular r blas k).integrand d d' b b' =
      kernelValues (helmholtzHypPairFunctor k) (sliceOf d) (sliceOf d') 0 0 * dot3 (surfaceCurl b d.geom) (surfaceCurl b' d'.geom) +
      kernelValues (helmholtzHypPairFunctor k) (sliceOf d) (sliceOf d') 1 0 * ((d.geom.normal.dot d'.geom.normal : ℝ) : ℂ) *
        (star ((b.v0 : ℝ) : ℂ) * ((b'.v0 : ℝ) : ℂ)) := by
  cases blas with
  | true =>
    have hc : (helmholtzHypPairFunctor k).kernelCount = 2 := rfl
    simp only [BoundaryOperator.integrand, modifiedHelmholtzHypersingular, kernelFor, hc, transformed, surfaceCurlT, valueTimesNormalT,
      List.length_cons, List.length_nil, if_true, List.map_cons, List.map_nil, List.getD_cons_zero, List.getD_cons_succ,
      Finset.sum_range_succ, Finset.sum_range_zero, comp, valueTimesNormal]
    unfold dot3 P3.dot
    norm_num
    ring
  | false =>
    simp only [BoundaryOperator.integrand, modifiedHelmholtzHypersingular, hypersingularFunctor, transformed, surfaceCurlT, scalarValueT,
      List.range, List.range.loop, List.foldl,
      List.map_cons, List.map_nil, List.getD_cons_zero, List.getD_cons_succ, comp, Bool.false_eq_true, if_false]
    unfold dot3 P3.dot
    norm_num
    ring

theorem integrand_electric (k : ℂ) (d d' : Data) (b b' : BasisAt) :
    (maxwellElectric k).integrand d d' b b' =
      kernelValues (maxwellSLFunctor (k / Complex.I)) (sliceOf d) (sliceOf d') 0 0 * dot3 (hdivValue b d.geom) (hdivValue b' d'.geom) +
      kernelValues (maxwellSLFunctor (k / Complex.I)) (sliceOf d) (sliceOf d') 1 0 *
        (star ((surfaceDiv b d.geom : ℝ) : ℂ) * ((surfaceDiv b' d'.geom : ℝ) : ℂ)) := by
  simp only [BoundaryOperator.integrand, maxwellElectric, electricFunctor, transformed, hdivT, surfaceDivT,
      List.range, List.range.loop, List.foldl, List.map_cons, List.map_nil, List.getD_cons_zero, List.getD_cons_succ, comp]
  unfold dot3
  norm_num
  ring

theorem integrand_magnetic (k : ℂ) (d d' : Data) (b b' : BasisAt) :
    let K := kernelValues (maxwellDLFunctor (k / Complex.I)) (sliceOf d) (sliceOf d') 0
    let v := hdivValue b d.geom
    let u := hdivValue b' d'.geom
    (maxwellMagnetic k).integrand d d' b b' =
      K 0 * (star ((v.y : ℝ) : ℂ) * ((u.z : ℝ) : ℂ) - star ((v.z : ℝ) : ℂ) * ((u.y : ℝ) : ℂ)) +
      K 1 * (star ((v.z : ℝ) : ℂ) * ((u.x : ℝ) : ℂ) - star ((v.x : ℝ) : ℂ) * ((u.z : ℝ) : ℂ)) +
      K 2 * (star ((v.x : ℝ) : ℂ) * ((u.y : ℝ) : ℂ) - star ((v.y : ℝ) : ℂ) * ((u.x : ℝ) : ℂ)) := by
  simp only [BoundaryOperator.integrand, maxwellMagnetic, magneticFunctor, transformed, hdivT,
      List.map_cons, List.map_nil, List.getD_cons_zero, comp]
  norm_num

/-! ### Kernels -/

theorem normalDerivative_helmholtz (k : ℂ) (s t : Slice) (h : s.global ≠ t.global) :
    helmholtzDL k s t = normalDerivative k s.global t.global t.normal ∧
    ((laplaceDL s t : ℝ) : ℂ) = normalDerivative 0 s.global t.global t.normal ∧
    helmholtzADL k s t = testNormalDerivative k s.global t.global s.normal ∧
    ((laplaceADL s t : ℝ) : ℂ) = testNormalDerivative 0 s.global t.global s.normal := by
  obtain ⟨h1, h2, h3, h4, -, -⟩ := C73_double_layer k s t h
  exact ⟨h1.deriv.symm, h2.deriv.symm, h3.deriv.symm, h4.deriv.symm⟩

theorem maxwellDL_partial (k : ℂ) (s t : Slice) (h : s.global ≠ t.global) :
    maxwellDL k s t = (partialDerivative k s.global t.global 0, partialDerivative k s.global t.global 1,
      partialDerivative k s.global t.global 2) := by
  obtain ⟨h1, -⟩ := C73_gradients k s t h
  have e : ∀ c, HasDirectional (fun x => fundamental k x t.global) (partialDerivative k s.global t.global c) s.global (axis c) := by
    intro c
    exact (h1 (axis c)).differentiableAt.hasDerivAt
  have g := fun c => (h1 (axis c)).unique (e c)
  ext
  · simpa [axis] using g 0
  · simpa [axis] using g 1
  · simpa [axis] using g 2

/-! ### Sesquilinearity -/

/-- The sum over test and trial functions with coefficients `α`, `β`. -/
noncomputable def sesq (m n : Nat) (α β : Nat → ℂ) (f : Nat → Nat → ℂ) : ℂ :=
  ∑ a ∈ range m, ∑ b ∈ range n, star (α a) * β b * f a b

theorem sesq_add (m n : Nat) (α β : Nat → ℂ) (f g : Nat → Nat → ℂ) :
    sesq m n α β (fun a b => f a b + g a b) = sesq m n α β f + sesq m n α β g := by
  unfold sesq
  simp only [mul_add, Finset.sum_add_distrib]

theorem sesq_sub (m n : Nat) (α β : Nat → ℂ) (f g : Nat → Nat → ℂ) :
    sesq m n α β (fun a b => f a b - g a b) = sesq m n α β f - sesq m n α β g := by
  unfold sesq
  simp only [mul_sub, Finset.sum_sub_distrib]

theorem sesq_mul (m n : Nat) (α β : Nat → ℂ) (c : ℂ) (f : Nat → Nat → ℂ) :
    sesq m n α β (fun a b => c * f a b) = c * sesq m n α β f := by
  unfold sesq
  simp only [Finset.mul_sum]
  refine Finset.sum_congr rfl fun a _ => Finset.sum_congr rfl fun b _ => ?_
  ring

theorem sesq_prod (m n : Nat) (α β : Nat → ℂ) (f g : Nat → ℂ) :
    sesq m n α β (fun a b => star (f a) * g b) = star (∑ a ∈ range m, α a * f a) * ∑ b ∈ range n, β b * g b := by
  unfold sesq
  rw [star_sum, Finset.sum_mul]
  refine Finset.sum_congr rfl fun a _ => ?_
  rw [Finset.mul_sum]
  refine Finset.sum_congr rfl fun b _ => ?_
  rw [star_mul]
  ring

theorem sesq_dot (m n : Nat) (α β : Nat → ℂ) (f g : Nat → P3 ℝ) :
    sesq m n α β (fun a b => dot3 (f a) (g b)) =
      star (∑ a ∈ range m, α a * ((comp (f a) 0 : ℝ) : ℂ)) * (∑ b ∈ range n, β b * ((comp (g b) 0 : ℝ) : ℂ)) +
      star (∑ a ∈ range m, α a * ((comp (f a) 1 : ℝ) : ℂ)) * (∑ b ∈ range n, β b * ((comp (g b) 1 : ℝ) : ℂ)) +
      star (∑ a ∈ range m, α a * ((comp (f a) 2 : ℝ) : ℂ)) * (∑ b ∈ range n, β b * ((comp (g b) 2 : ℝ) : ℂ)) := by
  unfold dot3
  rw [sesq_add, sesq_add, sesq_prod, sesq_prod, sesq_prod]
  rfl

/-! ### The documented forms -/

theorem full_triangle (mesh : FMesh) (tri : Triangles) (e : Nat) (p : ℝ × ℝ)
    (hT : IsTriangle mesh.toMesh e (tri e).1 (tri e).2.1 (tri e).2.2)
    (hp : ∀ p, mesh.local2global e p = refMap (tri e).1 (tri e).2.1 (tri e).2.2 p) :
    (full mesh e p).geom = fullData (tri e).1 (tri e).2.1 (tri e).2.2 ∧
    sliceOf (full mesh e p) = ⟨(surfaceNode tri e p).position, (surfaceNode tri e p).normal⟩ ∧
    (full mesh e p).geom.normal = (surfaceNode tri e p).normal ∧
    (full mesh e p).geom.integrationElement = (surfaceNode tri e p).weight := by
  obtain ⟨-, hd, hA⟩ := hT
  have h1 : (full mesh e p).geom = fullData (tri e).1 (tri e).2.1 (tri e).2.2 := by
    unfold full FMesh.fill
    dsimp only
    rw [hd]
    rfl
  have h2 : (full mesh e p).geom.normal = (surfaceNode tri e p).normal := by
    rw [h1]; exact (unitNormal_eq _ _ _ hA).symm
  refine ⟨h1, ?_, h2, ?_⟩
  · unfold sliceOf
    rw [h2]
    congr 1
    exact hp p
  · rw [h1]
    exact ie_eq _ _ _

section
variable {U V : Assembly.ASpace ℂ} {shapes shapes' : Nat → Shapeset} {tri tri' : Triangles} {a c : Nat → ℂ} {e t : Nat}

/-- The coefficients and basis functions that make up a function at a node. -/
theorem nodeValue_surface (T : Transformation) (d : Nat) (p : ℝ × ℝ) :
    nodeValue U shapes tri a T d (surfaceNode tri e p) = ∑ b ∈ range (U.gdofs e).length, localCoefficient U a e b *
      ((T.evaluate ((shapes e).shape b p) (fullData (tri e).1 (tri e).2.1 (tri e).2.2) d : ℝ) : ℂ) := rfl

theorem div_I (k : ℂ) : k / Complex.I = -Complex.I * k := by
  rw [Complex.div_I]; ring

/-- The integrands, summed over the basis functions, are the documented forms. -/
theorem form_eq {op : BoundaryOperator} {F : SurfaceFunction → SurfaceFunction → Node → Node → ℂ} (hD : Documented op F)
    (mesh mesh' : FMesh) (p q : ℝ × ℝ)
    (hT : IsTriangle mesh.toMesh e (tri e).1 (tri e).2.1 (tri e).2.2)
    (hp : ∀ p, mesh.local2global e p = refMap (tri e).1 (tri e).2.1 (tri e).2.2 p)
    (hT' : IsTriangle mesh'.toMesh t (tri' t).1 (tri' t).2.1 (tri' t).2.2)
    (hp' : ∀ p, mesh'.local2global t p = refMap (tri' t).1 (tri' t).2.1 (tri' t).2.2 p)
    (hne : (surfaceNode tri e p).position ≠ (surfaceNode tri' t q).position) :
    sesq (U.gdofs e).length (V.gdofs t).length (localCoefficient U a e) (localCoefficient V c t)
      (fun i j => op.integrand (full mesh e p) (full mesh' t q) ((shapes e).shape i p) ((shapes' t).shape j q)) =
    F (functionOf U shapes tri a) (functionOf V shapes' tri' c) (surfaceNode tri e p) (surfaceNode tri' t q) := by
  obtain ⟨g1, s1, n1, -⟩ := full_triangle mesh tri e p hT hp
  obtain ⟨g2, s2, n2, -⟩ := full_triangle mesh' tri' t q hT' hp'
  have scalar : ∀ (G : Kernel.Functor) (hc : G.kernelCount = 1) (r blas : Bool),
      sesq (U.gdofs e).length (V.gdofs t).length (localCoefficient U a e) (localCoefficient V c t)
        (fun i j => BoundaryOperator.integrand ⟨G, r, [scalarValueT], [scalarValueT], chooseIntegral blas 1⟩ (full mesh e p) (full mesh' t q)
          ((shapes e).shape i p) ((shapes' t).shape j q)) =
      star ((functionOf U shapes tri a).value (surfaceNode tri e p)) *
        kernelValues G ⟨(surfaceNode tri e p).position, (surfaceNode tri e p).normal⟩ ⟨(surfaceNode tri' t q).position, (surfaceNode tri' t q).normal⟩ 0 0 *
        (functionOf V shapes' tri' c).value (surfaceNode tri' t q) := by
    intro G hc r blas
    simp only [integrand_scalar G hc, sesq_mul, sesq_prod, s1, s2]
    unfold functionOf
    dsimp only
    rw [nodeValue_surface, nodeValue_surface]
    simp only [scalarValueT]
    ring
  have curls : sesq (U.gdofs e).length (V.gdofs t).length (localCoefficient U a e) (localCoefficient V c t)
      (fun i j => dot3 (surfaceCurl ((shapes e).shape i p) (full mesh e p).geom) (surfaceCurl ((shapes' t).shape j q) (full mesh' t q).geom)) =
      star ((functionOf U shapes tri a).curl 0 (surfaceNode tri e p)) * (functionOf V shapes' tri' c).curl 0 (surfaceNode tri' t q) +
      star ((functionOf U shapes tri a).curl 1 (surfaceNode tri e p)) * (functionOf V shapes' tri' c).curl 1 (surfaceNode tri' t q) +
      star ((functionOf U shapes tri a).curl 2 (surfaceNode tri e p)) * (functionOf V shapes' tri' c).curl 2 (surfaceNode tri' t q) := by
    rw [sesq_dot, g1, g2]
    rfl
  have vectors : sesq (U.gdofs e).length (V.gdofs t).length (localCoefficient U a e) (localCoefficient V c t)
      (fun i j => dot3 (hdivValue ((shapes e).shape i p) (full mesh e p).geom) (hdivValue ((shapes' t).shape j q) (full mesh' t q).geom)) =
      star ((functionOf U shapes tri a).vector 0 (surfaceNode tri e p)) * (functionOf V shapes' tri' c).vector 0 (surfaceNode tri' t q) +
      star ((functionOf U shapes tri a).vector 1 (surfaceNode tri e p)) * (functionOf V shapes' tri' c).vector 1 (surfaceNode tri' t q) +
      star ((functionOf U shapes tri a).vector 2 (surfaceNode tri e p)) * (functionOf V shapes' tri' c).vector 2 (surfaceNode tri' t q) := by
    rw [sesq_dot, g1, g2]
    rfl
  have hyper : ∀ r blas k, sesq (U.gdofs e).length (V.gdofs t).length (localCoefficient U a e) (localCoefficient V c t)
        (fun i j => (modifiedHelmholtzHypersingular r blas k).integrand (full mesh e p) (full mesh' t q)
          ((shapes e).shape i p) ((shapes' t).shape j q)) =
      hypersingularForm k (functionOf U shapes tri a) (functionOf V shapes' tri' c) (surfaceNode tri e p) (surfaceNode tri' t q) := by
    intro r blas k
    simp only [integrand_hypersingular, sesq_add, sesq_mul, sesq_prod, curls, n1, n2, s1, s2]
    have := (C73_pairs k ⟨(surfaceNode tri e p).position, (surfaceNode tri e p).normal⟩
      ⟨(surfaceNode tri' t q).position, (surfaceNode tri' t q).normal⟩).1
    have k0 : kernelValues (helmholtzHypPairFunctor k) ⟨(surfaceNode tri e p).position, (surfaceNode tri e p).normal⟩
      ⟨(surfaceNode tri' t q).position, (surfaceNode tri' t q).normal⟩ 0 0 = _ := congrArg Prod.fst this
    have k1 : kernelValues (helmholtzHypPairFunctor k) ⟨(surfaceNode tri e p).position, (surfaceNode tri e p).normal⟩
      ⟨(surfaceNode tri' t q).position, (surfaceNode tri' t q).normal⟩ 1 0 = _ := congrArg Prod.snd this
    rw [k0, k1]
    rfl
  have sl : ∀ k, kernelValues (helmholtzSLFunctor k) ⟨(surfaceNode tri e p).position, (surfaceNode tri e p).normal⟩
      ⟨(surfaceNode tri' t q).position, (surfaceNode tri' t q).normal⟩ 0 0 =
      fundamental k (surfaceNode tri e p).position (surfaceNode tri' t q).position := fun k => (C73_single_layer k _ _).1
  have lsl : kernelValues laplaceSLFunctor ⟨(surfaceNode tri e p).position, (surfaceNode tri e p).normal⟩
      ⟨(surfaceNode tri' t q).position, (surfaceNode tri' t q).normal⟩ 0 0 =
      fundamental 0 (surfaceNode tri e p).position (surfaceNode tri' t q).position := (C73_single_layer 0 _ _).2.1
  have dl := fun k => normalDerivative_helmholtz k ⟨(surfaceNode tri e p).position, (surfaceNode tri e p).normal⟩
      ⟨(surfaceNode tri' t q).position, (surfaceNode tri' t q).normal⟩ hne
  have hdl : ∀ k, kernelValues (helmholtzDLFunctor k) ⟨(surfaceNode tri e p).position, (surfaceNode tri e p).normal⟩
      ⟨(surfaceNode tri' t q).position, (surfaceNode tri' t q).normal⟩ 0 0 = _ := fun k => (dl k).1
  have ldl : kernelValues laplaceDLFunctor ⟨(surfaceNode tri e p).position, (surfaceNode tri e p).normal⟩
      ⟨(surfaceNode tri' t q).position, (surfaceNode tri' t q).normal⟩ 0 0 = _ := (dl 0).2.1
  have hadl : ∀ k, kernelValues (helmholtzADLFunctor k) ⟨(surfaceNode tri e p).position, (surfaceNode tri e p).normal⟩
      ⟨(surfaceNode tri' t q).position, (surfaceNode tri' t q).normal⟩ 0 0 = _ := fun k => (dl k).2.2.1
  have ladl : kernelValues laplaceADLFunctor ⟨(surfaceNode tri e p).position, (surfaceNode tri e p).normal⟩
      ⟨(surfaceNode tri' t q).position, (surfaceNode tri' t q).normal⟩ 0 0 = _ := (dl 0).2.2.2
  cases hD with
  | laplaceSingle blas => unfold laplaceSingle; rw [scalar _ rfl, lsl]; rfl
  | laplaceDouble blas => unfold laplaceDouble; rw [scalar _ rfl, ldl]; rfl
  | laplaceAdjoint blas => unfold laplaceAdjoint; rw [scalar _ rfl, ladl]; rfl
  | laplaceHypersingular blas =>
    unfold laplaceHypersingular hypersingularForm
    simp only [integrand_curl _ (show laplaceSLFunctor.kernelCount = 1 from rfl), sesq_mul, curls, s1, s2, lsl]
    ring
  | modifiedHelmholtzSingle r blas k => unfold modifiedHelmholtzSingle; rw [scalar _ rfl, sl]; rfl
  | modifiedHelmholtzDouble r blas k => unfold modifiedHelmholtzDouble; rw [scalar _ rfl, hdl]; rfl
  | modifiedHelmholtzAdjoint r blas k => unfold modifiedHelmholtzAdjoint; rw [scalar _ rfl, hadl]; rfl
  | modifiedHelmholtzHypersingular r blas k => exact hyper r blas k
  | helmholtzSingle blas k => unfold helmholtzSingle modifiedHelmholtzSingle; rw [scalar _ rfl, sl, div_I]; rfl
  | helmholtzDouble blas k => unfold helmholtzDouble modifiedHelmholtzDouble; rw [scalar _ rfl, hdl, div_I]; rfl
  | helmholtzAdjoint blas k => unfold helmholtzAdjoint modifiedHelmholtzAdjoint; rw [scalar _ rfl, hadl, div_I]; rfl
  | helmholtzHypersingular blas k =>
    unfold helmholtzHypersingular
    rw [hyper, div_I]
  | maxwellElectric k hk =>
    simp only [integrand_electric, sesq_add, sesq_mul, sesq_prod, vectors, s1, s2, div_I]
    have := (C73_pairs (-Complex.I * k) ⟨(surfaceNode tri e p).position, (surfaceNode tri e p).normal⟩
      ⟨(surfaceNode tri' t q).position, (surfaceNode tri' t q).normal⟩).2
    have k0 : kernelValues (maxwellSLFunctor (-Complex.I * k)) ⟨(surfaceNode tri e p).position, (surfaceNode tri e p).normal⟩
      ⟨(surfaceNode tri' t q).position, (surfaceNode tri' t q).normal⟩ 0 0 = _ := congrArg Prod.fst this
    have k1 : kernelValues (maxwellSLFunctor (-Complex.I * k)) ⟨(surfaceNode tri e p).position, (surfaceNode tri e p).normal⟩
      ⟨(surfaceNode tri' t q).position, (surfaceNode tri' t q).normal⟩ 1 0 = _ := congrArg Prod.snd this
    rw [k0, k1, g1, g2]
    rfl
  | maxwellMagnetic k =>
    simp only [integrand_magnetic, sesq_add, sesq_sub, sesq_mul, sesq_prod, s1, s2, g1, g2, div_I]
    have := maxwellDL_partial (-Complex.I * k) ⟨(surfaceNode tri e p).position, (surfaceNode tri e p).normal⟩
      ⟨(surfaceNode tri' t q).position, (surfaceNode tri' t q).normal⟩ hne
    have k0 : kernelValues (maxwellDLFunctor (-Complex.I * k)) ⟨(surfaceNode tri e p).position, (surfaceNode tri e p).normal⟩
      ⟨(surfaceNode tri' t q).position, (surfaceNode tri' t q).normal⟩ 0 0 = _ := congrArg Prod.fst this
    have k1 : kernelValues (maxwellDLFunctor (-Complex.I * k)) ⟨(surfaceNode tri e p).position, (surfaceNode tri e p).normal⟩
      ⟨(surfaceNode tri' t q).position, (surfaceNode tri' t q).normal⟩ 0 1 = _ := congrArg (fun z => z.2.1) this
    have k2 : kernelValues (maxwellDLFunctor (-Complex.I * k)) ⟨(surfaceNode tri e p).position, (surfaceNode tri e p).normal⟩
      ⟨(surfaceNode tri' t q).position, (surfaceNode tri' t q).normal⟩ 0 2 = _ := congrArg (fun z => z.2.2) this
    rw [k0, k1, k2]
    rfl

end

end Verif.Bio
