import Verif.Spec.BoundaryOperators
import Verif.Lemmas.PotentialOperators
import Verif.Props.NumericalIntegrator
import Verif.Props.LocalAssembler
/-
Lemmas for boundary integral operators: the matrix of an integrator for a pair of elements.
-/
namespace Verif.Bio
open Verif.Grid Verif.Space Verif.Shape Verif.SingleQuad Verif.HMat Verif.LocalOps Verif.GridFun Verif.Kernel Verif.Pot Verif.Integral Verif.Integrator

/-! ### Arrays -/

theorem tab3_get {K : Type} (n0 n1 n2 : Nat) (f : Nat → Nat → Nat → K) (i j k : Nat) (hi : i < n0) (hj : j < n1) :
    (tab3 n0 n1 n2 f).get i j k = f i j k := by
  show f ((i + n0 * j + n0 * n1 * k) % n0) ((i + n0 * j + n0 * n1 * k) / n0 % n1) ((i + n0 * j + n0 * n1 * k) / (n0 * n1)) = _
  have h0 : 0 < n0 := by omega
  have h1 : 0 < n1 := by omega
  have e1 : (i + n0 * j + n0 * n1 * k) % n0 = i := by
    rw [show i + n0 * j + n0 * n1 * k = i + n0 * (j + n1 * k) by ring, Nat.add_mul_mod_self_left, Nat.mod_eq_of_lt hi]
  have e2 : (i + n0 * j + n0 * n1 * k) / n0 = j + n1 * k := by
    rw [show i + n0 * j + n0 * n1 * k = i + n0 * (j + n1 * k) by ring, Nat.add_mul_div_left _ _ h0, Nat.div_eq_of_lt hi, zero_add]
  have e3 : (i + n0 * j + n0 * n1 * k) / (n0 * n1) = k := by
    rw [← Nat.div_div_eq_div_mul, e2, Nat.add_mul_div_left _ _ h1, Nat.div_eq_of_lt hj, zero_add]
  rw [e1, e2, e3, Nat.add_mul_mod_self_left, Nat.mod_eq_of_lt hj]

theorem tab4_get {K : Type} (n0 n1 n2 n3 : Nat) (f : Nat → Nat → Nat → Nat → K) (i j k l : Nat) (hi : i < n0) (hj : j < n1) (hk : k < n2) :
    (tab4 n0 n1 n2 n3 f).get i j k l = f i j k l := by
  show f ((i + n0 * j + n0 * n1 * k + n0 * n1 * n2 * l) % n0) ((i + n0 * j + n0 * n1 * k + n0 * n1 * n2 * l) / n0 % n1)
    ((i + n0 * j + n0 * n1 * k + n0 * n1 * n2 * l) / (n0 * n1) % n2) ((i + n0 * j + n0 * n1 * k + n0 * n1 * n2 * l) / (n0 * n1 * n2)) = _
  have h0 : 0 < n0 := by omega
  have h1 : 0 < n1 := by omega
  have h2 : 0 < n2 := by omega
  set o := i + n0 * j + n0 * n1 * k + n0 * n1 * n2 * l with ho
  have ho' : o = i + n0 * (j + n1 * (k + n2 * l)) := by rw [ho]; ring
  have e1 : o % n0 = i := by rw [ho', Nat.add_mul_mod_self_left, Nat.mod_eq_of_lt hi]
  have e2 : o / n0 = j + n1 * (k + n2 * l) := by rw [ho', Nat.add_mul_div_left _ _ h0, Nat.div_eq_of_lt hi, zero_add]
  have e3 : o / (n0 * n1) = k + n2 * l := by
    rw [← Nat.div_div_eq_div_mul, e2, Nat.add_mul_div_left _ _ h1, Nat.div_eq_of_lt hj, zero_add]
  have e4 : o / (n0 * n1 * n2) = l := by
    rw [← Nat.div_div_eq_div_mul, e3, Nat.add_mul_div_left _ _ h2, Nat.div_eq_of_lt hk, zero_add]
  rw [e1, e2, e3, e4, Nat.add_mul_mod_self_left, Nat.mod_eq_of_lt hj, Nat.add_mul_mod_self_left, Nat.mod_eq_of_lt hk]

/-! ### What operators read -/

/-- Two data agree on the declared fields. -/
structure AgreeOn (deps : Deps) (d d' : Data) : Prop where
  globals : deps.globals = true → d.global = d'.global
  integrationElements : deps.geom.integrationElements = true → d.geom.integrationElement = d'.geom.integrationElement
  normals : deps.geom.normals = true → d.geom.normal = d'.geom.normal
  jacobiansTransposed : deps.geom.jacobiansTransposed = true → d.geom.jt0 = d'.geom.jt0 ∧ d.geom.jt1 = d'.geom.jt1
  jacobianInversesTransposed : deps.geom.jacobianInversesTransposed = true → d.geom.jit0 = d'.geom.jit0 ∧ d.geom.jit1 = d'.geom.jit1
  domainIndex : deps.domainIndex = true → d.domainIndex = d'.domainIndex

theorem agree_dataAt {deps : Deps} {g g' : Integrator.GeomData Values} (h : ∀ f, fieldsOf deps f = true → g f = g' f) (p : Nat) :
    AgreeOn deps (dataAt g p) (dataAt g' p) where
  globals := fun hd => by
    have := h .GLOBALS hd
    simp only [dataAt, this]
  integrationElements := fun hd => by
    have := h .INTEGRATION_ELEMENTS hd
    simp only [dataAt, this]
  normals := fun hd => by
    have := h .NORMALS hd
    simp only [dataAt, this]
  jacobiansTransposed := fun hd => by
    have := h .JACOBIANS_TRANSPOSED hd
    simp only [dataAt, this, and_self]
  jacobianInversesTransposed := fun hd => by
    have := h .JACOBIAN_INVERSES_TRANSPOSED hd
    simp only [dataAt, this, and_self]
  domainIndex := fun hd => by
    have := h .DOMAIN_INDEX hd
    simp only [dataAt, this]

/-- The operator reads only what it declares, and its integral only the entries that exist. -/
structure BoundaryOperator.Sound (op : BoundaryOperator) : Prop where
  transformations : ∀ t, t ∈ op.testTransformations ∨ t ∈ op.trialTransformations → ∀ b d d', AgreeOn ⟨t.deps, false, false⟩ d d' →
    t.evaluate b d.geom = t.evaluate b d'.geom
  kernels : ∀ s s' t t' : Slice, s.global = s'.global → t.global = t'.global → (op.kernels.testNormals = true → s.normal = s'.normal) →
    (op.kernels.trialNormals = true → t.normal = t'.normal) → op.kernels.evaluate s t = op.kernels.evaluate s' t'
  functor : ∀ f, op.integral = .default f → ∀ (d d₁ d' d₁' : Data) (test test₁ trial trial₁ ker ker₁ : Nat → Nat → ℂ),
    AgreeOn f.deps d d₁ → AgreeOn f.deps d' d₁' →
    (∀ i t, op.testTransformations[i]? = some t → ∀ c < t.dim, test i c = test₁ i c) →
    (∀ i t, op.trialTransformations[i]? = some t → ∀ c < t.dim, trial i c = trial₁ i c) →
    (∀ i < op.kernels.kernelCount, ∀ r < op.kernels.kernelRowCount i, ker i r = ker₁ i r) →
    f.evaluate d d' test trial ker = f.evaluate d₁ d₁' test₁ trial₁ ker₁
  typical : op.integral = .typical → 0 < op.testTransformations.length ∧ op.testTransformations = op.trialTransformations ∧
    (op.kernels.kernelCount = 1 ∨ op.kernels.kernelCount = op.testTransformations.length) ∧ ∀ i, op.kernels.kernelRowCount i = 1

theorem scalarValue_agree (b : BasisAt) (d d' : Data) : scalarValueT.evaluate b d.geom = scalarValueT.evaluate b d'.geom := rfl

theorem surfaceCurl_agree (b : BasisAt) (d d' : Data) (h : AgreeOn ⟨surfaceCurlT.deps, false, false⟩ d d') :
    surfaceCurlT.evaluate b d.geom = surfaceCurlT.evaluate b d'.geom := by
  have h1 := h.normals rfl
  have h2 := h.jacobianInversesTransposed rfl
  simp only [surfaceCurlT, surfaceCurl, h1, h2.1, h2.2]

theorem valueTimesNormal_agree (b : BasisAt) (d d' : Data) (h : AgreeOn ⟨valueTimesNormalT.deps, false, false⟩ d d') :
    valueTimesNormalT.evaluate b d.geom = valueTimesNormalT.evaluate b d'.geom := by
  have h1 := h.normals rfl
  simp only [valueTimesNormalT, valueTimesNormal, h1]

theorem hdiv_agree (b : BasisAt) (d d' : Data) (h : AgreeOn ⟨hdivT.deps, false, false⟩ d d') :
    hdivT.evaluate b d.geom = hdivT.evaluate b d'.geom := by
  have h1 := h.integrationElements rfl
  have h2 := h.jacobiansTransposed rfl
  simp only [hdivT, hdivValue, h1, h2.1, h2.2]

theorem surfaceDiv_agree (b : BasisAt) (d d' : Data) (h : AgreeOn ⟨surfaceDivT.deps, false, false⟩ d d') :
    surfaceDivT.evaluate b d.geom = surfaceDivT.evaluate b d'.geom := by
  have h1 := h.integrationElements rfl
  simp only [surfaceDivT, surfaceDiv, h1]

theorem functors_agree (k : ℂ) {F : Kernel.Functor} (hF : F ∈ functors k) : ∀ s s' t t' : Slice, s.global = s'.global → t.global = t'.global →
    (F.testNormals = true → s.normal = s'.normal) → (F.trialNormals = true → t.normal = t'.normal) → F.evaluate s t = F.evaluate s' t' :=
  fun s s' t t' => (C73_declarations k F hF s s' t t').2

/-- The scalar operators. -/
theorem sound_simple (k : ℂ) {F : Kernel.Functor} (hF : F ∈ functors k) (hc : F.kernelCount = 1) (hr : ∀ i, F.kernelRowCount i = 1)
    (realKernel blas : Bool) (t : Transformation)
    (ht : ∀ b d d', AgreeOn ⟨t.deps, false, false⟩ d d' → t.evaluate b d.geom = t.evaluate b d'.geom) :
    BoundaryOperator.Sound ⟨F, realKernel, [t], [t], chooseIntegral blas t.dim⟩ where
  transformations := by
    intro t' h
    have : t' = t := by simpa using h
    subst this
    exact ht
  kernels := functors_agree k hF
  functor := by
    intro f hf d d₁ d' d₁' test test₁ trial trial₁ ker ker₁ _ _ h1 h2 h3
    cases blas with
    | true => simp [chooseIntegral] at hf
    | false =>
      simp only [chooseIntegral, Bool.false_eq_true, if_false, TestKernelTrialIntegral.default.injEq] at hf
      subst hf
      have e3 := h3 0 (by rw [hc]; omega) 0 (by rw [hr]; omega)
      show (List.range t.dim).foldl (fun s c => s + star (test 0 c) * trial 0 c) 0 * ker 0 0 =
        (List.range t.dim).foldl (fun s c => s + star (test₁ 0 c) * trial₁ 0 c) 0 * ker₁ 0 0
      rw [e3, foldl_sumC, foldl_sumC]
      congr 3
      refine List.map_congr_left fun c hc => ?_
      rw [h1 0 t rfl c (List.mem_range.mp hc), h2 0 t rfl c (List.mem_range.mp hc)]
  typical := by
    intro _
    exact ⟨by simp, rfl, Or.inl hc, hr⟩

theorem sound {realKernel blas : Bool} {k : ℂ} {op : BoundaryOperator} (h : op ∈ boundaryOperators realKernel blas k) : op.Sound := by
  have hs : ∀ (r b : Bool) (k : ℂ), (modifiedHelmholtzSingle r b k).Sound := fun r b k =>
    sound_simple k (F := helmholtzSLFunctor k) (by simp [functors]) rfl (fun _ => rfl) r b scalarValueT fun b d d' _ => rfl
  have hd : ∀ (r b : Bool) (k : ℂ), (modifiedHelmholtzDouble r b k).Sound := fun r b k =>
    sound_simple k (F := helmholtzDLFunctor k) (by simp [functors]) rfl (fun _ => rfl) r b scalarValueT fun b d d' _ => rfl
  have ha : ∀ (r b : Bool) (k : ℂ), (modifiedHelmholtzAdjoint r b k).Sound := fun r b k =>
    sound_simple k (F := helmholtzADLFunctor k) (by simp [functors]) rfl (fun _ => rfl) r b scalarValueT fun b d d' _ => rfl
  have hh : ∀ (r b : Bool) (k : ℂ), (modifiedHelmholtzHypersingular r b k).Sound := by
    intro r b k
    cases b with
    | true =>
      refine ⟨?_, functors_agree k (F := helmholtzHypPairFunctor k) (by simp [functors]), ?_, ?_⟩
      · intro t ht
        have : t = surfaceCurlT ∨ t = valueTimesNormalT := by
          simpa [modifiedHelmholtzHypersingular] using ht
        rcases this with rfl | rfl
        · exact surfaceCurl_agree
        · exact valueTimesNormal_agree
      · intro f hf
        simp [modifiedHelmholtzHypersingular] at hf
      · intro _
        exact ⟨show 0 < 2 by decide, rfl, Or.inr rfl, fun _ => rfl⟩
    | false =>
      refine ⟨?_, functors_agree k (F := helmholtzHypPairFunctor k) (by simp [functors]), ?_, ?_⟩
      · intro t ht
        have : t = scalarValueT ∨ t = surfaceCurlT := by
          simpa [modifiedHelmholtzHypersingular] using ht
        rcases this with rfl | rfl
        · exact fun b d d' _ => rfl
        · exact surfaceCurl_agree
      · intro f hf d d₁ d' d₁' test test₁ trial trial₁ ker ker₁ g1 g2 h1 h2 h3
        simp only [modifiedHelmholtzHypersingular, Bool.false_eq_true, if_false, TestKernelTrialIntegral.default.injEq] at hf
        subst hf
        have a0 := h1 0 scalarValueT rfl 0 (by decide)
        have a1 := fun c (hc : c < 3) => h1 1 surfaceCurlT rfl c hc
        have b0 := h2 0 scalarValueT rfl 0 (by decide)
        have b1 := fun c (hc : c < 3) => h2 1 surfaceCurlT rfl c hc
        have k0 := h3 0 (show 0 < 2 by decide) 0 (show 0 < 1 by decide)
        have k1 := h3 1 (show 1 < 2 by decide) 0 (show 0 < 1 by decide)
        have n1 := g1.normals rfl
        have n2 := g2.normals rfl
        simp only [hypersingularFunctor, List.range, List.range.loop, List.foldl, a0, a1 0 (by omega), a1 1 (by omega), a1 2 (by omega),
          b0, b1 0 (by omega), b1 1 (by omega), b1 2 (by omega), k0, k1, n1, n2]
      · intro hf
        simp [modifiedHelmholtzHypersingular] at hf
  simp only [boundaryOperators, List.mem_cons, List.not_mem_nil, or_false] at h
  rcases h with rfl | rfl | rfl | rfl | rfl | rfl | rfl | rfl | rfl | rfl | rfl | rfl | rfl | rfl
  · exact sound_simple k (F := laplaceSLFunctor) (by simp [functors]) rfl (fun _ => rfl) true blas scalarValueT fun b d d' _ => rfl
  · exact sound_simple k (F := laplaceDLFunctor) (by simp [functors]) rfl (fun _ => rfl) true blas scalarValueT fun b d d' _ => rfl
  · exact sound_simple k (F := laplaceADLFunctor) (by simp [functors]) rfl (fun _ => rfl) true blas scalarValueT fun b d d' _ => rfl
  · exact sound_simple k (F := laplaceSLFunctor) (by simp [functors]) rfl (fun _ => rfl) true blas surfaceCurlT surfaceCurl_agree
  · exact hs _ _ _
  · exact hd _ _ _
  · exact ha _ _ _
  · exact hh _ _ _
  · exact hs _ _ _
  · exact hd _ _ _
  · exact ha _ _ _
  · exact hh _ _ _
  · refine ⟨?_, functors_agree (k / Complex.I) (F := maxwellSLFunctor (k / Complex.I)) (by simp [functors]), ?_, ?_⟩
    · intro t ht
      have : t = hdivT ∨ t = surfaceDivT := by simpa [maxwellElectric] using ht
      rcases this with rfl | rfl
      · exact hdiv_agree
      · exact surfaceDiv_agree
    · intro f hf d d₁ d' d₁' test test₁ trial trial₁ ker ker₁ _ _ h1 h2 h3
      simp only [maxwellElectric, TestKernelTrialIntegral.default.injEq] at hf
      subst hf
      have a0 := fun c (hc : c < 3) => h1 0 hdivT rfl c hc
      have a1 := h1 1 surfaceDivT rfl 0 (by decide)
      have b0 := fun c (hc : c < 3) => h2 0 hdivT rfl c hc
      have b1 := h2 1 surfaceDivT rfl 0 (by decide)
      have k0 := h3 0 (show 0 < 2 by decide) 0 (show 0 < 1 by decide)
      have k1 := h3 1 (show 1 < 2 by decide) 0 (show 0 < 1 by decide)
      simp only [electricFunctor, List.range, List.range.loop, List.foldl, a1, a0 0 (by omega), a0 1 (by omega), a0 2 (by omega),
          b1, b0 0 (by omega), b0 1 (by omega), b0 2 (by omega), k0, k1]
    · intro hf
      simp [maxwellElectric] at hf
  · refine ⟨?_, functors_agree (k / Complex.I) (F := maxwellDLFunctor (k / Complex.I)) (by simp [functors]), ?_, ?_⟩
    · intro t ht
      have : t = hdivT := by simpa [maxwellMagnetic] using ht
      subst this
      exact hdiv_agree
    · intro f hf d d₁ d' d₁' test test₁ trial trial₁ ker ker₁ _ _ h1 h2 h3
      simp only [maxwellMagnetic, TestKernelTrialIntegral.default.injEq] at hf
      subst hf
      have a0 := fun c (hc : c < 3) => h1 0 hdivT rfl c hc
      have b0 := fun c (hc : c < 3) => h2 0 hdivT rfl c hc
      have k0 := fun r (hr : r < 3) => h3 0 (show 0 < 1 by decide) r hr
      simp only [magneticFunctor, a0 0 (by omega), a0 1 (by omega), a0 2 (by omega),
          b0 0 (by omega), b0 1 (by omega), b0 2 (by omega), k0 0 (by omega), k0 1 (by omega), k0 2 (by omega)]
    · intro hf
      simp [maxwellMagnetic] at hf

end Verif.Bio
