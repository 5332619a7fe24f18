import Verif.Lemmas.DuffyFill
import Verif.Lemmas.DuffyPoly
import Verif.Lemmas.DuffyKernel
import Mathlib.Analysis.SpecialFunctions.Sqrt
import Mathlib.Tactic.NormNum
import Mathlib.Topology.Algebra.MvPolynomial
/-
Property C61: the singular quadrature rules for pairs of triangles.
-/
namespace Verif.Quad
open MeasureTheory Set

variable {E : Type} [NormedAddCommGroup E] [NormedSpace ℝ E]

theorem integrand_eq (c : Config) {φ ψ : ℝ × ℝ → ℝ × ℝ} (h1 : ∀ p : ℝ × ℝ, c.remapTest (toDune p) = some (φ p))
    (h2 : ∀ p : ℝ × ℝ, c.remapTrial (toDune p) = some (ψ p)) (r : Nat) (hr : r < c.exSamples.length)
    (f : ℝ × ℝ → ℝ × ℝ → E) (z : P4) :
    c.integrand r f z = (c.exSamples[r].w.eval z) • pairFun f (pairMap φ ψ (polyMap (exMap c.exSamples[r]) z)) := by
  unfold Config.integrand
  rw [Config.samples_eq, List.getElem?_map, List.getElem?_eq_getElem hr]
  simp only [Option.map_some, evalSample, h1, h2]
  rfl

/-- **C61 (the regions).**  For each configuration and every integrable function of pairs of points of the reference
triangle, its integral is the sum over the regions of the integrals over the unit cube of the integrands that the regions
see.  So the regions cover all pairs of points, none twice, and the weight factors are the right Jacobians, whichever
vertices the elements share. -/
theorem C61_regions (c : Config) (hc : c.Valid) (f : ℝ × ℝ → ℝ × ℝ → E) (hf : IntegrableOn (pairFun f) refPairs) :
    ∫ p in refPairs, pairFun f p = ∑ r ∈ Finset.range c.numRegions, ∫ z in unitCube, c.integrand r f z := by
  obtain ⟨φ, ψ, hφ, hψ, h1, h2⟩ := exists_remap c hc
  obtain ⟨i1, i2⟩ := integral_pairMap hφ hψ (pairFun f)
  rw [i2, integral_samples c _ (i1.mp hf), Finset.sum_range, unitCube_eq]
  rw [← c.exSamples_length]
  refine Finset.sum_congr rfl fun r _ => ?_
  exact integral_congr_ae (Filter.Eventually.of_forall fun z => (integrand_eq c h1 h2 r r.2 f z).symm)

/-- **C61 (the points).**  Remapping never throws, all points lie in the reference triangle and all weights are positive,
if the points of the basic rule lie in the unit square and its weights are positive; the total number of points is that
of the regions times the square of that of the basic rule. -/
theorem C61_points (c : Config) (hc : c.Valid) (rule : Rule ℝ)
    (hp : ∀ i < rule.n, (0 < (rule.point i).1 ∧ (rule.point i).1 < 1) ∧ (0 < (rule.point i).2 ∧ (rule.point i).2 < 1))
    (hw : ∀ i < rule.n, 0 < rule.weight i) :
    (fillSingular c rule).total = c.numRegions * rule.n ^ 2 ∧
    ∀ col < (fillSingular c rule).total, ∃ x ∈ refTriangle, ∃ y ∈ refTriangle,
      (fillSingular c rule).test col = some x ∧ (fillSingular c rule).trial col = some y ∧
        0 < (fillSingular c rule).weight col := by
  obtain ⟨φ, ψ, hφ, hψ, h1, h2⟩ := exists_remap c hc
  refine ⟨by simp only [fillSingular]; ring, ?_⟩
  intro col hcol
  obtain ⟨r, i, j, hr, hi, hj, rfl⟩ := col_decomp hcol
  have hr' : r < c.exSamples.length := by rw [c.exSamples_length]; exact hr
  set z : P4 := ![(rule.point i).1, (rule.point i).2, (rule.point j).1, (rule.point j).2] with hz
  have hzc : z ∈ cube := mem_cube.mpr ⟨(hp i hi).1, (hp i hi).2, (hp j hj).1, (hp j hj).2⟩
  have hs : (c.samples (rule.point i).1 (rule.point i).2 (rule.point j).1 (rule.point j).2)[r]? =
      some (evalSample z c.exSamples[r]) := by
    have := c.samples_eq z
    simp only [hz, Matrix.cons_val] at this
    rw [this, List.getElem?_map, List.getElem?_eq_getElem hr']
    rfl
  obtain ⟨a1, a2, a3⟩ := fillSingular_at c rule r i j hr hi hj _ hs
  obtain ⟨b1, b2⟩ := sample_mem c r hr' z hzc
  have hb := (bijOn_pairMap hφ hψ).mapsTo b1
  refine ⟨_, hb.1, _, hb.2, ?_, ?_, ?_⟩
  · rw [a1, h1]; rfl
  · rw [a2, h2]; rfl
  · rw [a3]
    exact mul_pos (mul_pos b2 (hw i hi)) (hw j hj)

/-- **C61 (the sum).**  The quadrature sum over all columns is the sum over the regions of the product of the basic rule
with itself, applied to the integrand that the region sees. -/
theorem C61_sum (c : Config) (hc : c.Valid) (rule : Rule ℝ) (f : ℝ × ℝ → ℝ × ℝ → E) :
    ∃ x y : Nat → ℝ × ℝ,
      (∀ col < (fillSingular c rule).total, (fillSingular c rule).test col = some (x col) ∧
        (fillSingular c rule).trial col = some (y col)) ∧
      ∑ col ∈ Finset.range (fillSingular c rule).total, (fillSingular c rule).weight col • f (x col) (y col) =
        ∑ r ∈ Finset.range c.numRegions, ∑ i ∈ Finset.range rule.n, ∑ j ∈ Finset.range rule.n,
          (rule.weight i * rule.weight j) •
            c.integrand r f ![(rule.point i).1, (rule.point i).2, (rule.point j).1, (rule.point j).2] := by
  obtain ⟨φ, ψ, hφ, hψ, h1, h2⟩ := exists_remap c hc
  have key : ∀ r < c.numRegions, ∀ i < rule.n, ∀ j < rule.n, ∃ x y,
      (fillSingular c rule).test (i + j * rule.n + r * rule.n * rule.n) = some x ∧
      (fillSingular c rule).trial (i + j * rule.n + r * rule.n * rule.n) = some y ∧
      (fillSingular c rule).weight (i + j * rule.n + r * rule.n * rule.n) • f x y =
        (rule.weight i * rule.weight j) •
            c.integrand r f ![(rule.point i).1, (rule.point i).2, (rule.point j).1, (rule.point j).2] := by
    intro r hr i hi j hj
    have hr' : r < c.exSamples.length := by rw [c.exSamples_length]; exact hr
    set z : P4 := ![(rule.point i).1, (rule.point i).2, (rule.point j).1, (rule.point j).2] with hz
    have hs : (c.samples (rule.point i).1 (rule.point i).2 (rule.point j).1 (rule.point j).2)[r]? =
        some (evalSample z c.exSamples[r]) := by
      have := c.samples_eq z
      simp only [hz, Matrix.cons_val] at this
      rw [this, List.getElem?_map, List.getElem?_eq_getElem hr']
      rfl
    obtain ⟨a1, a2, a3⟩ := fillSingular_at c rule r i j hr hi hj _ hs
    rw [h1] at a1
    rw [h2] at a2
    refine ⟨_, _, a1, a2, ?_⟩
    rw [a3, integrand_eq c h1 h2 r hr' f z, smul_smul]
    congr 1
    simp only [evalSample]
    ring
  have ex : ∀ col < (fillSingular c rule).total, ∃ x y, (fillSingular c rule).test col = some x ∧
      (fillSingular c rule).trial col = some y := by
    intro col hcol
    obtain ⟨r, i, j, hr, hi, hj, rfl⟩ := col_decomp hcol
    obtain ⟨x, y, h1, h2, _⟩ := key r hr i hi j hj
    exact ⟨x, y, h1, h2⟩
  refine ⟨fun col => ((fillSingular c rule).test col).getD (0, 0), fun col => ((fillSingular c rule).trial col).getD (0, 0),
    ?_, ?_⟩
  · intro col hcol
    obtain ⟨x, y, h1, h2⟩ := ex col hcol
    simp [h1, h2]
  · show ∑ col ∈ Finset.range (c.numRegions * rule.n * rule.n), _ = _
    rw [sum_cols]
    refine Finset.sum_congr rfl fun r hr => Finset.sum_congr rfl fun i hi => Finset.sum_congr rfl fun j hj => ?_
    obtain ⟨x, y, e1, e2, e3⟩ := key r (Finset.mem_range.mp hr) i (Finset.mem_range.mp hi) j (Finset.mem_range.mp hj)
    simp only [e1, e2, Option.getD_some]
    exact e3

/-- **C61 (exactness).**  If the basic rule, multiplied with itself, integrates the integrands that the regions see
exactly, then the singular rule integrates `f` exactly. -/
theorem C61_exact (c : Config) (hc : c.Valid) (rule : Rule ℝ) (f : ℝ × ℝ → ℝ × ℝ → E)
    (hf : IntegrableOn (pairFun f) refPairs) (hrule : ∀ r < c.numRegions, ExactFor rule (c.integrand r f)) :
    ∃ x y : Nat → ℝ × ℝ,
      (∀ col < (fillSingular c rule).total, (fillSingular c rule).test col = some (x col) ∧
        (fillSingular c rule).trial col = some (y col)) ∧
      ∑ col ∈ Finset.range (fillSingular c rule).total, (fillSingular c rule).weight col • f (x col) (y col) =
        ∫ p in refPairs, pairFun f p := by
  obtain ⟨x, y, h1, h2⟩ := C61_sum c hc rule f
  refine ⟨x, y, h1, ?_⟩
  rw [h2, C61_regions c hc f hf]
  exact Finset.sum_congr rfl fun r hr => hrule r (Finset.mem_range.mp hr)

/-- The affine substitution as polynomials. -/
theorem affine_poly (a0 a1 a2 : ℝ) (p q : MvPolynomial (Fin 4) ℝ) (i : Fin 4) (hp : MvPolynomial.degreeOf i p ≤ 1)
    (hq : MvPolynomial.degreeOf i q ≤ 1) :
    MvPolynomial.degreeOf i (MvPolynomial.C a0 + MvPolynomial.C a1 * p + MvPolynomial.C a2 * q) ≤ 1 := by
  refine (MvPolynomial.degreeOf_add_le _ _ _).trans (max_le ((MvPolynomial.degreeOf_add_le _ _ _).trans (max_le ?_ ?_)) ?_)
  · simp
  · exact (MvPolynomial.degreeOf_C_mul_le _ _ _).trans hp
  · exact (MvPolynomial.degreeOf_C_mul_le _ _ _).trans hq

/-- **C61 (polynomials).**  If the basic rule is exact for powers up to `m` in each variable (the Gauss rule with `n`
points per direction is, for `m = 2 n - 1`), the singular rule is exact for all polynomials in the four coordinates of
total degree at most `m - 3`, in each configuration. -/
theorem C61_polynomials (c : Config) (hc : c.Valid) (rule : Rule ℝ) (m : Nat) (hrule : rule.ExactDegree m)
    (P : MvPolynomial (Fin 4) ℝ) (hP : P.totalDegree + 3 ≤ m) :
    ∃ x y : Nat → ℝ × ℝ,
      (∀ col < (fillSingular c rule).total, (fillSingular c rule).test col = some (x col) ∧
        (fillSingular c rule).trial col = some (y col)) ∧
      ∑ col ∈ Finset.range (fillSingular c rule).total,
          (fillSingular c rule).weight col * MvPolynomial.eval ![(x col).1, (x col).2, (y col).1, (y col).2] P =
        ∫ p in refPairs, MvPolynomial.eval p P := by
  have heval : (fun p : Fin 4 → ℝ => MvPolynomial.eval p P) =
      pairFun fun x y => MvPolynomial.eval ![x.1, x.2, y.1, y.2] P := by
    funext p
    unfold pairFun
    congr 2
    exact P4.ext4 rfl rfl rfl rfl
  have hf : IntegrableOn (fun p : Fin 4 → ℝ => MvPolynomial.eval p P) refPairs := by
    have hc1 : Continuous fun p : Fin 4 → ℝ => MvPolynomial.eval p P := MvPolynomial.continuous_eval P
    have hsub : refPairs ⊆ Set.pi univ fun _ : Fin 4 => Icc (0 : ℝ) 1 := by
      rintro p ⟨⟨h1, h2, h3⟩, h4, h5, h6⟩ i _
      simp only at h1 h2 h3 h4 h5 h6
      fin_cases i <;> constructor <;> simp <;> linarith
    exact (hc1.continuousOn.integrableOn_compact (isCompact_univ_pi fun _ => isCompact_Icc)).mono_set hsub
  obtain ⟨φ, ψ, hφ, hψ, h1, h2⟩ := exists_remap c hc
  have main := C61_exact c hc rule (fun x y => MvPolynomial.eval ![x.1, x.2, y.1, y.2] P) (by rw [← heval]; exact hf) ?_
  · rw [heval]
    exact main
  · intro r hr
    have hr' : r < c.exSamples.length := by rw [c.exSamples_length]; exact hr
    obtain ⟨⟨a0, a1, a2, b0, b1, b2, hf1, -⟩, -⟩ := hφ
    obtain ⟨⟨c0, c1, c2, d0, d1, d2, hg1, -⟩, -⟩ := hψ
    obtain ⟨s, hs⟩ : ∃ s, c.exSamples[r] = s := ⟨_, rfl⟩
    have hdeg := fun i => samples_degree c s (hs ▸ List.getElem_mem hr') i
    let g : Fin 4 → MvPolynomial (Fin 4) ℝ := ![
      MvPolynomial.C a0 + MvPolynomial.C a1 * s.x0.toMv + MvPolynomial.C a2 * s.x1.toMv,
      MvPolynomial.C b0 + MvPolynomial.C b1 * s.x0.toMv + MvPolynomial.C b2 * s.x1.toMv,
      MvPolynomial.C c0 + MvPolynomial.C c1 * s.y0.toMv + MvPolynomial.C c2 * s.y1.toMv,
      MvPolynomial.C d0 + MvPolynomial.C d1 * s.y0.toMv + MvPolynomial.C d2 * s.y1.toMv]
    have hint : c.integrand r (fun x y => MvPolynomial.eval ![x.1, x.2, y.1, y.2] P) =
        fun z => MvPolynomial.eval z (s.w.toMv * MvPolynomial.aeval g P) := by
      funext z
      rw [integrand_eq c h1 h2 r hr', hs, map_mul, Ex.eval_toMv, smul_eq_mul]
      congr 1
      have : MvPolynomial.eval z (MvPolynomial.aeval g P) = MvPolynomial.eval (fun i => MvPolynomial.eval z (g i)) P := by
        rw [MvPolynomial.aeval_def, MvPolynomial.eval₂_eq, map_sum, MvPolynomial.eval_eq]
        simp
      rw [this]
      unfold pairFun
      refine congrArg (fun q => MvPolynomial.eval q P) ?_
      rw [polyMap_exMap]
      apply P4.ext4 <;>
        simp only [pairMap, hf1, hg1, g, Matrix.cons_val, map_add, map_mul, MvPolynomial.eval_C, Ex.eval_toMv]
    rw [hint]
    refine exactFor_polynomial rule m hrule _ fun i => ?_
    obtain ⟨e0, e1, e2, e3, e4⟩ := hdeg i
    have q0 := (s.x0.degreeOf_toMv i).trans e0
    have q1 := (s.x1.degreeOf_toMv i).trans e1
    have q2 := (s.y0.degreeOf_toMv i).trans e2
    have q3 := (s.y1.degreeOf_toMv i).trans e3
    have q4 := (s.w.degreeOf_toMv i).trans e4
    refine (MvPolynomial.degreeOf_mul_le _ _ _).trans ?_
    have := degreeOf_aeval_le P g i (by
      intro j
      fin_cases j
      · exact affine_poly _ _ _ _ _ i q0 q1
      · exact affine_poly _ _ _ _ _ i q0 q1
      · exact affine_poly _ _ _ _ _ i q2 q3
      · exact affine_poly _ _ _ _ _ i q2 q3)
    omega

/-- **C61 (regularisation).**  For flat triangles placed as the configuration says, the integrands that the regions see
are bounded on the unit cube if the kernel grows at most like the inverse distance of the points: the weight factors
remove the singularity, although the kernel itself is unbounded. -/
theorem C61_regularised {V : Type} [NormedAddCommGroup V] [NormedSpace ℝ V] (c : Config) (hc : c.Valid) (A B : Nat → V)
    (hpl : c.Placed A B) :
    ∃ C : ℝ, ∀ k : ℝ × ℝ → ℝ × ℝ → E,
      (∀ x ∈ refTriangle, ∀ y ∈ refTriangle, ‖k x y‖ ≤ 1 / ‖place A x - place B y‖) →
      ∀ r < c.numRegions, ∀ z ∈ unitCube, ‖c.integrand r k z‖ ≤ C := by
  obtain ⟨φ, ψ, hφ, hψ, h1, h2⟩ := exists_remap c hc
  obtain ⟨κ, hκ, hsep⟩ := separation_le c hc A B hpl
  refine ⟨4 / κ, fun k hk r hr z hz => ?_⟩
  have hr' : r < c.exSamples.length := by rw [c.exSamples_length]; exact hr
  obtain ⟨m1, m2⟩ := sample_mem c r hr' z hz
  have m3 := weight_le_separation c r hr' z hz
  rw [integrand_eq c h1 h2 r hr' k z]
  generalize c.exSamples[r].w.eval z = w at m2 m3 ⊢
  generalize polyMap (exMap c.exSamples[r]) z = p at m1 m3 ⊢
  have m4 := (bijOn_pairMap hφ hψ).mapsTo m1
  have m5 := hsep p m1 _ _ (h1 _) (h2 _)
  have m6 : ‖pairFun k (pairMap φ ψ p)‖ ≤ 1 / ‖place A (φ (p 0, p 1)) - place B (ψ (p 2, p 3))‖ := hk _ m4.1 _ m4.2
  have m7 : 0 < separation c p := by linarith
  have m8 : 0 < ‖place A (φ (p 0, p 1)) - place B (ψ (p 2, p 3))‖ := lt_of_lt_of_le (mul_pos hκ m7) m5
  rw [norm_smul, Real.norm_of_nonneg m2.le]
  calc w * ‖pairFun k (pairMap φ ψ p)‖ ≤ w * (1 / ‖place A (φ (p 0, p 1)) - place B (ψ (p 2, p 3))‖) :=
        mul_le_mul_of_nonneg_left m6 m2.le
    _ = w / ‖place A (φ (p 0, p 1)) - place B (ψ (p 2, p 3))‖ := by ring
    _ ≤ 4 / κ := by
        rw [div_le_div_iff₀ m8 hκ]
        nlinarith

/-- **C61 (integrability).**  In the situation of `C61_regularised`, a continuous kernel that grows at most like the
inverse distance is integrable over the pairs of points, so that `C61_regions` and `C61_exact` apply to it. -/
theorem C61_integrable {V : Type} [NormedAddCommGroup V] [NormedSpace ℝ V] (c : Config) (hc : c.Valid) (A B : Nat → V)
    (hpl : c.Placed A B) (k : ℝ × ℝ → ℝ × ℝ → E)
    (hcont : ContinuousOn (pairFun k) (refPairs \ {p | place A (p 0, p 1) = place B (p 2, p 3)}))
    (hk : ∀ x ∈ refTriangle, ∀ y ∈ refTriangle, ‖k x y‖ ≤ 1 / ‖place A x - place B y‖) :
    IntegrableOn (pairFun k) refPairs := by
  obtain ⟨φ, ψ, hφ, hψ, h1, h2⟩ := exists_remap c hc
  obtain ⟨C, hC⟩ := C61_regularised (E := E) c hc A B hpl
  obtain ⟨κ, hκ, hsep⟩ := separation_le c hc A B hpl
  rw [(integral_pairMap hφ hψ (pairFun k)).1]
  refine integrable_samples c _ fun r => ?_
  have hmaps : MapsTo (fun z => pairMap φ ψ (polyMap (exMap c.exSamples[r]) z)) cube
      (refPairs \ {p | place A (p 0, p 1) = place B (p 2, p 3)}) := by
    intro z hz
    obtain ⟨m1, m2⟩ := sample_mem c r r.2 z hz
    have m3 := weight_le_separation c r r.2 z hz
    have m5 := hsep _ m1 _ _ (h1 _) (h2 _)
    refine ⟨(bijOn_pairMap hφ hψ).mapsTo m1, ?_⟩
    intro he
    have he' : place A (φ ((polyMap (exMap c.exSamples[r]) z) 0, (polyMap (exMap c.exSamples[r]) z) 1)) =
      place B (ψ ((polyMap (exMap c.exSamples[r]) z) 2, (polyMap (exMap c.exSamples[r]) z) 3)) := he
    have m6 := m5.trans (norm_eq_zero.mpr (sub_eq_zero.mpr he')).le
    nlinarith
  have hpm : Continuous (pairMap φ ψ) := by
    obtain ⟨A, -, hd⟩ := pairMap_deriv hφ hψ
    exact continuous_iff_continuousAt.mpr fun p => (hd p).continuousAt
  have hw : Continuous fun z => c.exSamples[r].w.eval z :=
    continuous_iff_continuousAt.mpr fun z => (c.exSamples[r].w.hasFDerivAt z).continuousAt
  have hco : ContinuousOn (fun z => (c.exSamples[r].w.eval z) •
      pairFun k (pairMap φ ψ (polyMap (exMap c.exSamples[r]) z))) cube :=
    hw.continuousOn.smul (hcont.comp (hpm.comp (polyMap_continuous _)).continuousOn hmaps)
  have hfin : volume cube < ⊤ := by
    refine lt_of_le_of_lt (measure_mono (t := Set.pi univ fun _ : Fin 4 => Icc (0 : ℝ) 1) ?_)
      (isCompact_univ_pi fun _ => isCompact_Icc).measure_lt_top
    intro z hz i _
    exact ⟨(hz i).1.le, (hz i).2.le⟩
  haveI : IsFiniteMeasure (volume.restrict cube) := ⟨by simpa using hfin⟩
  refine Integrable.of_bound (hco.aestronglyMeasurable measurable_cube) C ?_
  filter_upwards [ae_restrict_mem measurable_cube] with z hz
  have := hC k hk r (by rw [← c.exSamples_length]; exact r.2) z hz
  rwa [integrand_eq c h1 h2 r r.2 k z] at this

/-! ### The hypotheses are met -/

/-- The Gauss rule with two points per direction on the unit square. -/
noncomputable def gauss2 : Rule ℝ where
  n := 4
  point i := (1 / 2 + (if i % 2 = 0 then 1 else -1) * (√3 / 6), 1 / 2 + (if i / 2 = 0 then 1 else -1) * (√3 / 6))
  weight _ := 1 / 4

theorem gauss2_exact : gauss2.ExactDegree 3 := by
  have h : √3 * √3 = 3 := Real.mul_self_sqrt (by norm_num)
  have h2 : √3 ^ 2 = 3 := by rw [pow_two, h]
  have h4 : √3 ^ 4 = 9 := by rw [show √3 ^ 4 = (√3 ^ 2) ^ 2 by ring, h2]; norm_num
  have h6 : √3 ^ 6 = 27 := by rw [show √3 ^ 6 = (√3 ^ 2) ^ 3 by ring, h2]; norm_num
  intro a ha b hb
  interval_cases a <;> interval_cases b <;>
    (simp only [gauss2, Finset.sum_range_succ, Finset.sum_range_zero, integral_pow]
     norm_num
     try ring_nf
     try (simp only [h2, h4, h6]; norm_num))

/-- The rule for a common edge whose vertices are numbered differently in the two elements. -/
example : ∃ x y : Nat → ℝ × ℝ,
    (∀ col < 5 * 4 * 4, (fillSingular (.edge 2 0 1 2) gauss2).test col = some (x col) ∧
      (fillSingular (.edge 2 0 1 2) gauss2).trial col = some (y col)) ∧
    ∑ col ∈ Finset.range (5 * 4 * 4), (fillSingular (.edge 2 0 1 2) gauss2).weight col = ∫ _ in refPairs, (1 : ℝ) := by
  obtain ⟨x, y, h1, h2⟩ := C61_polynomials (.edge 2 0 1 2) (by decide) gauss2 3 gauss2_exact 1 (by simp)
  refine ⟨x, y, h1, ?_⟩
  simp only [map_one, mul_one] at h2
  exact h2

/-- Three triangles in space: corners of the second share an edge, of the third a vertex with the first. -/
def cornersA : Nat → ℝ × ℝ × ℝ := fun v => if v = 0 then (0, 0, 0) else if v = 1 then (1, 0, 0) else (0, 1, 0)
/-- The second triangle. -/
def cornersB : Nat → ℝ × ℝ × ℝ := fun v => if v = 0 then (1, 0, 0) else if v = 1 then (0, 0, 0) else (0, -1, 1)
/-- The third triangle. -/
def cornersC : Nat → ℝ × ℝ × ℝ := fun v => if v = 0 then (-1, 0, 0) else if v = 1 then (-1, 1, 1) else (0, 0, 0)

theorem placed_coincident : Config.Placed cornersA cornersA .coincident := by
  refine ⟨⟨rfl, rfl, rfl⟩, fun a b h => ?_⟩
  simpa [cornersA, Prod.ext_iff] using h

theorem placed_edge : Config.Placed cornersA cornersB (.edge 0 1 1 0) := by
  refine ⟨⟨rfl, rfl⟩, fun d a b ha hb h => ?_⟩
  simp [cornersA, cornersB, Prod.ext_iff] at h
  obtain ⟨h1, h2, h3⟩ := h
  refine ⟨h1, ?_, ?_⟩ <;> linarith

theorem placed_vertex : Config.Placed cornersA cornersC (.vertex 0 2) := by
  refine ⟨rfl, fun a a' b b' ha ha' hb hb' h => ?_⟩
  simp [cornersA, cornersC, Prod.ext_iff] at h
  obtain ⟨h1, h2, h3⟩ := h
  refine ⟨?_, ?_, ?_, ?_⟩ <;> linarith

/-- The inverse distance of points of adjacent triangles: its integral is that of the integrands the five regions see. -/
example : ∫ p in refPairs, pairFun (fun x y => 1 / ‖place cornersA x - place cornersB y‖) p =
    ∑ r ∈ Finset.range 5, ∫ z in unitCube,
      (Config.edge 0 1 1 0).integrand r (fun x y => 1 / ‖place cornersA x - place cornersB y‖) z := by
  refine C61_regions _ (by decide) _ (C61_integrable _ (by decide) _ _ placed_edge _ ?_ ?_)
  · intro p hp
    have h1 : Continuous fun p : Fin 4 → ℝ => place cornersA (p 0, p 1) - place cornersB (p 2, p 3) := by
      unfold place; fun_prop
    refine ContinuousAt.continuousWithinAt ?_
    exact continuousAt_const.div h1.norm.continuousAt (norm_ne_zero_iff.mpr (sub_ne_zero.mpr hp.2))
  · intro x _ y _
    simp

end Verif.Quad
