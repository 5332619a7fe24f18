import Verif.Lemmas.ScalarKernelIntegral
import Mathlib.NumberTheory.Zsqrtd.GaussianInt
import Mathlib.Data.Complex.BigOperators
/-
C66: the entries of a local matrix are the quadrature sums, whichever of the implementations is used.
-/
namespace Verif.Integral

open Finset

variable {K : Type} [CommRing K] [StarRing K]

/-- Weights and integration elements are real numbers. -/
def RealValued (f : Nat → K) : Prop := ∀ p, star (f p) = f p

/-- C66: a non-tensor quadrature rule gives the sum over the pairs of points, whatever the temporary buffers hold. -/
theorem C66_nontensor {T m n P : Nat} {dim : Nat → Nat} {test trial kernels : List (Array3 K)}
    {testJ trialJ w : Nat → K} (hc : Compatible T m n P P dim test trial)
    (hk : kernels.length = 1 ∨ kernels.length = T)
    (hj : RealValued testJ) (hj' : RealValued trialJ) (hw : RealValued w) (uninit : LoopState K) :
    ∃ r, nontensor testJ trialJ w P test trial kernels uninit = some r ∧
      ∀ i j, i < m → j < n → r i j = pointSum T P dim test trial kernels testJ trialJ w i j := by
  obtain ⟨test0, ht0, -, ht0m, -⟩ := hc.test_some hc.pos
  obtain ⟨trial0, hr0, -, hr0n, -⟩ := hc.trial_some hc.pos
  have hloop := foldlM_range_some
    (nontensorStep testJ trialJ w P m n test trial kernels) T
    { uninit with result := fun _ _ => 0 }
    (fun k s => (0 < k → ∀ p < P, s.products p =
        star (kernelAt kernels (kernelFor kernels.length (k - 1)) p) * testJ p * trialJ p * w p) ∧
      ∀ i j, i < m → j < n → s.result i j = pointSum k P dim test trial kernels testJ trialJ w i j)
    ⟨fun h => absurd h (by omega), fun i j _ _ => by simp [pointSum]⟩ (by
      rintro t s ht ⟨hprod, hres⟩
      obtain ⟨a, ha, ha0, ham, haP⟩ := hc.test_some ht
      obtain ⟨b, hb, hb0, hbn, hbP⟩ := hc.trial_some ht
      obtain ⟨products, hproducts, hvals⟩ : ∃ products : Nat → K,
          newProducts testJ trialJ w P kernels s.products t = some products ∧
          ∀ p < P, products p = star (kernelAt kernels (kernelFor kernels.length t) p) * testJ p * trialJ p * w p := by
        unfold newProducts
        by_cases h : t = 0 ∨ 1 < kernels.length
        · have hlt : t < kernels.length := by
            rcases hk with h1 | h1 <;> omega
          have hkf : kernelFor kernels.length t = t := by
            unfold kernelFor
            split <;> omega
          rw [if_pos h, List.getElem?_eq_getElem hlt]
          refine ⟨_, rfl, fun p hp => ?_⟩
          dsimp only
          rw [if_pos hp, hkf]
          simp [kernelAt, List.getElem?_eq_getElem hlt]
        · rw [if_neg h]
          refine ⟨_, rfl, fun p hp => ?_⟩
          rw [hprod (by omega) p hp]
          have : kernels.length = 1 := by rcases hk with h1 | h1 <;> omega
          simp [kernelFor, this]
      refine ⟨_, by
        simp only [nontensorStep, ha, hb, hproducts, Option.bind_eq_bind, Option.bind_some, Option.pure_def]; rfl, ?_, ?_⟩
      · intro _ p hp
        exact hvals p hp
      · intro i j hi hj₂
        show s.result i j + _ = _
        rw [hres i j hi hj₂]
        unfold pointSum
        rw [Finset.sum_range_succ]
        congr 1
        have key := nontensor_term a b products s.tmpTest s.tmpTrial (P := P) (by rw [hb0, ha0]) haP hbP (i := i) (j := j)
          (by omega) (by omega)
        rw [ham, hbn] at key
        rw [key]
        refine Finset.sum_congr rfl fun p hp => ?_
        rw [Finset.mem_range] at hp
        rw [hvals p hp]
        simp only [star_mul', star_star, hj p, hj' p, hw p]
        unfold dot
        rw [← ha0]
        simp only [value_of_some ha, value_of_some hb]
        ring)
  obtain ⟨s, hs, -, hr⟩ := hloop
  refine ⟨s.result, ?_, hr⟩
  simp only [nontensor, ht0, hr0, ht0m, hr0n, hc.testLength, hs, Option.bind_eq_bind, Option.bind_some, Option.pure_def]

/-- C66: a tensor-product rule gives the sum over all pairs of a test and a trial point, whichever side has more functions. -/
theorem C66_tensor {T m n P Q : Nat} {dim : Nat → Nat} {test trial : List (Array3 K)} {kernels : List (Array4 K)}
    {testJ trialJ testW trialW : Nat → K} (hc : Compatible T m n P Q dim test trial)
    (hk : kernels.length = 1 ∨ kernels.length = T)
    (hke : ∀ (t : Nat) (a : Array4 K), kernels[t]? = some a → a.ext0 = 1 ∧ a.ext1 = 1 ∧ a.ext2 = P ∧ a.ext3 = Q)
    (hj : RealValued trialJ) (hw : RealValued trialW) (uninit : LoopState K) :
    ∃ r, tensor testJ trialJ testW trialW P Q test trial kernels uninit = some r ∧
      ∀ i j, i < m → j < n → r i j = gridSum T P Q dim test trial kernels testJ trialJ testW trialW i j := by
  obtain ⟨test0, ht0, -, ht0m, -⟩ := hc.test_some hc.pos
  obtain ⟨trial0, hr0, -, hr0n, -⟩ := hc.trial_some hc.pos
  have hloop := foldlM_range_some
    (tensorStep testJ trialJ testW trialW P Q m n test trial kernels) T
    { uninit with result := fun _ _ => 0 }
    (fun k s => ∀ i j, i < m → j < n → s.result i j =
      gridSum k P Q dim test trial kernels testJ trialJ testW trialW i j)
    (fun i j _ _ => by simp [gridSum]) (by
      intro t s ht hres
      obtain ⟨a, ha, ha0, ham, haP⟩ := hc.test_some ht
      obtain ⟨b, hb, hb0, hbn, hbQ⟩ := hc.trial_some ht
      have hlt : (if kernels.length = 1 then 0 else t) < kernels.length := by
        split <;> (rcases hk with h1 | h1 <;> omega)
      obtain ⟨k, hkk⟩ : ∃ k, kernels[if kernels.length = 1 then 0 else t]? = some k := ⟨_, List.getElem?_eq_getElem hlt⟩
      obtain ⟨hk0, hk1, hk2, hk3⟩ := hke _ _ hkk
      have hww : ∀ q, star (trialJ q * trialW q) = trialJ q * trialW q := fun q => by
        rw [star_mul', hj q, hw q]
      have hterm : ∀ i j, gridTerm a b (fun p q => k.data (p + P * q)) (fun p => testJ p * testW p)
          (fun q => trialJ q * trialW q) P Q i j =
          ∑ p ∈ range P, ∑ q ∈ range Q, kernelAt2 kernels (kernelFor kernels.length t) p q * dot dim test trial t i p j q *
            ((testJ p * testW p) * (trialJ q * trialW q)) := by
        intro i j
        unfold gridTerm
        refine Finset.sum_congr rfl fun p hp => Finset.sum_congr rfl fun q hq => ?_
        have : kernelAt2 kernels (kernelFor kernels.length t) p q = k.data (p + P * q) := by
          unfold kernelAt2 kernelFor
          rw [hkk]
          simp [Array4.get, hk0, hk1, hk2]
        rw [this]
        unfold dot
        rw [← ha0]
        simp only [value_of_some ha, value_of_some hb]
      by_cases hmn : n ≤ m
      · refine ⟨_, by
          simp only [tensorStep, ha, hb, hkk, if_pos hmn, Option.bind_eq_bind, Option.bind_some, Option.pure_def]; rfl, ?_⟩
        intro i j hi hj₂
        show s.result i j + _ = _
        rw [hres i j hi hj₂]
        unfold gridSum
        rw [Finset.sum_range_succ]
        congr 1
        rw [← hterm i j]
        have key := tensor_term_trial a b k.data (fun p => testJ p * testW p) (fun q => trialJ q * trialW q)
          (transposeSlices b (fun point x => trialJ point * trialW point * star x) s.tmpTest) s.tmpTest s.tmpTrial (P := P) (Q := Q)
          (by rw [hb0, ha0]) haP hbQ (i := i) (j := j) (by omega) (by omega) hww
        rw [ham, hbn] at key
        exact key
      · refine ⟨_, by
          simp only [tensorStep, ha, hb, hkk, if_neg hmn, Option.bind_eq_bind, Option.bind_some, Option.pure_def]; rfl, ?_⟩
        intro i j hi hj₂
        show s.result i j + _ = _
        rw [hres i j hi hj₂]
        unfold gridSum
        rw [Finset.sum_range_succ]
        congr 1
        rw [← hterm i j]
        have key := tensor_term_test a b k.data (fun p => testJ p * testW p) (fun q => trialJ q * trialW q)
          s.tmpTest (transposeSlices a (fun point x => testJ point * testW point * star x) s.tmpTest) s.tmpTrial (P := P) (Q := Q)
          (by rw [hb0, ha0]) haP hbQ (i := i) (j := j) (by omega) (by omega) hww
        rw [ham, hbn] at key
        exact key)
  obtain ⟨s, hs, hr⟩ := hloop
  refine ⟨s.result, ?_, hr⟩
  simp only [tensor, ht0, hr0, ht0m, hr0n, hc.testLength, hs, Option.bind_eq_bind, Option.bind_some, Option.pure_def]

/-- The functor at a pair of points: the sum over the transformations of kernel times inner product. -/
theorem functorAt_eq {T m n P Q : Nat} {dim : Nat → Nat} {test trial : List (Array3 K)}
    (hc : Compatible T m n P Q dim test trial) (ks : List K) (hk : ks.length = T) (i p j q : Nat) :
    functorAt test trial ks i p j q =
      some (∑ t ∈ range T, dot dim test trial t i p j q * (ks[t]?).getD 0) := by
  unfold functorAt functor
  have h := foldlM_range_sum (List.map Array3.ext0 test).length
    (fun result transIndex => do
      let transDim ← (test.map Array3.ext0)[transIndex]?
      let dotProduct := (List.range transDim).foldl (fun s dim => s +
        star (((test[transIndex]?).map fun a => a.get dim i p).getD 0) *
          ((trial[transIndex]?).map fun a => a.get dim j q).getD 0) 0
      let kernel ← ks[if (test.map Array3.ext0).length = 1 then 0 else transIndex]?
      return result + dotProduct * kernel) (fun t => dot dim test trial t i p j q * (ks[t]?).getD 0) (by
      intro s t ht
      rw [List.length_map, hc.testLength] at ht
      obtain ⟨a, ha, ha0, -, -⟩ := hc.test_some ht
      have hk' : (if (test.map Array3.ext0).length = 1 then 0 else t) = t := by
        split
        · rename_i h
          rw [List.length_map, hc.testLength] at h
          omega
        · rfl
      have hlt : t < ks.length := by omega
      simp only [List.getElem?_map, hk', List.getElem?_eq_getElem hlt, Option.bind_eq_bind,
          Option.bind_some, Option.pure_def, Option.getD_some, foldl_range_sum]
      rw [ha]
      simp only [Option.map_some, Option.bind_some, dot, ← ha0, value, ha])
  rw [List.length_map, hc.testLength] at h
  rw [← h]
  simp only [List.length_map, hc.testLength]

/-- C66: the general implementation with the standard integrand agrees, for one kernel per transformation. -/
theorem C66_default_nontensor {T m n P : Nat} {dim : Nat → Nat} {test trial kernels : List (Array3 K)}
    {testJ trialJ w : Nat → K} (hc : Compatible T m n P P dim test trial) (hk : kernels.length = T) (i j : Nat) :
    defaultNontensor testJ trialJ w P test trial kernels i j =
      some (pointSum T P dim test trial kernels testJ trialJ w i j) := by
  unfold defaultNontensor pointSum
  rw [Finset.sum_comm]
  refine foldlM_range_sum P _ _ fun s p hp => ?_
  rw [functorAt_eq hc _ (by rw [List.length_map, hk])]
  simp only [Option.bind_eq_bind, Option.bind_some, Option.pure_def]
  congr 2
  rw [Finset.sum_mul]
  refine Finset.sum_congr rfl fun t ht => ?_
  rw [Finset.mem_range] at ht
  have hkf : kernelFor kernels.length t = t := by
    unfold kernelFor
    split <;> omega
  rw [hkf, kernelAt, List.getElem?_map]
  ring

/-- C66: the same for tensor-product rules. -/
theorem C66_default_tensor {T m n P Q : Nat} {dim : Nat → Nat} {test trial : List (Array3 K)} {kernels : List (Array4 K)}
    {testJ trialJ testW trialW : Nat → K} (hc : Compatible T m n P Q dim test trial) (hk : kernels.length = T) (i j : Nat) :
    defaultTensor testJ trialJ testW trialW P Q test trial kernels i j =
      some (gridSum T P Q dim test trial kernels testJ trialJ testW trialW i j) := by
  unfold defaultTensor gridSum
  have hq : ∀ q, ((List.range P).foldlM (fun partialSum testPoint => do
      let v ← functorAt test trial (kernels.map fun a => a.get 0 0 testPoint q) i testPoint j q
      return partialSum + v * (testJ testPoint * testW testPoint)) (0 : K)) =
      some (∑ p ∈ range P, ∑ t ∈ range T,
        kernelAt2 kernels (kernelFor kernels.length t) p q * dot dim test trial t i p j q * (testJ p * testW p)) := by
    intro q
    refine foldlM_range_sum P _ _ fun s p hp => ?_
    rw [functorAt_eq hc _ (by rw [List.length_map, hk])]
    simp only [Option.bind_eq_bind, Option.bind_some, Option.pure_def]
    congr 2
    rw [Finset.sum_mul]
    refine Finset.sum_congr rfl fun t ht => ?_
    rw [Finset.mem_range] at ht
    have hkf : kernelFor kernels.length t = t := by
      unfold kernelFor
      split <;> omega
    rw [hkf, kernelAt2, List.getElem?_map]
    ring
  simp only [hq]
  simp only [Option.bind_eq_bind, Option.bind_some, Option.pure_def]
  rw [foldlM_range_sum Q _ (fun q => (∑ p ∈ range P, ∑ t ∈ range T,
        kernelAt2 kernels (kernelFor kernels.length t) p q * dot dim test trial t i p j q * (testJ p * testW p)) *
          (trialJ q * trialW q)) (fun s q _ => rfl)]
  congr 1
  simp only [Finset.sum_mul]
  rw [Finset.sum_comm, Finset.sum_congr rfl fun p _ => Finset.sum_comm, Finset.sum_comm]
  exact Finset.sum_congr rfl fun t _ => Finset.sum_congr rfl fun p _ => Finset.sum_congr rfl fun q _ => by ring

/-- C66: the specialised, the general and the tensor-product implementations agree on a rule that can be read both ways:
for one kernel per transformation, the four results are the same numbers. -/
theorem C66_agree_nontensor {T m n P : Nat} {dim : Nat → Nat} {test trial kernels : List (Array3 K)}
    {testJ trialJ w : Nat → K} (hc : Compatible T m n P P dim test trial) (hk : kernels.length = T)
    (hj : RealValued testJ) (hj' : RealValued trialJ) (hw : RealValued w) (uninit : LoopState K) :
    ∃ r, nontensor testJ trialJ w P test trial kernels uninit = some r ∧
      ∀ i j, i < m → j < n → defaultNontensor testJ trialJ w P test trial kernels i j = some (r i j) := by
  obtain ⟨r, hr, h⟩ := C66_nontensor hc (Or.inr hk) hj hj' hw uninit
  refine ⟨r, hr, fun i j hi hj₂ => ?_⟩
  rw [C66_default_nontensor hc hk, h i j hi hj₂]

/-- The array with the same entries, as complex numbers. -/
def complexify (a : Array3 ℝ) : Array3 ℂ := ⟨a.ext0, a.ext1, a.ext2, fun k => (a.data k : ℂ)⟩

theorem kernel_times_dot {dim : Nat → Nat} {test trial : List (Array3 ℝ)}
    (t i p j q : Nat) :
    dot dim (test.map complexify) (trial.map complexify) t i p j q = ((dot dim test trial t i p j q : ℝ) : ℂ) := by
  unfold dot value
  rw [Complex.ofReal_sum]
  refine Finset.sum_congr rfl fun d _ => ?_
  rw [List.getElem?_map, List.getElem?_map]
  cases test[t]? <;> cases trial[t]? <;> simp [complexify, Array3.get]

/-- C66: real basis functions with a complex kernel: real and imaginary parts computed separately give the same sum. -/
theorem C66_real_basis {T m n P : Nat} {dim : Nat → Nat} {test trial : List (Array3 ℝ)} {kernels : List (Array3 ℂ)}
    {testJ trialJ w : Nat → ℝ} (hc : Compatible T m n P P dim test trial)
    (hk : kernels.length = 1 ∨ kernels.length = T) (uninit : SplitState) :
    ∃ r, splitNontensor testJ trialJ w P test trial kernels uninit = some r ∧
      ∀ i j, i < m → j < n → r i j = pointSum T P dim (test.map complexify) (trial.map complexify) kernels
        (fun p => (testJ p : ℂ)) (fun p => (trialJ p : ℂ)) (fun p => (w p : ℂ)) i j := by
  obtain ⟨test0, ht0, -, ht0m, -⟩ := hc.test_some hc.pos
  obtain ⟨trial0, hr0, -, hr0n, -⟩ := hc.trial_some hc.pos
  have hloop := foldlM_range_some
    (splitStep testJ trialJ w P m n test trial kernels) T uninit
    (fun k s => 0 < k →
      (∀ p < P, s.productsReal p = (kernelAt kernels (kernelFor kernels.length (k - 1)) p).re * (testJ p * trialJ p * w p) ∧
        s.productsImag p = (kernelAt kernels (kernelFor kernels.length (k - 1)) p).im * (testJ p * trialJ p * w p)) ∧
      ∀ i j, i < m → j < n →
        s.matResultReal i j = ∑ t ∈ range k, ∑ p ∈ range P, (kernelAt kernels (kernelFor kernels.length t) p).re *
          (testJ p * trialJ p * w p) * dot dim test trial t i p j p ∧
        s.matResultImag i j = ∑ t ∈ range k, ∑ p ∈ range P, (kernelAt kernels (kernelFor kernels.length t) p).im *
          (testJ p * trialJ p * w p) * dot dim test trial t i p j p)
    (fun h => absurd h (by omega)) (by
      intro t s ht hI
      obtain ⟨a, ha, ha0, ham, haP⟩ := hc.test_some ht
      obtain ⟨b, hb, hb0, hbn, hbP⟩ := hc.trial_some ht
      obtain ⟨products, hproducts, hvals⟩ : ∃ products : (Nat → ℝ) × (Nat → ℝ),
          newSplitProducts testJ trialJ w P kernels (s.productsReal, s.productsImag) t = some products ∧
          ∀ p < P, products.1 p = (kernelAt kernels (kernelFor kernels.length t) p).re * (testJ p * trialJ p * w p) ∧
            products.2 p = (kernelAt kernels (kernelFor kernels.length t) p).im * (testJ p * trialJ p * w p) := by
        unfold newSplitProducts
        by_cases h : t = 0 ∨ 1 < kernels.length
        · have hlt : t < kernels.length := by
            rcases hk with h1 | h1 <;> omega
          have hkf : kernelFor kernels.length t = t := by
            unfold kernelFor
            split <;> omega
          rw [if_pos h, List.getElem?_eq_getElem hlt]
          refine ⟨_, rfl, fun p hp => ?_⟩
          dsimp only
          rw [if_pos hp, if_pos hp, hkf]
          simp [kernelAt, List.getElem?_eq_getElem hlt]
        · rw [if_neg h]
          refine ⟨_, rfl, fun p hp => ?_⟩
          have h1 : kernels.length = 1 := by rcases hk with h1 | h1 <;> omega
          have := (hI (by omega)).1 p hp
          simp only [kernelFor, h1, if_true] at this ⊢
          exact this
      refine ⟨_, by
        simp only [splitStep, ha, hb, hproducts, Option.bind_eq_bind, Option.bind_some, Option.pure_def]; rfl, ?_⟩
      intro _
      refine ⟨fun p hp => hvals p hp, fun i j hi hj₂ => ?_⟩
      have key : ∀ (g v : Nat → ℝ),
          mulAdjoint (P * a.ext0) (mapped (transposeSlices a (fun _ x => star x) s.tmpTest) m)
            (mapped (transposeSlices b (fun point x => g point * star x) v) n) i j =
          ∑ p ∈ range P, g p * dot dim test trial t i p j p := by
        intro g v
        have key := nontensor_term a b g s.tmpTest v (P := P) (by rw [hb0, ha0]) haP hbP (i := i) (j := j)
          (by omega) (by omega)
        rw [ham, hbn] at key
        rw [key]
        refine Finset.sum_congr rfl fun p _ => ?_
        unfold dot
        rw [← ha0]
        simp only [value_of_some ha, value_of_some hb, star_trivial]
      have hre : ∀ v, mulAdjoint (P * a.ext0) (mapped (transposeSlices a (fun _ x => star x) s.tmpTest) m)
            (mapped (transposeSlices b (fun point x => products.1 point * star x) v) n) i j =
          ∑ p ∈ range P, (kernelAt kernels (kernelFor kernels.length t) p).re *
          (testJ p * trialJ p * w p) * dot dim test trial t i p j p := fun v => by
        rw [key]
        refine Finset.sum_congr rfl fun p hp => ?_
        rw [(hvals p (Finset.mem_range.mp hp)).1]
      have him : ∀ v, mulAdjoint (P * a.ext0) (mapped (transposeSlices a (fun _ x => star x) s.tmpTest) m)
            (mapped (transposeSlices b (fun point x => products.2 point * star x) v) n) i j =
          ∑ p ∈ range P, (kernelAt kernels (kernelFor kernels.length t) p).im *
          (testJ p * trialJ p * w p) * dot dim test trial t i p j p := fun v => by
        rw [key]
        refine Finset.sum_congr rfl fun p hp => ?_
        rw [(hvals p (Finset.mem_range.mp hp)).2]
      rw [Finset.sum_range_succ, Finset.sum_range_succ]
      dsimp only
      by_cases h0 : t = 0
      · subst h0
        simp only [if_true, hre, him, Finset.range_zero, Finset.sum_empty, zero_add, and_self]
      · obtain ⟨hr, hi'⟩ := (hI (by omega)).2 i j hi hj₂
        simp only [if_neg h0, hre, him, hr, hi', and_self])
  obtain ⟨s, hs, hr⟩ := hloop
  refine ⟨fun i j => ⟨s.matResultReal i j, s.matResultImag i j⟩, ?_, fun i j hi hj => ?_⟩
  · simp only [splitNontensor, ht0, hr0, ht0m, hr0n, hc.testLength, hs, Option.bind_eq_bind, Option.bind_some,
      Option.pure_def]
  · obtain ⟨h1, h2⟩ := (hr hc.pos).2 i j hi hj
    have hterm : pointSum T P dim (test.map complexify) (trial.map complexify) kernels
        (fun p => (testJ p : ℂ)) (fun p => (trialJ p : ℂ)) (fun p => (w p : ℂ)) i j =
        ∑ t ∈ range T, ∑ p ∈ range P, kernelAt kernels (kernelFor kernels.length t) p *
          ((dot dim test trial t i p j p * (testJ p * trialJ p * w p) : ℝ) : ℂ) := by
      unfold pointSum
      refine Finset.sum_congr rfl fun t _ => Finset.sum_congr rfl fun p _ => ?_
      rw [kernel_times_dot]
      push_cast
      ring
    rw [hterm]
    apply Complex.ext
    · simp only [Complex.re_sum, Complex.re_mul_ofReal]
      rw [h1]
      exact Finset.sum_congr rfl fun t _ => Finset.sum_congr rfl fun p _ => by ring
    · simp only [Complex.im_sum, Complex.im_mul_ofReal]
      rw [h2]
      exact Finset.sum_congr rfl fun t _ => Finset.sum_congr rfl fun p _ => by ring

/-! ### One kernel for two transformations

All three functions assert that there is one kernel or one per transformation.  The specialised implementations use the single
kernel for all transformations, but the integrand functor reads past the end of the collection of kernels; that functor is what
the tensor-product rule for complex basis functions and a real kernel uses (`:517-527`). -/

/-- Two transformations of one component, one function and one point on either side. -/
def twoTerms : List (Array3 GaussianInt) := [⟨1, 1, 1, fun _ => 1⟩, ⟨1, 1, 1, fun _ => ⟨0, 1⟩⟩]

theorem twoTerms_compatible : Compatible 2 1 1 1 1 (fun _ => 1) twoTerms twoTerms where
  pos := by decide
  testLength := rfl
  trialLength := rfl
  testExt := by
    rintro (_ | _ | t) a h
    · simp only [twoTerms, List.getElem?_cons_zero, Option.some.injEq] at h; subst h; decide
    · simp only [twoTerms, List.getElem?_cons_succ, List.getElem?_cons_zero, Option.some.injEq] at h; subst h; decide
    · simp [twoTerms] at h
  trialExt := by
    rintro (_ | _ | t) a h
    · simp only [twoTerms, List.getElem?_cons_zero, Option.some.injEq] at h; subst h; decide
    · simp only [twoTerms, List.getElem?_cons_succ, List.getElem?_cons_zero, Option.some.injEq] at h; subst h; decide
    · simp [twoTerms] at h

/-- C66: with one kernel for two transformations the functor, and with it the general implementation, is undefined, while the
specialised one yields the sum. -/
theorem C66_counterexample_single_kernel :
    defaultTensor (fun _ => 1) (fun _ => 1) (fun _ => 1) (fun _ => 1) 1 1 twoTerms twoTerms
        [(⟨1, 1, 1, 1, fun _ => 3⟩ : Array4 GaussianInt)] 0 0 = none ∧
      ∀ uninit, ∃ r, tensor (fun _ => 1) (fun _ => 1) (fun _ => 1) (fun _ => 1) 1 1 twoTerms twoTerms
        [(⟨1, 1, 1, 1, fun _ => 3⟩ : Array4 GaussianInt)] uninit = some r ∧ r 0 0 = 6 := by
  refine ⟨by decide, fun uninit => ?_⟩
  obtain ⟨r, hr, h⟩ := C66_tensor (testJ := fun _ => (1 : GaussianInt)) (trialJ := fun _ => 1) (testW := fun _ => 1)
    (trialW := fun _ => 1) (kernels := [⟨1, 1, 1, 1, fun _ => 3⟩]) twoTerms_compatible (Or.inl rfl)
    (by
      rintro (_ | t) a h
      · simp only [List.getElem?_cons_zero, Option.some.injEq] at h; subst h; decide
      · simp at h)
    (fun _ => star_one _) (fun _ => star_one _) uninit
  refine ⟨r, hr, ?_⟩
  rw [h 0 0 (by decide) (by decide)]
  decide

/-- The hypotheses are met, with two transformations, conjugation at work and a complex kernel: the sum is
`(2 + i)(conj 1 · 1) + (2 + i)(conj i · i) = 4 + 2i`. -/
example (uninit : LoopState GaussianInt) :
    ∃ r, nontensor (fun _ => 1) (fun _ => 1) (fun _ => 1) 1 twoTerms twoTerms
        [⟨1, 1, 1, fun _ => ⟨2, 1⟩⟩] uninit = some r ∧ r 0 0 = ⟨4, 2⟩ := by
  obtain ⟨r, hr, h⟩ := C66_nontensor (kernels := [⟨1, 1, 1, fun _ => ⟨2, 1⟩⟩]) twoTerms_compatible (Or.inl rfl)
    (fun _ => star_one GaussianInt) (fun _ => star_one _) (fun _ => star_one _) uninit
  exact ⟨r, hr, by rw [h 0 0 (by decide) (by decide)]; decide⟩

end Verif.Integral
