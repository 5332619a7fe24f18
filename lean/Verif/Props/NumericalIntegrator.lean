import Verif.Spec.NumericalIntegrator
import Verif.Props.ScalarKernelIntegral
/-
C67: an integrator computes, for each element or pair of elements, the matrix of integrals over that pair: independently of
the other elements of the call, of earlier calls on the same thread and of the caching of geometrical and basis data.
-/
namespace Verif.Integrator

open Verif.HMat Verif.LocalAsm

variable {S V B W L K : Type}

theorem fill_agrees (what : Field → Bool) (el : Field → V) (d : GeomData V) (f : Field) (h : what f = true) :
    fill what el d f = el f := by
  cases f <;> simp [fill, h]

/-- Data that agree with those of the element on the fields of `deps`. -/
def Agrees (deps : Field → Bool) (g : GeomData V) (el : Field → V) : Prop := ∀ f, deps f = true → g f = el f

variable (I : Parts S V B W L K)

/-- The integrals computed from data that agree with those of the elements where declared. -/
theorem integral_eq (h : I.Honest) {e t : Nat} {g g' : GeomData V} (hg : Agrees I.testGeomDeps g (I.testGeom e))
    (hg' : Agrees I.trialGeomDeps g' (I.trialGeom t)) (b b' : B) :
    I.integral g g' (I.testTransformation b g) (I.trialTransformation b' g') (I.kernels g g') =
      I.integral (I.testGeom e) (I.trialGeom t) (I.testTransformation b (I.testGeom e))
        (I.trialTransformation b' (I.trialGeom t)) (I.kernels (I.testGeom e) (I.trialGeom t)) := by
  have d1 : ∀ f, I.testTransformationDeps f = true → g f = I.testGeom e f := fun f hf =>
    hg f (by simp [Parts.testGeomDeps, hf])
  have d2 : ∀ f, I.trialTransformationDeps f = true → g' f = I.trialGeom t f := fun f hf =>
    hg' f (by simp [Parts.trialGeomDeps, hf])
  have d3 : ∀ f, I.kernelTestDeps f = true → g f = I.testGeom e f := fun f hf =>
    hg f (by simp [Parts.testGeomDeps, hf])
  have d4 : ∀ f, I.kernelTrialDeps f = true → g' f = I.trialGeom t f := fun f hf =>
    hg' f (by simp [Parts.trialGeomDeps, hf])
  have d5 : ∀ f, I.integralTestDeps f = true → g f = I.testGeom e f := fun f hf =>
    hg f (by simp [Parts.testGeomDeps, hf])
  have d6 : ∀ f, I.integralTrialDeps f = true → g' f = I.trialGeom t f := fun f hf =>
    hg' f (by simp [Parts.trialGeomDeps, hf])
  rw [h.testTransformation b _ _ d1, h.trialTransformation b' _ _ d2]
  have hk : I.kernels g g' = I.kernels (I.testGeom e) (I.trialGeom t) :=
    (h.kernelsTest g' _ _ d3).trans (h.kernelsTrial _ _ _ d4)
  rw [hk]
  exact (h.integralTest g' _ _ _ _ _ d5).trans (h.integralTrial _ _ _ _ _ _ d6)

/-- The cache of geometrical data: none, or that filled by the constructor. -/
def CacheOk (cache : Option (GeomCache V)) : Prop := ∀ c, cache = some c → ∃ blank, c = I.precalculate blank

variable {I}

theorem testData_agrees {cache : Option (GeomCache V)} (hc : CacheOk I cache) (e : Nat) (l : Local V) :
    Agrees I.testGeomDeps (I.testData cache e l).1 (I.testGeom e) := by
  intro f hf
  cases cache with
  | none => exact fill_agrees _ _ _ _ hf
  | some c =>
    obtain ⟨blank, rfl⟩ := hc c rfl
    exact fill_agrees _ _ _ _ hf

theorem trialData_agrees {cache : Option (GeomCache V)} (hc : CacheOk I cache) (e : Nat) (l : Local V) :
    Agrees I.trialGeomDeps (I.trialData cache e l).1 (I.trialGeom e) := by
  intro f hf
  cases cache with
  | none => exact fill_agrees _ _ _ _ hf
  | some c =>
    obtain ⟨blank, rfl⟩ := hc c rfl
    exact fill_agrees _ _ _ _ hf

theorem loopTestTrial_eq (h : I.Honest) {cache : Option (GeomCache V)} (hc : CacheOk I cache) (b b' : B) {t : Nat}
    {g' : GeomData V} (hg' : Agrees I.trialGeomDeps g' (I.trialGeom t)) (rows cols : Nat) (as : List Nat) (l : Local V) :
    (I.loopTestTrial cache b g' (I.trialTransformation b' g') rows cols as l).1 =
      as.map fun a => ⟨rows, cols, I.integral (I.testGeom a) (I.trialGeom t) (I.testTransformation b (I.testGeom a))
        (I.trialTransformation b' (I.trialGeom t)) (I.kernels (I.testGeom a) (I.trialGeom t))⟩ := by
  induction as generalizing l with
  | nil => rfl
  | cons a as ih =>
    simp only [Parts.loopTestTrial, List.map_cons]
    rw [ih, integral_eq I h (testData_agrees hc a l) hg']

theorem loopTrialTest_eq (h : I.Honest) {cache : Option (GeomCache V)} (hc : CacheOk I cache) (b b' : B) {e : Nat}
    {g : GeomData V} (hg : Agrees I.testGeomDeps g (I.testGeom e)) (rows cols : Nat) (as : List Nat) (l : Local V) :
    (I.loopTrialTest cache b' g (I.testTransformation b g) rows cols as l).1 =
      as.map fun a => ⟨rows, cols, I.integral (I.testGeom e) (I.trialGeom a) (I.testTransformation b (I.testGeom e))
        (I.trialTransformation b' (I.trialGeom a)) (I.kernels (I.testGeom e) (I.trialGeom a))⟩ := by
  induction as generalizing l with
  | nil => rfl
  | cons a as ih =>
    simp only [Parts.loopTrialTest, List.map_cons]
    rw [ih, integral_eq I h hg (trialData_agrees hc a l)]

theorem loopPairs_eq (h : I.Honest) {cache : Option (GeomCache V)} (hc : CacheOk I cache) (b b' : B)
    (rows cols : Nat) (ps : List (Nat × Nat)) (l : Local V) :
    (I.loopPairs cache b b' rows cols ps l).1 =
      ps.map fun p => ⟨rows, cols, I.integral (I.testGeom p.1) (I.trialGeom p.2) (I.testTransformation b (I.testGeom p.1))
        (I.trialTransformation b' (I.trialGeom p.2)) (I.kernels (I.testGeom p.1) (I.trialGeom p.2))⟩ := by
  induction ps generalizing l with
  | nil => rfl
  | cons p ps ih =>
    simp only [Parts.loopPairs, List.map_cons]
    rw [ih, integral_eq I h (testData_agrees hc _ _) (trialData_agrees hc _ _)]

/-- C67, lists of elements: every result is the part of the local matrix of its own pair of elements that was asked for,
whatever the thread-local data `l` and the results hold before the call, and with or without cached geometrical data. -/
theorem C67_list (h : I.Honest) (hd : I.DofWise) {cache : Option (GeomCache V)} (hc : CacheOk I cache)
    (hP : 0 < I.testPointCount) (hQ : 0 < I.trialPointCount) (callVariant : CallVariant) (elementsA : List Nat)
    (elementB : Nat) (basisA basisB : S) (localDofB : Option Nat) (hB : ∀ j, localDofB = some j → j < I.size basisB)
    (result : List (Mx K)) (hl : result.length = elementsA.length) (l : Local V) :
    ∃ r l', I.integrateList cache callVariant elementsA elementB basisA basisB localDofB result l = some (r, l') ∧
      r.length = elementsA.length ∧
      ∀ (i a : Nat) (m : Mx K), elementsA[i]? = some a → r[i]? = some m →
        Same m (slice callVariant localDofB
          (match callVariant with
           | .TEST_TRIAL => I.matrix basisA basisB a elementB
           | .TRIAL_TEST => I.matrix basisB basisA elementB a)) := by
  unfold Parts.integrateList
  rw [if_neg (by omega)]
  by_cases h0 : elementsA.length = 0
  · rw [if_pos (by omega)]
    refine ⟨result, l, rfl, hl, fun i a m ha _ => ?_⟩
    rw [List.length_eq_zero_iff.mp h0] at ha
    simp at ha
  · rw [if_neg (by omega)]
    cases callVariant with
    | TEST_TRIAL =>
      dsimp only
      refine ⟨_, _, rfl, ?_, fun i a m ha hm => ?_⟩
      · rw [loopTestTrial_eq h hc _ _ (trialData_agrees hc elementB l), List.length_map]
      · rw [loopTestTrial_eq h hc _ _ (trialData_agrees hc elementB l), List.getElem?_map, ha, Option.map_some,
          Option.some.injEq] at hm
        subst hm
        cases localDofB with
        | none => exact ⟨rfl, rfl, fun _ _ _ _ => rfl⟩
        | some j =>
          refine ⟨rfl, rfl, fun i' j' hi hj' => ?_⟩
          have : j' = 0 := by
            have : j' < 1 := hj'
            omega
          subst this
          exact hd.trial basisA basisB a elementB j i' (hB j rfl) hi
    | TRIAL_TEST =>
      dsimp only
      refine ⟨_, _, rfl, ?_, fun i a m ha hm => ?_⟩
      · rw [loopTrialTest_eq h hc _ _ (testData_agrees hc elementB l), List.length_map]
      · rw [loopTrialTest_eq h hc _ _ (testData_agrees hc elementB l), List.getElem?_map, ha, Option.map_some,
          Option.some.injEq] at hm
        subst hm
        cases localDofB with
        | none => exact ⟨rfl, rfl, fun _ _ _ _ => rfl⟩
        | some j =>
          refine ⟨rfl, rfl, fun i' j' hi hj' => ?_⟩
          have : i' = 0 := by
            have : i' < 1 := hi
            omega
          subst this
          exact hd.test basisB basisA elementB a j j' (hB j rfl) hj'

/-- The cache of basis data: every entry is what evaluating the shapeset yields. -/
def BasisCacheOk (evaluate : S → Option Nat → B) (c : BasisCache S B) : Prop := ∀ s b, c s = some b → b = evaluate s none

/-- C67, the cache of basis data: whatever other threads insert between look-up and insertion, a thread gets the data of its
shapeset, the cache stays correct, entries are never lost, and what is allocated is either in the cache or deleted. -/
theorem C67_basis_cache [DecidableEq S] (evaluate : S → Option Nat → B) (s : S) (seen later : BasisCache S B)
    (hs : BasisCacheOk evaluate seen) (hl : BasisCacheOk evaluate later) (hle : ∀ s b, seen s = some b → later s = some b) :
    let r := basisData evaluate s seen later
    r.2.1 = evaluate s none ∧ BasisCacheOk evaluate r.1 ∧ r.1 s = some (evaluate s none) ∧
      (∀ s' b, later s' = some b → r.1 s' = some b) ∧
      (∀ s', s' ≠ s → r.1 s' = later s') ∧
      r.2.2.1 = r.2.2.2 + (if later s = none then 1 else 0) := by
  unfold basisData
  cases hseen : seen s with
  | some b =>
    have hb := hs s b hseen
    have hla := hle s b hseen
    subst hb
    exact ⟨rfl, hl, hla, fun _ _ h => h, fun _ _ => rfl, by simp [hla]⟩
  | none =>
    cases hlater : later s with
    | some b =>
      have hb := hl s b hlater
      subst hb
      simp only [BasisCache.insert, hlater]
      exact ⟨trivial, hl, trivial, fun _ _ h => h, fun _ _ => trivial, by simp⟩
    | none =>
      simp only [BasisCache.insert, hlater]
      refine ⟨trivial, ?_, by simp, ?_, ?_, rfl⟩
      · intro s' b hb
        by_cases h : s' = s
        · subst h
          simpa using hb.symm
        · rw [Function.update_of_ne h] at hb
          exact hl s' b hb
      · intro s' b hb
        have : s' ≠ s := by
          rintro rfl
          rw [hlater] at hb
          cases hb
        rw [Function.update_of_ne this]
        exact hb
      · intro s' h
        exact Function.update_of_ne h _ _

/-- C67, lists of pairs: every result is the local matrix of its own pair, with the basis data evaluated afresh (separable
integrators) or taken from the cache (nonseparable ones, `C67_basis_cache`). -/
theorem C67_pairs (h : I.Honest) {cache : Option (GeomCache V)} (hc : CacheOk I cache)
    (hP : 0 < I.testPointCount) (hQ : 0 < I.trialPointCount) (pairs : List (Nat × Nat)) (testShapeset trialShapeset : S)
    (result : List (Mx K)) (hl : result.length = pairs.length) (l : Local V) :
    ∃ l', I.integratePairs cache pairs testShapeset trialShapeset (I.testBasis testShapeset none)
      (I.trialBasis trialShapeset none) result l =
        some (pairs.map fun p => I.matrix testShapeset trialShapeset p.1 p.2, l') := by
  unfold Parts.integratePairs
  rw [if_neg (by omega)]
  by_cases h0 : pairs.length = 0
  · rw [if_pos (by omega)]
    have : pairs = [] := List.length_eq_zero_iff.mp h0
    subst this
    have : result = [] := List.length_eq_zero_iff.mp hl
    subst this
    exact ⟨l, rfl⟩
  · rw [if_neg (by omega)]
    obtain ⟨r, hr⟩ : ∃ r, r = I.loopPairs cache (I.testBasis testShapeset none) (I.trialBasis trialShapeset none)
      (I.size testShapeset) (I.size trialShapeset) pairs l := ⟨_, rfl⟩
    refine ⟨r.2, ?_⟩
    rw [← hr]
    have h1 := loopPairs_eq h hc (I.testBasis testShapeset none) (I.trialBasis trialShapeset none)
      (I.size testShapeset) (I.size trialShapeset) pairs l
    rw [← hr] at h1
    congr 1
    exact Prod.ext h1 rfl

/-- C67: a list of results of the wrong length is an exception. -/
theorem C67_wrong_length (cache : Option (GeomCache V)) (callVariant : CallVariant) (elementsA : List Nat)
    (elementB : Nat) (basisA basisB : S) (localDofB : Option Nat) (result : List (Mx K)) (l : Local V)
    (hl : result.length ≠ elementsA.length) :
    I.integrateList cache callVariant elementsA elementB basisA basisB localDofB result l = none := by
  unfold Parts.integrateList
  rw [if_pos hl]

/-- C67, rules without points: the results are not set to zero but keep the values and the shapes they have (the code says
so in a comment). -/
theorem C67_counterexample_no_points (hP : I.testPointCount = 0) (cache : Option (GeomCache V)) (callVariant : CallVariant)
    (elementsA : List Nat) (elementB : Nat) (basisA basisB : S) (localDofB : Option Nat) (result : List (Mx K))
    (l : Local V) (hl : result.length = elementsA.length) :
    I.integrateList cache callVariant elementsA elementB basisA basisB localDofB result l = some (result, l) := by
  unfold Parts.integrateList
  rw [if_neg (by omega), if_pos (Or.inl hP)]

/-! ### Integrators for scalar kernels -/

open Verif.Integral

/-- The transformed values have the extents that fit, and evaluating one function gives its column of the values of all. -/
structure Parts.Columns [Zero K] (I : Parts S V B (List (Array3 K)) L K) (T : Nat) (dim : Nat → Nat) : Prop where
  pos : 0 < T
  testLength : ∀ s dof e, (I.testTransformation (I.testBasis s dof) (I.testGeom e)).length = T
  trialLength : ∀ s dof e, (I.trialTransformation (I.trialBasis s dof) (I.trialGeom e)).length = T
  testExt : ∀ s dof e t a, (I.testTransformation (I.testBasis s dof) (I.testGeom e))[t]? = some a →
    a.ext0 = dim t ∧ a.ext1 = (if dof = none then I.size s else 1) ∧ a.ext2 = I.testPointCount
  trialExt : ∀ s dof e t a, (I.trialTransformation (I.trialBasis s dof) (I.trialGeom e))[t]? = some a →
    a.ext0 = dim t ∧ a.ext1 = (if dof = none then I.size s else 1) ∧ a.ext2 = I.trialPointCount
  testColumn : ∀ s j e t d p, j < I.size s → p < I.testPointCount →
    value (I.testTransformation (I.testBasis s (some j)) (I.testGeom e)) t d 0 p =
      value (I.testTransformation (I.testBasis s none) (I.testGeom e)) t d j p
  trialColumn : ∀ s j e t d p, j < I.size s → p < I.trialPointCount →
    value (I.trialTransformation (I.trialBasis s (some j)) (I.trialGeom e)) t d 0 p =
      value (I.trialTransformation (I.trialBasis s none) (I.trialGeom e)) t d j p

theorem Parts.Columns.compatible [Zero K] {I : Parts S V B (List (Array3 K)) L K} {T : Nat} {dim : Nat → Nat}
    (h : I.Columns T dim) (s s' : S) (dof dof' : Option Nat) (e t : Nat) :
    Compatible T (if dof = none then I.size s else 1) (if dof' = none then I.size s' else 1) I.testPointCount
      I.trialPointCount dim (I.testTransformation (I.testBasis s dof) (I.testGeom e))
      (I.trialTransformation (I.trialBasis s' dof') (I.trialGeom t)) where
  pos := h.pos
  testLength := h.testLength s dof e
  trialLength := h.trialLength s' dof' t
  testExt := h.testExt s dof e
  trialExt := h.trialExt s' dof' t

variable [CommRing K] [StarRing K]

/-- A separable integrator for a scalar kernel: the integral is `evaluateWithTensorQuadratureRule` with the weights of the two
rules and the integration elements of the two elements (`integrationElements` reads the field). -/
structure Parts.Separable (I : Parts S V B (List (Array3 K)) (List (Array4 K)) K) (integrationElements : V → Nat → K)
    (testWeight trialWeight : Nat → K) (T : Nat) : Prop where
  integral : ∀ g g' v v' k, ∃ uninit, I.integral g g' v v' k =
    (tensor (integrationElements (g .INTEGRATION_ELEMENTS)) (integrationElements (g' .INTEGRATION_ELEMENTS))
      testWeight trialWeight I.testPointCount I.trialPointCount v v' k uninit).getD fun _ _ => 0
  kernelLength : ∀ e t, (I.kernels (I.testGeom e) (I.trialGeom t)).length = 1 ∨
    (I.kernels (I.testGeom e) (I.trialGeom t)).length = T
  kernelExt : ∀ (e t n : Nat) (a : Array4 K), (I.kernels (I.testGeom e) (I.trialGeom t))[n]? = some a →
    a.ext0 = 1 ∧ a.ext1 = 1 ∧ a.ext2 = I.testPointCount ∧ a.ext3 = I.trialPointCount
  realElements : ∀ t, RealValued (integrationElements (I.trialGeom t .INTEGRATION_ELEMENTS))
  realWeights : RealValued trialWeight

/-- C67 with C66: the entries of the local matrices of a separable integrator are the quadrature sums over all pairs of test
and trial points. -/
theorem C67_separable_entries {I : Parts S V B (List (Array3 K)) (List (Array4 K)) K} {J : V → Nat → K}
    {w w' : Nat → K} {T : Nat} {dim : Nat → Nat} (hs : I.Separable J w w' T) (hc : I.Columns T dim)
    (s s' : S) (dof dof' : Option Nat) (e t i j : Nat) (hi : i < if dof = none then I.size s else 1)
    (hj : j < if dof' = none then I.size s' else 1) :
    I.entries s s' dof dof' e t i j =
      gridSum T I.testPointCount I.trialPointCount dim
        (I.testTransformation (I.testBasis s dof) (I.testGeom e))
        (I.trialTransformation (I.trialBasis s' dof') (I.trialGeom t))
        (I.kernels (I.testGeom e) (I.trialGeom t))
        (J (I.testGeom e .INTEGRATION_ELEMENTS)) (J (I.trialGeom t .INTEGRATION_ELEMENTS)) w w' i j := by
  unfold Parts.entries
  obtain ⟨uninit, hu⟩ := hs.integral (I.testGeom e) (I.trialGeom t)
    (I.testTransformation (I.testBasis s dof) (I.testGeom e))
    (I.trialTransformation (I.trialBasis s' dof') (I.trialGeom t)) (I.kernels (I.testGeom e) (I.trialGeom t))
  obtain ⟨r, hr, h⟩ := C66_tensor (testJ := J (I.testGeom e .INTEGRATION_ELEMENTS)) (testW := w)
    (hc.compatible s s' dof dof' e t) (hs.kernelLength e t) (hs.kernelExt e t) (hs.realElements t) hs.realWeights uninit
  rw [hu, hr, Option.getD_some]
  exact h i j hi hj

/-- C67 with C66: such integrators give rows and columns of the local matrix when asked for one function. -/
theorem C67_separable_dofwise {I : Parts S V B (List (Array3 K)) (List (Array4 K)) K} {J : V → Nat → K}
    {w w' : Nat → K} {T : Nat} {dim : Nat → Nat} (hs : I.Separable J w w' T) (hc : I.Columns T dim) : I.DofWise where
  trial := by
    intro s s' e t j i hj hi
    rw [C67_separable_entries hs hc s s' none (some j) e t i 0 (by simpa using hi) (by simp),
      C67_separable_entries hs hc s s' none none e t i j (by simpa using hi) (by simpa using hj)]
    unfold gridSum
    refine Finset.sum_congr rfl fun k _ => Finset.sum_congr rfl fun p _ => Finset.sum_congr rfl fun q hq => ?_
    rw [Finset.mem_range] at hq
    unfold dot
    congr 2
    exact Finset.sum_congr rfl fun d _ => by rw [hc.trialColumn s' j t k d q hj hq]
  test := by
    intro s s' e t j i hj hi
    rw [C67_separable_entries hs hc s s' (some j) none e t 0 i (by simp) (by simpa using hi),
      C67_separable_entries hs hc s s' none none e t j i (by simpa using hj) (by simpa using hi)]
    unfold gridSum
    refine Finset.sum_congr rfl fun k _ => Finset.sum_congr rfl fun p hp => Finset.sum_congr rfl fun q _ => ?_
    rw [Finset.mem_range] at hp
    unfold dot
    congr 2
    exact Finset.sum_congr rfl fun d _ => by rw [hc.testColumn s j e k d p hj hp]

/-- A nonseparable integrator for a scalar kernel. -/
structure Parts.Nonseparable (I : Parts S V B (List (Array3 K)) (List (Array3 K)) K) (integrationElements : V → Nat → K)
    (weight : Nat → K) (T : Nat) : Prop where
  points : I.trialPointCount = I.testPointCount
  integral : ∀ g g' v v' k, ∃ uninit, I.integral g g' v v' k =
    (nontensor (integrationElements (g .INTEGRATION_ELEMENTS)) (integrationElements (g' .INTEGRATION_ELEMENTS))
      weight I.testPointCount v v' k uninit).getD fun _ _ => 0
  kernelLength : ∀ e t, (I.kernels (I.testGeom e) (I.trialGeom t)).length = 1 ∨
    (I.kernels (I.testGeom e) (I.trialGeom t)).length = T
  realTest : ∀ e, RealValued (integrationElements (I.testGeom e .INTEGRATION_ELEMENTS))
  realTrial : ∀ t, RealValued (integrationElements (I.trialGeom t .INTEGRATION_ELEMENTS))
  realWeights : RealValued weight

/-- C67 with C66: the entries of the local matrices of a nonseparable integrator are the quadrature sums over its pairs of
points. -/
theorem C67_nonseparable_entries {I : Parts S V B (List (Array3 K)) (List (Array3 K)) K} {J : V → Nat → K}
    {w : Nat → K} {T : Nat} {dim : Nat → Nat} (hs : I.Nonseparable J w T) (hc : I.Columns T dim)
    (s s' : S) (dof dof' : Option Nat) (e t i j : Nat) (hi : i < if dof = none then I.size s else 1)
    (hj : j < if dof' = none then I.size s' else 1) :
    I.entries s s' dof dof' e t i j =
      pointSum T I.testPointCount dim
        (I.testTransformation (I.testBasis s dof) (I.testGeom e))
        (I.trialTransformation (I.trialBasis s' dof') (I.trialGeom t))
        (I.kernels (I.testGeom e) (I.trialGeom t))
        (J (I.testGeom e .INTEGRATION_ELEMENTS)) (J (I.trialGeom t .INTEGRATION_ELEMENTS)) w i j := by
  unfold Parts.entries
  obtain ⟨uninit, hu⟩ := hs.integral (I.testGeom e) (I.trialGeom t)
    (I.testTransformation (I.testBasis s dof) (I.testGeom e))
    (I.trialTransformation (I.trialBasis s' dof') (I.trialGeom t)) (I.kernels (I.testGeom e) (I.trialGeom t))
  have hcc := hc.compatible s s' dof dof' e t
  rw [hs.points] at hcc
  obtain ⟨r, hr, h⟩ := C66_nontensor hcc (hs.kernelLength e t) (hs.realTest e) (hs.realTrial t) hs.realWeights uninit
  rw [hu, hr, Option.getD_some]
  exact h i j hi hj

/-- C67 with C66: they, too, give rows and columns of the local matrix when asked for one function. -/
theorem C67_nonseparable_dofwise {I : Parts S V B (List (Array3 K)) (List (Array3 K)) K} {J : V → Nat → K}
    {w : Nat → K} {T : Nat} {dim : Nat → Nat} (hs : I.Nonseparable J w T) (hc : I.Columns T dim) : I.DofWise where
  trial := by
    intro s s' e t j i hj hi
    rw [C67_nonseparable_entries hs hc s s' none (some j) e t i 0 (by simpa using hi) (by simp),
      C67_nonseparable_entries hs hc s s' none none e t i j (by simpa using hi) (by simpa using hj)]
    unfold pointSum
    refine Finset.sum_congr rfl fun k _ => Finset.sum_congr rfl fun p hp => ?_
    rw [Finset.mem_range] at hp
    unfold dot
    congr 2
    exact Finset.sum_congr rfl fun d _ => by rw [hc.trialColumn s' j t k d p hj (by rw [hs.points]; exact hp)]
  test := by
    intro s s' e t j i hj hi
    rw [C67_nonseparable_entries hs hc s s' (some j) none e t 0 i (by simp) (by simpa using hi),
      C67_nonseparable_entries hs hc s s' none none e t j i (by simpa using hj) (by simpa using hi)]
    unfold pointSum
    refine Finset.sum_congr rfl fun k _ => Finset.sum_congr rfl fun p hp => ?_
    rw [Finset.mem_range] at hp
    unfold dot
    congr 2
    exact Finset.sum_congr rfl fun d _ => by rw [hc.testColumn s j e k d p hj hp]

/-! ### An instance -/

/-- One transformation, two functions with values 2 and 5, one point, integration elements `e + 1`, kernel `e + 10 t`: the
kernel reads the field GLOBALS and the integral INTEGRATION_ELEMENTS. -/
def demo : Parts Unit (Nat → GaussianInt) (Option Nat) (List (Array3 GaussianInt)) (List (Array4 GaussianInt)) GaussianInt where
  testPointCount := 1
  trialPointCount := 1
  testGeom := fun e f _ => if f = .INTEGRATION_ELEMENTS then (e + 1 : Nat) else (e : Nat)
  trialGeom := fun e f _ => if f = .INTEGRATION_ELEMENTS then (e + 1 : Nat) else (10 * e : Nat)
  size := fun _ => 2
  testBasis := fun _ dof => dof
  trialBasis := fun _ dof => dof
  testTransformation := fun b _ => [⟨1, if b = none then 2 else 1, 1, fun k => (2 + 3 * (b.getD 0 + k) : Nat)⟩]
  trialTransformation := fun b _ => [⟨1, if b = none then 2 else 1, 1, fun k => (2 + 3 * (b.getD 0 + k) : Nat)⟩]
  kernels := fun g g' => [⟨1, 1, 1, 1, fun _ => g .GLOBALS 0 + g' .GLOBALS 0⟩]
  integral := fun g g' v v' k =>
    (tensor (g .INTEGRATION_ELEMENTS) (g' .INTEGRATION_ELEMENTS) (fun _ => 1) (fun _ => 1) 1 1 v v' k
      ⟨fun _ => 7, fun _ => 7, fun _ => 7, fun _ _ => 7⟩).getD fun _ _ => 0
  testTransformationDeps := fun _ => false
  trialTransformationDeps := fun _ => false
  kernelTestDeps := fun f => f == .GLOBALS
  kernelTrialDeps := fun f => f == .GLOBALS
  integralTestDeps := fun f => f == .INTEGRATION_ELEMENTS
  integralTrialDeps := fun f => f == .INTEGRATION_ELEMENTS

theorem demo_honest : demo.Honest where
  testTransformation := fun _ _ _ _ => rfl
  trialTransformation := fun _ _ _ _ => rfl
  kernelsTest := fun g d d' h => by
    show [_] = [_]
    rw [h .GLOBALS rfl]
  kernelsTrial := fun g d d' h => by
    show [_] = [_]
    rw [h .GLOBALS rfl]
  integralTest := fun g v w k d d' h => by
    simp only [demo]
    rw [h .INTEGRATION_ELEMENTS rfl]
  integralTrial := fun g v w k d d' h => by
    simp only [demo]
    rw [h .INTEGRATION_ELEMENTS rfl]

theorem demo_columns : demo.Columns 1 fun _ => 1 where
  pos := by decide
  testLength := fun _ _ _ => rfl
  trialLength := fun _ _ _ => rfl
  testExt := by
    rintro s dof e (_ | t) a h
    · simp only [demo, List.getElem?_cons_zero, Option.some.injEq] at h
      subst h
      exact ⟨rfl, rfl, rfl⟩
    · simp [demo] at h
  trialExt := by
    rintro s dof e (_ | t) a h
    · simp only [demo, List.getElem?_cons_zero, Option.some.injEq] at h
      subst h
      exact ⟨rfl, rfl, rfl⟩
    · simp [demo] at h
  testColumn := by
    rintro s j e (_ | t) d p hj hp
    · have : p = 0 := by
        have : p < 1 := hp
        omega
      subst this
      simp [value, demo, Array3.get]
      ring
    · simp [value, demo]
  trialColumn := by
    rintro s j e (_ | t) d p hj hp
    · have : p = 0 := by
        have : p < 1 := hp
        omega
      subst this
      simp [value, demo, Array3.get]
      ring
    · simp [value, demo]

theorem demo_separable : demo.Separable id (fun _ => 1) (fun _ => 1) 1 where
  integral := fun g g' v v' k => ⟨_, rfl⟩
  kernelLength := fun _ _ => Or.inl rfl
  kernelExt := by
    rintro e t (_ | n) a h
    · simp only [demo, List.getElem?_cons_zero, Option.some.injEq] at h
      subst h
      exact ⟨rfl, rfl, rfl, rfl⟩
    · simp [demo] at h
  realElements := by
    intro t p
    simp only [demo, id]
    simp
  realWeights := fun _ => star_one _

/-- The hypotheses of C67 are met, and the numbers are those expected: test functions 0, 1 with trial function 1 of element 3,
over the test elements 4 and 0, starting from arbitrary thread-local data. -/
example (l : Local (Nat → GaussianInt)) :
    ∃ r l', demo.integrateList none .TEST_TRIAL [4, 0] 3 () () (some 1) [⟨9, 9, fun _ _ => 9⟩, ⟨9, 9, fun _ _ => 9⟩] l =
        some (r, l') ∧ r.length = 2 ∧
      ∀ m, r[0]? = some m → m.rows = 2 ∧ m.cols = 1 ∧ m.e 0 0 = 2 * 5 * (4 + 30) * 5 * 4 := by
  obtain ⟨r, l', hr, hlen, h⟩ := C67_list demo_honest (C67_separable_dofwise demo_separable demo_columns) (cache := none)
    (fun _ h => by cases h) (by decide) (by decide) .TEST_TRIAL [4, 0] 3 () () (some 1)
    (fun j hj => by cases hj; decide) [⟨9, 9, fun _ _ => 9⟩, ⟨9, 9, fun _ _ => 9⟩] rfl l
  refine ⟨r, l', hr, hlen, fun m hm => ?_⟩
  obtain ⟨h1, h2, h3⟩ := h 0 4 m rfl hm
  refine ⟨h1, h2, ?_⟩
  rw [h3 0 0 (by rw [h1]; decide) (by rw [h2]; decide)]
  show demo.entries () () none none 4 3 0 1 = _
  rw [C67_separable_entries demo_separable demo_columns () () none none 4 3 0 1 (by decide) (by decide)]
  decide

end Verif.Integrator
