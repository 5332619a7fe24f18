import Verif.Props.BoundaryNodes
import Verif.Props.NumericalIntegrator
/-
C98: the integrators of the boundary operators compute the local matrices.
-/
namespace Verif.Bio
open Verif.Grid Verif.Space Verif.Shape Verif.SingleQuad Verif.HMat Verif.LocalOps Verif.GridFun Verif.Kernel Verif.Pot Verif.Integral Verif.Integrator
open Finset

variable {addr : Type} {s : Setting addr} {selector : Verif.Quad.Selector} {vertexCount : Nat} {testShapeset trialShapeset : Nat → addr}
  {T U : Assembly.ASpace ℂ} {tri tri' : Triangles}

/-- `integrate` for lists of elements of the integrator of a rule, with or without a cache of geometrical data (only separable
integrators have one: `separable_numerical_test_kernel_trial_integrator_imp.hpp:186-318`,
`nonseparable_numerical_test_kernel_trial_integrator_imp.hpp:149-275`). -/
noncomputable def Setting.integrateList (s : Setting addr) (rule : DoubleRule) (cache : Bool) (blank : Integrator.GeomData Values)
    (callVariant : LocalAsm.CallVariant) (elementsA : List Nat) (elementB : Nat) (basisA basisB : addr) (localDofB : Option Nat)
    (result : List (Mx ℂ)) (l : Local Values) : Option (List (Mx ℂ) × Local Values) :=
  match rule with
  | .tensor test trial => (s.separable test trial).integrateList
      (if cache then some ((s.separable test trial).precalculate blank) else none) callVariant elementsA elementB basisA basisB localDofB result l
  | .nontensor test trial weights =>
      (s.nonseparable test trial weights).integrateList none callVariant elementsA elementB basisA basisB localDofB result l

/-- `integrate` for lists of pairs of elements (`:700-790` and `:276-350`). -/
noncomputable def Setting.integratePairs (s : Setting addr) (rule : DoubleRule) (cache : Bool) (blank : Integrator.GeomData Values)
    (pairs : List (Nat × Nat)) (a a' : addr) (result : List (Mx ℂ)) (l : Local Values) : Option (List (Mx ℂ) × Local Values) :=
  match rule with
  | .tensor test trial => (s.separable test trial).integratePairs
      (if cache then some ((s.separable test trial).precalculate blank) else none) pairs a a' ((s.separable test trial).testBasis a none)
      ((s.separable test trial).trialBasis a' none) result l
  | .nontensor test trial weights => (s.nonseparable test trial weights).integratePairs none pairs a a'
      ((s.nonseparable test trial weights).testBasis a none) ((s.nonseparable test trial weights).trialBasis a' none) result l

/-- The sums over the nodes of a rule for all pairs of test and trial functions. -/
noncomputable def Setting.sums (s : Setting addr) (rule : DoubleRule) (a a' : addr) (e t : Nat) : Mx ℂ :=
  ⟨(s.shapeset a).size, (s.shapeset a').size, s.localSum rule.nodes a a' e t⟩

theorem cacheOk_precalculate {S V B W L K : Type} (I : Parts S V B W L K) (cache : Bool) (blank : Integrator.GeomData V) :
    CacheOk I (if cache then some (I.precalculate blank) else none) := by
  intro c hc
  cases cache with
  | true => exact ⟨blank, (Option.some.inj hc).symm⟩
  | false => cases hc

theorem slice_sums (hop : s.op.Sound) (rule : DoubleRule) (hr : rule.Regular) (a a' : addr) (e t : Nat) :
    Same (s.matrix rule a a' e t) (s.sums rule a a' e t) := by
  obtain ⟨h1, h2, h3⟩ := matrix_eq hop rule hr a a' e t
  exact ⟨h1, h2, fun i j hi hj => h3 i (h1 ▸ hi) j (h2 ▸ hj)⟩

/-- A rule with at least one node, whose lists have the same lengths. -/
def DoubleRule.Proper : DoubleRule → Prop
  | .tensor test trial => test ≠ [] ∧ trial ≠ []
  | .nontensor test trial weights => test.length = weights.length ∧ trial.length = weights.length ∧ weights ≠ []

/-- Every rule chosen for a pair has nodes. -/
theorem rule_proper (hs : Setup s selector vertexCount testShapeset trialShapeset T U tri tri') (e t : Nat)
    (he : e < T.elementCount) (ht : t < U.elementCount) (rule : DoubleRule) (hrule : RuleFor selector e t rule) : rule.Proper := by
  obtain ⟨d, hd, hfill⟩ := hrule
  obtain ⟨Θ, h1, h2⟩ := topology_triangles hs e t he ht
  rw [descriptor_topology hd, Option.some.injEq] at h1
  subst h1
  have hm := hs.moderate e he t ht (-1) d hd
  unfold Moderate at hm
  unfold fillDouble at hfill
  by_cases hdj : d.topology.type = .Disjoint
  · rw [if_pos hdj] at hm hfill
    obtain ⟨r, a1, a2⟩ := triangle_nonempty d.testOrder hm.1
    obtain ⟨r', b1, b2⟩ := triangle_nonempty d.trialOrder hm.2
    rw [h2.test, h2.trial] at hfill
    simp only [Nat.cast_ofNat, a1, b1] at hfill
    rw [Outcome.ok.injEq] at hfill
    subst hfill
    exact ⟨a2, b2⟩
  · rw [if_neg hdj] at hm hfill
    obtain ⟨c, hc, hv⟩ := h2.config hdj
    rw [if_pos ⟨h2.test, h2.trial⟩, hc] at hfill
    obtain ⟨square, x, y, g1, g2, g3⟩ := fillSingularRule_ok c hv _ hm.1 hm.2
    obtain ⟨square', g4, g5⟩ := square_nonempty _ hm.2
    rw [g1, Outcome.ok.injEq] at g4
    subst g4
    simp only [g3] at hfill
    rw [Outcome.ok.injEq] at hfill
    subst hfill
    refine ⟨by simp, by simp, ?_⟩
    intro h0
    rw [List.map_eq_nil_iff, List.range_eq_nil] at h0
    have : (Verif.Quad.fillSingular c (squareRule square)).total = c.numRegions * square.length * square.length := rfl
    rw [this] at h0
    have h1 : 0 < square.length := List.length_pos_iff.mpr g5
    have h2 : 0 < c.numRegions := by cases c <;> simp [Verif.Quad.Config.numRegions]
    have := Nat.mul_pos (Nat.mul_pos h2 h1) h1
    omega

/-- **C98 (integrators, lists)** The integrator of a rule chosen for some pair of elements: for lists of test elements and one trial element or
the other way round, for all or one of the functions of the single element, with or without cached geometrical data, whatever the
thread-local data and the results held before, `integrate` yields the sums over the nodes of the rule. -/
theorem C98_integrate_lists (hop : s.op.Sound) (rule : DoubleRule) (hr : rule.Proper) (cache : Bool) (blank : Integrator.GeomData Values)
    (callVariant : LocalAsm.CallVariant) (elementsA : List Nat) (elementB : Nat) (basisA basisB : addr) (localDofB : Option Nat)
    (hB : ∀ j, localDofB = some j → j < (s.shapeset basisB).size) (result : List (Mx ℂ)) (hl : result.length = elementsA.length)
    (l : Local Values) :
    ∃ r l', s.integrateList rule cache blank callVariant elementsA elementB basisA basisB localDofB result l = some (r, l') ∧
      r.length = elementsA.length ∧ ∀ (i a : Nat) (m : Mx ℂ), elementsA[i]? = some a → r[i]? = some m →
        Same m (LocalAsm.slice callVariant localDofB
          (match callVariant with
           | .TEST_TRIAL => s.sums rule basisA basisB a elementB
           | .TRIAL_TEST => s.sums rule basisB basisA elementB a)) := by
  have step : ∀ (m : Mx ℂ) (a : Nat), rule.Regular → Same m (LocalAsm.slice callVariant localDofB
          (match callVariant with
           | .TEST_TRIAL => s.matrix rule basisA basisB a elementB
           | .TRIAL_TEST => s.matrix rule basisB basisA elementB a)) →
      Same m (LocalAsm.slice callVariant localDofB
          (match callVariant with
           | .TEST_TRIAL => s.sums rule basisA basisB a elementB
           | .TRIAL_TEST => s.sums rule basisB basisA elementB a)) := by
    intro m a hreg h
    cases callVariant with
    | TEST_TRIAL =>
      obtain ⟨k1, k2, k3⟩ := slice_sums hop rule hreg basisA basisB a elementB
      cases localDofB with
      | none => exact ⟨h.1.trans k1, h.2.1.trans k2, fun i j hi hj => (h.2.2 i j hi hj).trans (k3 i j (h.1 ▸ hi) (h.2.1 ▸ hj))⟩
      | some j0 =>
        have hj0 := hB j0 rfl
        refine ⟨h.1.trans k1, h.2.1, fun i j hi hj => (h.2.2 i j hi hj).trans (k3 i j0 (h.1 ▸ hi) (k2 ▸ hj0))⟩
    | TRIAL_TEST =>
      obtain ⟨k1, k2, k3⟩ := slice_sums hop rule hreg basisB basisA elementB a
      cases localDofB with
      | none => exact ⟨h.1.trans k1, h.2.1.trans k2, fun i j hi hj => (h.2.2 i j hi hj).trans (k3 i j (h.1 ▸ hi) (h.2.1 ▸ hj))⟩
      | some j0 =>
        have hj0 := hB j0 rfl
        refine ⟨h.1, h.2.1.trans k2, fun i j hi hj => (h.2.2 i j hi hj).trans (k3 j0 j (k1 ▸ hj0) (h.2.1 ▸ hj))⟩
  cases rule with
  | tensor test trial =>
    obtain ⟨r, l', h1, h2, h3⟩ := C67_list (separable_honest hop test trial) (separable_dofWise hop test trial)
      (cacheOk_precalculate (s.separable test trial) cache blank)
      (show 0 < (test.map fun q => (q.x, q.y)).length by rw [List.length_map]; exact List.length_pos_iff.mpr hr.1)
      (show 0 < (trial.map fun q => (q.x, q.y)).length by rw [List.length_map]; exact List.length_pos_iff.mpr hr.2)
      callVariant elementsA elementB basisA basisB localDofB hB result hl l
    exact ⟨r, l', h1, h2, fun i a m ha hm => step m a trivial (h3 i a m ha hm)⟩
  | nontensor test trial weights =>
    obtain ⟨q1, q2, q3⟩ := hr
    have hw := List.length_pos_iff.mpr q3
    obtain ⟨r, l', h1, h2, h3⟩ := C67_list (nonseparable_honest hop test trial weights) (nonseparable_dofWise hop test trial weights q1 q2)
      (cache := none) (fun c hc => by cases hc) (show 0 < test.length by omega) (show 0 < trial.length by omega)
      callVariant elementsA elementB basisA basisB localDofB hB result hl l
    exact ⟨r, l', h1, h2, fun i a m ha hm => step m a ⟨q1, q2⟩ (h3 i a m ha hm)⟩

/-- **C98 (integrators, pairs)** The same for lists of pairs of elements. -/
theorem C98_integrate_pairs (hop : s.op.Sound) (rule : DoubleRule) (hr : rule.Proper) (cache : Bool) (blank : Integrator.GeomData Values)
    (pairs : List (Nat × Nat)) (a a' : addr) (result : List (Mx ℂ)) (hl : result.length = pairs.length) (l : Local Values) :
    ∃ r l', s.integratePairs rule cache blank pairs a a' result l = some (r, l') ∧ r.length = pairs.length ∧
      ∀ (i : Nat) (p : Nat × Nat) (m : Mx ℂ), pairs[i]? = some p → r[i]? = some m → Same m (s.sums rule a a' p.1 p.2) := by
  have step : ∀ r : List (Mx ℂ), r = (pairs.map fun p => s.matrix rule a a' p.1 p.2) → rule.Regular → r.length = pairs.length ∧
      ∀ (i : Nat) (p : Nat × Nat) (m : Mx ℂ), pairs[i]? = some p → r[i]? = some m → Same m (s.sums rule a a' p.1 p.2) := by
    rintro r rfl hreg
    refine ⟨by simp, fun i p m hp hm => ?_⟩
    rw [List.getElem?_map, hp, Option.map_some, Option.some.injEq] at hm
    subst hm
    exact slice_sums hop rule hreg a a' p.1 p.2
  cases rule with
  | tensor test trial =>
    obtain ⟨l', h⟩ := C67_pairs (separable_honest hop test trial) (cacheOk_precalculate (s.separable test trial) cache blank)
      (show 0 < (test.map fun q => (q.x, q.y)).length by rw [List.length_map]; exact List.length_pos_iff.mpr hr.1)
      (show 0 < (trial.map fun q => (q.x, q.y)).length by rw [List.length_map]; exact List.length_pos_iff.mpr hr.2)
      pairs a a' result hl l
    exact ⟨_, l', h, step _ rfl trivial⟩
  | nontensor test trial weights =>
    obtain ⟨q1, q2, q3⟩ := hr
    have hw := List.length_pos_iff.mpr q3
    obtain ⟨l', h⟩ := C67_pairs (nonseparable_honest hop test trial weights) (cache := none) (fun c hc => by cases hc)
      (show 0 < test.length by omega) (show 0 < trial.length by omega) pairs a a' result hl l
    exact ⟨_, l', h, step _ rfl ⟨q1, q2⟩⟩

/-- **C98 (integrators of the assembly)** For every operator of the list, the rules chosen for pairs of elements satisfy the hypotheses. -/
theorem C98_integrators (realKernel blas : Bool) (k : ℂ) (hop : s.op ∈ boundaryOperators realKernel blas k)
    (hs : Setup s selector vertexCount testShapeset trialShapeset T U tri tri') (e t : Nat)
    (he : e < T.elementCount) (ht : t < U.elementCount) (cache : Bool) (blank : Integrator.GeomData Values) (l : Local Values) (m₀ : Mx ℂ) :
    ∃ rule r l', RuleFor selector e t rule ∧
      s.integratePairs rule cache blank [(e, t)] (testShapeset e) (trialShapeset t) [m₀] l = some ([r], l') ∧
      r.rows = (T.gdofs e).length ∧ r.cols = (U.gdofs t).length ∧ ∀ i < r.rows, ∀ j < r.cols,
        r.e i j = s.localSum rule.nodes (testShapeset e) (trialShapeset t) e t i j := by
  obtain ⟨rule, hrule, -⟩ := C98_rules hs e t he ht
  obtain ⟨r, l', h1, h2, h3⟩ := C98_integrate_pairs (sound hop) rule (rule_proper hs e t he ht rule hrule) cache blank [(e, t)]
    (testShapeset e) (trialShapeset t) [m₀] rfl l
  obtain ⟨m, rfl⟩ := List.length_eq_one_iff.mp h2
  have := h3 0 (e, t) m rfl rfl
  exact ⟨rule, m, l', hrule, h1, this.1.trans (hs.testSizes e he).symm, this.2.1.trans (hs.trialSizes t ht).symm, fun i hi j hj => this.2.2 i j hi hj⟩

end Verif.Bio
