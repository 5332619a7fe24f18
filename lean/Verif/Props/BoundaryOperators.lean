import Verif.Lemmas.BoundaryRules
import Verif.Lemmas.PotentialAssembly
/-
C98: matrices of boundary integral operators.
-/
namespace Verif.Bio
open Verif.Grid Verif.Space Verif.Shape Verif.SingleQuad Verif.HMat Verif.LocalOps Verif.GridFun Verif.Kernel Verif.Pot Verif.Integral Verif.Integrator
open Finset

variable {addr : Type} {s : Setting addr} {selector : Verif.Quad.Selector} {vertexCount : Nat} {testShapeset trialShapeset : Nat → addr}
  {T U : Assembly.ASpace ℂ} {tri tri' : Triangles}

/-- Every documented operator is one of the list. -/
theorem documented_sound {op : BoundaryOperator} {F : SurfaceFunction → SurfaceFunction → Node → Node → ℂ} (h : Documented op F) : op.Sound := by
  cases h with
  | laplaceSingle b => exact sound (realKernel := true) (blas := b) (k := 0) (by simp [boundaryOperators])
  | laplaceDouble b => exact sound (realKernel := true) (blas := b) (k := 0) (by simp [boundaryOperators])
  | laplaceAdjoint b => exact sound (realKernel := true) (blas := b) (k := 0) (by simp [boundaryOperators])
  | laplaceHypersingular b => exact sound (realKernel := true) (blas := b) (k := 0) (by simp [boundaryOperators])
  | modifiedHelmholtzSingle r b k => exact sound (realKernel := r) (blas := b) (k := k) (by simp [boundaryOperators])
  | modifiedHelmholtzDouble r b k => exact sound (realKernel := r) (blas := b) (k := k) (by simp [boundaryOperators])
  | modifiedHelmholtzAdjoint r b k => exact sound (realKernel := r) (blas := b) (k := k) (by simp [boundaryOperators])
  | modifiedHelmholtzHypersingular r b k => exact sound (realKernel := r) (blas := b) (k := k) (by simp [boundaryOperators])
  | helmholtzSingle b k => exact sound (realKernel := true) (blas := b) (k := k) (by simp [boundaryOperators])
  | helmholtzDouble b k => exact sound (realKernel := true) (blas := b) (k := k) (by simp [boundaryOperators])
  | helmholtzAdjoint b k => exact sound (realKernel := true) (blas := b) (k := k) (by simp [boundaryOperators])
  | helmholtzHypersingular b k => exact sound (realKernel := true) (blas := b) (k := k) (by simp [boundaryOperators])
  | maxwellElectric k _ => exact sound (realKernel := true) (blas := true) (k := k) (by simp [boundaryOperators])
  | maxwellMagnetic k => exact sound (realKernel := true) (blas := true) (k := k) (by simp [boundaryOperators])

/-- **C98 (rules)** For every pair of elements there is exactly one rule. -/
theorem C98_rules (hs : Setup s selector vertexCount testShapeset trialShapeset T U tri tri') (e t : Nat)
    (he : e < T.elementCount) (ht : t < U.elementCount) : ∃! rule, RuleFor selector e t rule := by
  obtain ⟨d, rule, h1, h2, -, -⟩ := select_eq hs e t he ht (-1)
  refine ⟨rule, ⟨d, h1, h2⟩, ?_⟩
  rintro rule' ⟨d', g1, g2⟩
  rw [h1, Option.some.injEq] at g1
  subst g1
  rw [h2, Outcome.ok.injEq] at g2
  exact g2.symm

theorem exists_rules (hs : Setup s selector vertexCount testShapeset trialShapeset T U tri tri') :
    ∃ rule : Nat → Nat → DoubleRule, ∀ e < T.elementCount, ∀ t < U.elementCount, RuleFor selector e t (rule e t) := by
  classical
  refine ⟨fun e t => if h : ∃ r, RuleFor selector e t r then h.choose else .tensor [] [], fun e he t ht => ?_⟩
  obtain ⟨r, hr, -⟩ := C98_rules hs e t he ht
  have : ∃ r, RuleFor selector e t r := ⟨r, hr⟩
  dsimp only
  rw [dif_pos this]
  exact this.choose_spec

/-- **C98 (success)** Whatever the operator, its integral with or without BLAS, the caching of singular integrals, the cut of the loop
into chunks and their interleaving, the order of the sets of integrators and the contents of uninitialised buffers: the assembly ends
with a matrix of the right size, and there is such an execution. -/
theorem C98_succeeds [DecidableEq addr] (realKernel blas : Bool) (k : ℂ) (hop : s.op ∈ boundaryOperators realKernel blas k)
    (hs : Setup s selector vertexCount testShapeset trialShapeset T U tri tri') (caching : Bool) :
    (∃ out, s.Assembles selector vertexCount testShapeset trialShapeset T U caching out) ∧
    ∀ out, s.Assembles selector vertexCount testShapeset trialShapeset T U caching out →
      ∃ M, out = some M ∧ M.rows = T.globalDofCount ∧ M.cols = U.globalDofCount := by
  constructor
  · have hA := ready hs
    obtain ⟨r, hr⟩ := LocalAsm.constructed_exists (s.assembler selector vertexCount testShapeset trialShapeset) caching
    obtain ⟨cache, rfl, -⟩ := LocalAsm.C64_cache _ hA caching r hr
    have key : ∀ t < U.elementCount, ∃ order r, Visits (s.assembler selector vertexCount testShapeset trialShapeset) cache (Assembly.testIndices T) t order ∧
        (s.assembler selector vertexCount testShapeset trialShapeset).evaluateList cache .TEST_TRIAL (Assembly.testIndices T) t none (-1) order
          (fun _ => ⟨0, 0, fun _ _ => 0⟩) = some r := by
      intro t ht
      have hrange : ∀ a ∈ Assembly.testIndices T, a < T.elementCount := fun e he => List.mem_range.mp (List.mem_filter.mp he).1
      cases hvs : (s.assembler selector vertexCount testShapeset trialShapeset).listVariants cache .TEST_TRIAL (Assembly.testIndices T) t (-1) with
      | none =>
        have hv : Visits (s.assembler selector vertexCount testShapeset trialShapeset) cache (Assembly.testIndices T) t [] := by
          intro vs h; rw [hvs] at h; cases h
        obtain ⟨r, h1, -⟩ := LocalAsm.C64_list _ hA caching cache hr .TEST_TRIAL (Assembly.testIndices T) t
          (fun a ha => ⟨show a < selector.test.elementCount from hs.testElements ▸ hrange a ha,
            show t < selector.trial.elementCount from hs.trialElements ▸ ht⟩) none (-1) _ hv (fun _ => ⟨0, 0, fun _ _ => 0⟩)
        exact ⟨_, r, hv, h1⟩
      | some vs =>
        have hv : Visits (s.assembler selector vertexCount testShapeset trialShapeset) cache (Assembly.testIndices T) t vs := by
          intro vs' h; rw [hvs, Option.some.injEq] at h; subst h; exact fun v hv => hv
        obtain ⟨r, h1, -⟩ := LocalAsm.C64_list _ hA caching cache hr .TEST_TRIAL (Assembly.testIndices T) t
          (fun a ha => ⟨show a < selector.test.elementCount from hs.testElements ▸ hrange a ha,
            show t < selector.trial.elementCount from hs.trialElements ▸ ht⟩) none (-1) _ hv (fun _ => ⟨0, 0, fun _ _ => 0⟩)
        exact ⟨_, r, hv, h1⟩
    classical
    have : ∃ R : Nat → Nat → Mx ℂ, ∀ t < U.elementCount, ∃ order, Visits (s.assembler selector vertexCount testShapeset trialShapeset) cache
        (Assembly.testIndices T) t order ∧
        (s.assembler selector vertexCount testShapeset trialShapeset).evaluateList cache .TEST_TRIAL (Assembly.testIndices T) t none (-1) order
          (fun _ => ⟨0, 0, fun _ _ => 0⟩) = some (R t) := by
      choose o r h using key
      exact ⟨fun t => if ht : t < U.elementCount then r t ht else fun _ => ⟨0, 0, fun _ _ => 0⟩, fun t ht => ⟨o t ht, by
        dsimp only; rw [dif_pos ht]; exact h t ht⟩⟩
    obtain ⟨R, hR⟩ := this
    have hnd : (Assembly.testIndices T).Nodup := List.nodup_range.filter _
    refine ⟨Assembly.assembleInOrder T U (fun e t a b => (R t ((Assembly.testIndices T).idxOf e)).e a b) (List.range U.elementCount), some cache, hr,
      Or.inr ⟨_, ?_, [List.range U.elementCount], _, by simp, interleaving_one _, rfl⟩⟩
    intro t ht
    have ht := List.mem_range.mp (List.mem_filter.mp ht).1
    obtain ⟨order, h1, h2⟩ := hR t ht
    refine ⟨order, _, _, h1, h2, fun i hi a b => ?_⟩
    dsimp only
    rw [hnd.idxOf_getElem]
  · intro out h
    obtain ⟨rule, hrule⟩ := exists_rules hs
    obtain ⟨M, h1, h2, h3, -⟩ := assembles_entries (sound hop) hs caching rule hrule out h
    exact ⟨M, h1, h2, h3⟩

theorem push_sum (n E N : Nat) (X Y : Nat → Nat) (f : Nat → Nat → Nat → Nat → Nat → ℂ) :
    ∑ i ∈ range n, ∑ e ∈ range E, ∑ t ∈ range N, ∑ x ∈ range (X e), ∑ y ∈ range (Y t), f i e t x y =
    ∑ e ∈ range E, ∑ t ∈ range N, ∑ x ∈ range (X e), ∑ y ∈ range (Y t), ∑ i ∈ range n, f i e t x y := by
  rw [Finset.sum_comm]
  refine Finset.sum_congr rfl fun e _ => ?_
  rw [Finset.sum_comm]
  refine Finset.sum_congr rfl fun t _ => ?_
  rw [Finset.sum_comm]
  refine Finset.sum_congr rfl fun x _ => ?_
  rw [Finset.sum_comm]

/-- The matrix, applied to coefficients, in terms of the coefficients of local functions. -/
theorem apply_weakForm (T U : Assembly.ASpace ℂ) (form : Nat → Nat → Nat → Nat → ℂ) (a c : Nat → ℂ) :
    ∑ i ∈ range T.globalDofCount, ∑ j ∈ range U.globalDofCount, star (a i) * Assembly.weakFormEntry T U form i j * c j =
    ∑ e ∈ range T.elementCount, ∑ t ∈ range U.elementCount,
      sesq (T.gdofs e).length (U.gdofs t).length (localCoefficient T a e) (localCoefficient U c t) (form e t) := by
  classical
  have lhs : ∀ i j, star (a i) * Assembly.weakFormEntry T U form i j * c j =
      ∑ e ∈ range T.elementCount, ∑ t ∈ range U.elementCount, ∑ x ∈ range (T.gdofs e).length, ∑ y ∈ range (U.gdofs t).length,
        star (if T.maps.At ⟨e, x⟩ i then T.weight e x * a i else 0) * (if U.maps.At ⟨t, y⟩ j then U.weight t y * c j else 0) * form e t x y := by
    intro i j
    unfold Assembly.weakFormEntry
    simp only [Finset.mul_sum, Finset.sum_mul]
    refine Finset.sum_congr rfl fun e _ => ?_
    rw [Finset.sum_comm]
    refine Finset.sum_congr rfl fun t _ => Finset.sum_congr rfl fun x _ => Finset.sum_congr rfl fun y _ => ?_
    by_cases h1 : T.maps.At ⟨e, x⟩ i
    · by_cases h2 : U.maps.At ⟨t, y⟩ j
      · rw [if_pos ⟨h1, h2⟩, if_pos h1, if_pos h2, star_mul]; ring
      · rw [if_neg (fun h => h2 h.2), if_neg h2]; ring
    · rw [if_neg (fun h => h1 h.1), if_neg h1]; simp
  simp only [lhs]
  unfold sesq localCoefficient
  simp only [push_sum]
  refine Finset.sum_congr rfl fun e _ => Finset.sum_congr rfl fun t _ => Finset.sum_congr rfl fun x _ => Finset.sum_congr rfl fun y _ => ?_
  rw [star_sum, Finset.sum_mul_sum, Finset.sum_mul]
  refine Finset.sum_congr rfl fun i _ => ?_
  rw [Finset.sum_mul]

/-- The local sums over the nodes of a rule, summed over the basis functions. -/
theorem localSum_forms {F : SurfaceFunction → SurfaceFunction → Node → Node → ℂ} (hD : Documented s.op F)
    (hs : Setup s selector vertexCount testShapeset trialShapeset T U tri tri') (e t : Nat) (he : e < T.elementCount)
    (ht : t < U.elementCount) (rule : DoubleRule)
    (hx : ∀ n ∈ rule.nodes, (surfaceNode tri e n.1).position ≠ (surfaceNode tri' t n.2.1).position) (a c : Nat → ℂ) :
    sesq (T.gdofs e).length (U.gdofs t).length (localCoefficient T a e) (localCoefficient U c t)
      (fun i j => s.localSum rule.nodes (testShapeset e) (trialShapeset t) e t i j) =
    pairSum tri tri' e t rule (F (functionOf T (fun e => s.shapeset (testShapeset e)) tri a)
      (functionOf U (fun t => s.shapeset (trialShapeset t)) tri' c)) := by
  unfold Setting.localSum pairSum
  obtain ⟨hT, hp⟩ := hs.testTriangles e he
  obtain ⟨hT', hp'⟩ := hs.trialTriangles t ht
  have : ∀ nodes : List ((ℝ × ℝ) × (ℝ × ℝ) × ℝ), (∀ n ∈ nodes, (surfaceNode tri e n.1).position ≠ (surfaceNode tri' t n.2.1).position) →
      sesq (T.gdofs e).length (U.gdofs t).length (localCoefficient T a e) (localCoefficient U c t)
      (fun i j => (nodes.map fun n => ((n.2.2 : ℝ) : ℂ) *
    (((full s.testMesh e n.1).geom.integrationElement * (full s.trialMesh t n.2.1).geom.integrationElement : ℝ) : ℂ) *
    s.op.integrand (full s.testMesh e n.1) (full s.trialMesh t n.2.1) ((s.shapeset (testShapeset e)).shape i n.1) ((s.shapeset (trialShapeset t)).shape j n.2.1)).sum) =
    (nodes.map fun n => ((n.2.2 : ℝ) : ℂ) * (((surfaceNode tri e n.1).weight * (surfaceNode tri' t n.2.1).weight : ℝ) : ℂ) *
      (F (functionOf T (fun e => s.shapeset (testShapeset e)) tri a)
      (functionOf U (fun t => s.shapeset (trialShapeset t)) tri' c)) (surfaceNode tri e n.1) (surfaceNode tri' t n.2.1)).sum := by
    intro nodes hn
    induction nodes with
    | nil => simp [sesq]
    | cons n nodes ih =>
      simp only [List.map_cons, List.sum_cons, sesq_add]
      rw [ih fun m hm => hn m (by simp [hm]), sesq_mul]
      congr 1
      rw [(full_triangle s.testMesh tri e n.1 hT hp).2.2.2, (full_triangle s.trialMesh tri' t n.2.1 hT' hp').2.2.2]
      congr 1
      exact form_eq (shapes := fun e => s.shapeset (testShapeset e)) (shapes' := fun t => s.shapeset (trialShapeset t)) hD s.testMesh s.trialMesh
        n.1 n.2.1 hT hp hT' hp' (hn n (by simp))
  exact this _ hx

/-- **C98 (bilinear forms)** In every execution, with or without BLAS and caching, the matrix that the assembly yields is that of the
documented bilinear form: applied to the coefficients of a test and a trial function, it gives the approximation of the double integral of
the form by the rules chosen for the pairs of elements (provided that no two nodes coincide; see C99). -/
theorem C98_forms [DecidableEq addr] {F : SurfaceFunction → SurfaceFunction → Node → Node → ℂ} (hD : Documented s.op F)
    (hs : Setup s selector vertexCount testShapeset trialShapeset T U tri tri') (caching : Bool) (rule : Nat → Nat → DoubleRule)
    (hrule : ∀ e < T.elementCount, ∀ t < U.elementCount, RuleFor selector e t (rule e t) ∧
      ∀ n ∈ (rule e t).nodes, (surfaceNode tri e n.1).position ≠ (surfaceNode tri' t n.2.1).position)
    (out : Option (Mx ℂ)) (h : s.Assembles selector vertexCount testShapeset trialShapeset T U caching out) :
    ∃ M, out = some M ∧ M.rows = T.globalDofCount ∧ M.cols = U.globalDofCount ∧ ∀ a c : Nat → ℂ,
      ∑ i ∈ range M.rows, ∑ j ∈ range M.cols, star (a i) * M.e i j * c j =
        doubleSum tri tri' T.elementCount U.elementCount rule
          (F (functionOf T (fun e => s.shapeset (testShapeset e)) tri a) (functionOf U (fun t => s.shapeset (trialShapeset t)) tri' c)) := by
  obtain ⟨M, h1, h2, h3, h4⟩ := assembles_entries (documented_sound hD) hs caching rule (fun e he t ht => (hrule e he t ht).1) out h
  refine ⟨M, h1, h2, h3, fun a c => ?_⟩
  have : ∑ i ∈ range M.rows, ∑ j ∈ range M.cols, star (a i) * M.e i j * c j =
      ∑ i ∈ range T.globalDofCount, ∑ j ∈ range U.globalDofCount, star (a i) * Assembly.weakFormEntry T U
        (fun e t a b => s.localSum (rule e t).nodes (testShapeset e) (trialShapeset t) e t a b) i j * c j := by
    rw [h2, h3]
    refine Finset.sum_congr rfl fun i hi => Finset.sum_congr rfl fun j hj => ?_
    rw [h4 i j (h2 ▸ Finset.mem_range.mp hi) (h3 ▸ Finset.mem_range.mp hj)]
  rw [this, apply_weakForm]
  unfold doubleSum
  refine Finset.sum_congr rfl fun e he => Finset.sum_congr rfl fun t ht => ?_
  exact localSum_forms hD hs e t (Finset.mem_range.mp he) (Finset.mem_range.mp ht) (rule e t)
    (hrule e (Finset.mem_range.mp he) t (Finset.mem_range.mp ht)).2 a c

end Verif.Bio
