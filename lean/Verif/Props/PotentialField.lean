import Verif.Lemmas.PotentialNodes
/-
Property C80: the fields computed by potential operators.
-/
namespace Verif.Pot
open Verif.Grid Verif.Shape Verif.SingleQuad Verif.Space Verif.HMat Verif.LocalOps Verif.GridFun Verif.Kernel Verif.Assembly
open Filter Topology

section
variable {addr : Type}

/-- **C80 (assembly and application succeed)** Whatever the schedule of the parallel assembly and the orders of the sets of integrators,
the operator is assembled, the constructor accepts the result and applying it to a vector with one entry for each global dof yields a
matrix with one row for each component and one column for each point; its entries depend on the arguments only. -/
theorem C80_succeeds (A : Assembler addr) (k : ℂ) (tri : Triangles) (U : ASpace ℂ) (n : Nat) (hs : A.Setup k tri U n)
    (order : Nat → List Descriptor) (old : Nat → List (Mx ℂ))
    (ho : ∀ t, Traversal (fun p d => A.Rule tri p t (-1) d) (List.range n) (order t) ∧ (old t).length = n) :
    (∃ out, AssemblePotential A U n order old out) ∧ ∀ out, AssemblePotential A U n order old out → ∃ M assembled, out = some M ∧
      constructPotential (some U.globalDofCount) (some n) (some (DiscreteOp.denseOp M)) A.op.functor.dim = .ok assembled ∧
      ∀ a : Nat → ℂ, (∃ out, assembled.ApplyRun ⟨U.globalDofCount, a⟩ out) ∧ ∀ out, assembled.ApplyRun ⟨U.globalDofCount, a⟩ out →
        ∃ Y, out = .ok Y ∧ Y.rows = A.op.functor.dim ∧ Y.cols = n ∧ ∀ c < A.op.functor.dim, ∀ p < n, ∃ z, Y.e c p = some z ∧
          ∀ z', A.Computes tri U n a p c z' ↔ z' = z := by
  refine ⟨assemble_exists hs order old ho, fun out h => ?_⟩
  obtain ⟨M, rfl, e2, e3, e4⟩ := assemble_spec hs order old ho _ h
  refine ⟨M, _, rfl, construct_ok hs.valid M _ e2 e3, fun a => ?_⟩
  obtain ⟨h1, h2⟩ := apply_spec hs.valid M _ e2 e3 a
  refine ⟨h1, fun out h => ?_⟩
  obtain ⟨Y, rfl, f1, f2, f3⟩ := h2 _ h
  refine ⟨Y, rfl, f1, f2, fun c hc p hp => ⟨_, f3 c hc p hp, fun z' => ?_⟩⟩
  rw [computes_iff hs a p c z', Assembler.computed, ← entries_sum]
  rw [Finset.sum_congr rfl fun j hj => by rw [← e4 p c j hp hc (Finset.mem_range.mp hj)]]
  tauto

/-- **C80 (errors)** The constructor refuses a null operator, a number of components that is not positive, numbers of rows or columns that
do not fit, and nothing else; a vector of coefficients of the wrong length is refused. -/
theorem C80_errors (globalDofCount pointCount : Option Nat) (op : Option (DiscreteOp.DOp ℂ)) (components : Int) :
    ((∃ a, constructPotential globalDofCount pointCount op components = .ok a) ↔
      ∃ o, op = some o ∧ 0 < components ∧ (∃ m : Nat, (o.rowCount : Int) = components * m ∧ ∀ q, pointCount = some q → q = m) ∧
        ∀ q, globalDofCount = some q → o.columnCount = q) ∧
    (∀ a, constructPotential globalDofCount pointCount op components = .ok a →
      some a.op = op ∧ (a.componentCount : Int) = components ∧ a.globalDofCount = globalDofCount ∧ a.pointCount = pointCount) ∧
    constructPotential globalDofCount pointCount op components ≠ .undefined ∧
    ∀ (a : AssembledPotential) (v : DiscreteOp.Vec ℂ) (q : Nat) (out : SingleQuad.Outcome (Mx (Option ℂ))), a.globalDofCount = some q →
      v.len ≠ q → a.ApplyRun v out → ∃ m, out = .throws m := by
  refine ⟨?_, ?_, ?_, ?_⟩
  · cases op with
    | none => simp [constructPotential]
    | some o =>
      unfold constructPotential
      dsimp only
      by_cases h1 : components < 1
      · rw [if_pos h1]
        simp
        intro h
        omega
      rw [if_neg h1]
      obtain ⟨c, rfl⟩ := Int.eq_ofNat_of_zero_le (a := components) (by omega)
      have hc : 0 < c := by omega
      rw [Int.toNat_natCast]
      by_cases h2 : o.rowCount % c ≠ 0
      · rw [if_pos h2]
        simp only [reduceCtorEq, exists_false, false_iff]
        rintro ⟨o', ho, -, ⟨m, hm, -⟩, -⟩
        cases ho
        apply h2
        have : o.rowCount = c * m := by exact_mod_cast hm
        rw [this]
        simp
      rw [if_neg h2]
      have h2' : c ∣ o.rowCount := Nat.dvd_of_mod_eq_zero (by simpa using h2)
      obtain ⟨m, hm⟩ := h2'
      by_cases h3 : (pointCount.any fun n => decide (o.rowCount ≠ c * n)) = true
      · rw [if_pos h3]
        simp only [reduceCtorEq, exists_false, false_iff]
        rintro ⟨o', ho, -, ⟨m', hm', h⟩, -⟩
        cases ho
        cases pointCount with
        | none => simp at h3
        | some q =>
          have := h q rfl
          subst this
          simp at h3
          exact h3 (by exact_mod_cast hm')
      rw [if_neg h3]
      by_cases h4 : (globalDofCount.any fun n => decide (o.columnCount ≠ n)) = true
      · rw [if_pos h4]
        simp only [reduceCtorEq, exists_false, false_iff]
        rintro ⟨o', ho, -, -, h⟩
        cases ho
        cases globalDofCount with
        | none => simp at h4
        | some q => simp [h q rfl] at h4
      rw [if_neg h4]
      simp only [Outcome.ok.injEq, exists_eq', true_iff]
      refine ⟨o, rfl, by omega, ⟨m, by exact_mod_cast hm, ?_⟩, ?_⟩
      · rintro q rfl
        simp at h3
        rw [hm] at h3
        exact (Nat.eq_of_mul_eq_mul_left hc h3).symm
      · rintro q rfl
        simpa using h4
  · intro a h
    cases op with
    | none => simp [constructPotential] at h
    | some o =>
      unfold constructPotential at h
      dsimp only at h
      split at h
      · cases h
      split at h
      · cases h
      split at h
      · cases h
      split at h
      · cases h
      cases h
      refine ⟨rfl, ?_, rfl, rfl⟩
      dsimp only
      omega
  · cases op with
    | none => simp [constructPotential]
    | some o =>
      unfold constructPotential
      dsimp only
      split
      · simp
      split
      · simp
      split
      · simp
      split <;> simp
  · intro a v q out hq hv h
    unfold AssembledPotential.ApplyRun at h
    rw [hq] at h
    dsimp only at h
    rw [if_pos (Ne.symm hv)] at h
    exact ⟨_, h⟩

/-! ### Kernels as derivatives -/

theorem normalDerivative_eq (κ : ℂ) {x y : P3 ℝ} (h : x ≠ y) (n m : P3 ℝ) :
    normalDerivative κ x y n = helmholtzDL κ ⟨x, m⟩ ⟨y, n⟩ :=
  (C73_double_layer κ ⟨x, m⟩ ⟨y, n⟩ h).1.deriv

theorem normalDerivative_rad (κ : ℂ) {x y : P3 ℝ} (h : x ≠ y) (n : P3 ℝ) :
    normalDerivative κ x y n = -(lin y n x * rad1 κ (dist x y)) := by
  rw [normalDerivative_eq κ h n ⟨0, 0, 0⟩, dl_rad κ _ _ h]
  unfold lin
  push_cast
  ring

theorem partialDerivative_rad (κ : ℂ) {x y : P3 ℝ} (h : x ≠ y) (c : Nat) :
    partialDerivative κ x y c = lin y (axis c) x * rad1 κ (dist x y) := (fundamental_deriv κ h (axis c)).deriv

theorem maxwell_partial (κ : ℂ) {x y : P3 ℝ} (h : x ≠ y) (m n : P3 ℝ) :
    maxwellDL κ ⟨x, m⟩ ⟨y, n⟩ = (partialDerivative κ x y 0, partialDerivative κ x y 1, partialDerivative κ x y 2) := by
  rw [maxwellDL_rad κ _ _ h, partialDerivative_rad κ h, partialDerivative_rad κ h, partialDerivative_rad κ h]
  simp [lin, sumMul, axis, P3.sub]

theorem maxwellSL_partial (κ : ℂ) (hκ : κ ≠ 0) {x y : P3 ℝ} (h : x ≠ y) (m n : P3 ℝ) :
    maxwellSLPot κ ⟨x, m⟩ ⟨y, n⟩ = (κ * fundamental κ x y, partialDerivative κ x y 0 / κ, partialDerivative κ x y 1 / κ,
      partialDerivative κ x y 2 / κ) := by
  obtain ⟨-, -, -, h4⟩ := C73_gradients κ ⟨x, m⟩ ⟨y, n⟩ h
  obtain ⟨h5, h6⟩ := h4 hκ
  have key : ∀ c, HasDerivAt (fun τ => fundamental κ (along x (axis c) τ) y / κ) (partialDerivative κ x y c / κ) 0 := by
    intro c
    have := fundamental_deriv κ h (axis c)
    rw [partialDerivative_rad κ h]
    exact HasDerivAt.div_const this κ
  refine Prod.ext h5 (Prod.ext ?_ (Prod.ext ?_ ?_))
  · have := HasDerivAt.unique (h6 (axis 0)) (key 0)
    simpa [axis] using this
  · have := HasDerivAt.unique (h6 (axis 1)) (key 1)
    simpa [axis] using this
  · have := HasDerivAt.unique (h6 (axis 2)) (key 2)
    simpa [axis] using this

/-! ### The fields -/

/-- A value that is computed is a sum over the nodes. -/
theorem value_eq {A : Assembler addr} {k : ℂ} {tri : Triangles} {U : ASpace ℂ} {n : Nat} (hs : A.Setup k tri U n) {a : Nat → ℂ} {p c : Nat}
    {nodes : List Node} (hn : A.Nodes tri U p nodes) {z : ℂ} (hz : A.Computes tri U n a p c z) :
    c < A.op.functor.dim ∧ z = nodeSum nodes (atNode A.op U A.shapes tri a (A.points p) c) := by
  obtain ⟨-, h1, h2⟩ := (computes_iff hs a p c z).mp hz
  exact ⟨h1, h2.trans (computed_nodes hs.valid a p c nodes hn)⟩

/-- **C80 (scalar potentials)** At a point that is not a node of quadrature the Laplace, modified Helmholtz and Helmholtz potential
operators compute the single- and double-layer potentials, with the fundamental solutions of `-Δu`, `-Δu + k²u` and `-Δu - k²u`, of the
function with these coefficients, approximated by the quadrature rules. -/
theorem C80_scalar (A : Assembler addr) (k : ℂ) (tri : Triangles) (U : ASpace ℂ) (n : Nat) (hs : A.Setup k tri U n) (a : Nat → ℂ)
    (p c : Nat) (nodes : List Node) (hn : A.Nodes tri U p nodes) (hx : ∀ ν ∈ nodes, A.points p ≠ ν.position) (z : ℂ)
    (hz : A.Computes tri U n a p c z) :
    (A.op = laplaceSingle → z = singleLayer 0 nodes (densityOf U A.shapes tri a) (A.points p)) ∧
    (A.op = laplaceDouble → z = doubleLayer 0 nodes (densityOf U A.shapes tri a) (A.points p)) ∧
    (A.op = modifiedHelmholtzSingle k → z = singleLayer k nodes (densityOf U A.shapes tri a) (A.points p)) ∧
    (A.op = modifiedHelmholtzDouble k → z = doubleLayer k nodes (densityOf U A.shapes tri a) (A.points p)) ∧
    (A.op = helmholtzSingle k → z = singleLayer (k / Complex.I) nodes (densityOf U A.shapes tri a) (A.points p)) ∧
    (A.op = helmholtzDouble k → z = doubleLayer (k / Complex.I) nodes (densityOf U A.shapes tri a) (A.points p)) := by
  obtain ⟨-, e⟩ := value_eq hs hn hz
  have hS : ∀ κ, A.op = modifiedHelmholtzSingle κ → z = singleLayer κ nodes (densityOf U A.shapes tri a) (A.points p) := by
    intro κ ho
    rw [e, ho]
    refine nodeSum_congr fun ν hν => ?_
    rw [← (C73_single_layer κ ⟨A.points p, ⟨0, 0, 0⟩⟩ ⟨ν.position, ν.normal⟩).1, mul_comm]
    rfl
  have hD : ∀ κ, A.op = modifiedHelmholtzDouble κ → z = doubleLayer κ nodes (densityOf U A.shapes tri a) (A.points p) := by
    intro κ ho
    rw [e, ho]
    refine nodeSum_congr fun ν hν => ?_
    rw [normalDerivative_eq κ (hx ν hν) ν.normal ⟨0, 0, 0⟩, mul_comm]
    rfl
  refine ⟨fun ho => ?_, fun ho => ?_, hS k, hD k, hS _, hD _⟩
  · rw [e, ho]
    refine nodeSum_congr fun ν hν => ?_
    rw [← (C73_single_layer 0 ⟨A.points p, ⟨0, 0, 0⟩⟩ ⟨ν.position, ν.normal⟩).2.1, mul_comm]
    rfl
  · rw [e, ho]
    refine nodeSum_congr fun ν hν => ?_
    rw [normalDerivative_eq 0 (hx ν hν) ν.normal ⟨0, 0, 0⟩,
      ← (laplace_zero ⟨A.points p, ⟨0, 0, 0⟩⟩ ⟨ν.position, ν.normal⟩ (hx ν hν)).2.1, mul_comm]
    rfl

/-- **C80 (Maxwell potentials)** The three components computed by the Maxwell potential operators are those of the electric and magnetic
potentials of the vector field with these coefficients, by quadrature. -/
theorem C80_maxwell (A : Assembler addr) (k : ℂ) (tri : Triangles) (U : ASpace ℂ) (n : Nat) (hs : A.Setup k tri U n) (a : Nat → ℂ)
    (p c : Nat) (nodes : List Node) (hn : A.Nodes tri U p nodes) (hx : ∀ ν ∈ nodes, A.points p ≠ ν.position) (z : ℂ)
    (hz : A.Computes tri U n a p c z) :
    (A.op = maxwellSingle k → c < 3 ∧ (k ≠ 0 → z = electric (k / Complex.I) nodes (densityOf U A.shapes tri a) (A.points p) c)) ∧
    (A.op = maxwellDouble k → c < 3 ∧ z = magnetic (k / Complex.I) nodes (densityOf U A.shapes tri a) (A.points p) c) := by
  obtain ⟨hc, e⟩ := value_eq hs hn hz
  refine ⟨fun ho => ?_, fun ho => ?_⟩
  · rw [ho] at hc e
    have hc3 : c < 3 := hc
    refine ⟨hc3, fun hk => ?_⟩
    rw [e]
    refine nodeSum_congr fun ν hν => ?_
    have hκ : k / Complex.I ≠ 0 := div_ne_zero hk Complex.I_ne_zero
    have hp := maxwellSL_partial (k / Complex.I) hκ (hx ν hν) ⟨0, 0, 0⟩ ν.normal
    have e0 : kernelValues (maxwellSLPotFunctor (k / Complex.I)) ⟨A.points p, ⟨0, 0, 0⟩⟩ ⟨ν.position, ν.normal⟩ 0 0 =
        k / Complex.I * fundamental (k / Complex.I) (A.points p) ν.position := by
      show (maxwellSLPot _ _ _).1 = _
      rw [hp]
    have e1 : kernelValues (maxwellSLPotFunctor (k / Complex.I)) ⟨A.points p, ⟨0, 0, 0⟩⟩ ⟨ν.position, ν.normal⟩ 1 c =
        partialDerivative (k / Complex.I) (A.points p) ν.position c / (k / Complex.I) := by
      rcases (by omega : c = 0 ∨ c = 1 ∨ c = 2) with rfl | rfl | rfl
      · show (maxwellSLPot _ _ _).2.1 = _
        rw [hp]
      · show (maxwellSLPot _ _ _).2.2.1 = _
        rw [hp]
      · show (maxwellSLPot _ _ _).2.2.2 = _
        rw [hp]
    show -kernelValues (maxwellSLPotFunctor (k / Complex.I)) ⟨A.points p, ⟨0, 0, 0⟩⟩ ⟨ν.position, ν.normal⟩ 0 0 *
      (densityOf U A.shapes tri a).vector c ν +
      kernelValues (maxwellSLPotFunctor (k / Complex.I)) ⟨A.points p, ⟨0, 0, 0⟩⟩ ⟨ν.position, ν.normal⟩ 1 c *
      (densityOf U A.shapes tri a).divergence ν = _
    rw [e0, e1]
    ring
  · rw [ho] at hc e
    have hc3 : c < 3 := hc
    refine ⟨hc3, ?_⟩
    rw [e]
    refine nodeSum_congr fun ν hν => ?_
    have hp := maxwell_partial (k / Complex.I) (hx ν hν) ⟨0, 0, 0⟩ ν.normal
    have e1 : ∀ d < 3, kernelValues (maxwellDLFunctor (k / Complex.I)) ⟨A.points p, ⟨0, 0, 0⟩⟩ ⟨ν.position, ν.normal⟩ 0 d =
        partialDerivative (k / Complex.I) (A.points p) ν.position d := by
      intro d hd
      rcases (by omega : d = 0 ∨ d = 1 ∨ d = 2) with rfl | rfl | rfl
      · show (maxwellDL _ _ _).1 = _
        rw [hp]
      · show (maxwellDL _ _ _).2.1 = _
        rw [hp]
      · show (maxwellDL _ _ _).2.2 = _
        rw [hp]
    rcases (by omega : c = 0 ∨ c = 1 ∨ c = 2) with rfl | rfl | rfl
    · simp only [Nat.zero_add, Nat.reduceAdd, Nat.reduceMod]
      rw [← e1 1 (by omega), ← e1 2 (by omega)]
      rfl
    · simp only [Nat.reduceAdd, Nat.reduceMod]
      rw [← e1 2 (by omega), ← e1 0 (by omega)]
      rfl
    · simp only [Nat.reduceAdd, Nat.reduceMod]
      rw [← e1 0 (by omega), ← e1 1 (by omega)]
      rfl

/-! ### Gradients -/

theorem gradient_congr {F F' : P3 ℝ → ℂ} {G : ℂ × ℂ × ℂ} {x y : P3 ℝ} (h : HasGradient F G x) (hx : x ≠ y)
    (he : ∀ p, p ≠ y → F' p = F p) : HasGradient F' G x := by
  intro v
  refine HasDerivAt.congr_of_eventuallyEq (h v) ?_
  filter_upwards [slice_ne hx v] with τ hτ
  exact he _ hτ

theorem gradient_sum (nodes : List Node) (F : Node → P3 ℝ → ℂ) (G : Node → ℂ × ℂ × ℂ) (s : Node → ℂ) (x : P3 ℝ)
    (h : ∀ ν ∈ nodes, HasGradient (F ν) (G ν) x) :
    HasGradient (fun x => nodeSum nodes fun ν => F ν x * s ν)
      (nodeSum nodes fun ν => s ν * (G ν).1, nodeSum nodes fun ν => s ν * (G ν).2.1, nodeSum nodes fun ν => s ν * (G ν).2.2) x := by
  intro v
  induction nodes with
  | nil => simpa [nodeSum] using dir_const 0 x v
  | cons ν nodes ih =>
    have h1 := h ν (by simp) v
    have h2 := ih fun μ hμ => h μ (by simp [hμ])
    have h3 := dir_add (dir_mul (dir_const ((ν.weight : ℂ) * s ν) x v) h1) h2
    refine HasDerivAt.congr_deriv (HasDerivAt.congr_of_eventuallyEq h3 (Eventually.of_forall fun τ => ?_)) ?_
    · simp only [nodeSum, List.map_cons, List.sum_cons]
      ring
    · simp only [nodeSum, List.map_cons, List.sum_cons]
      ring

/-- **C80 (gradients)** The three components computed by the Laplace gradient operators form the gradient of the single- and double-layer
potentials with the same nodes. -/
theorem C80_gradient (A : Assembler addr) (k : ℂ) (tri : Triangles) (U : ASpace ℂ) (n : Nat) (hs : A.Setup k tri U n) (a : Nat → ℂ)
    (p : Nat) (nodes : List Node) (hn : A.Nodes tri U p nodes) (hx : ∀ ν ∈ nodes, A.points p ≠ ν.position) (z : Fin 3 → ℂ)
    (hz : ∀ c : Fin 3, A.Computes tri U n a p c (z c)) :
    (A.op = laplaceSingleGradient → HasGradient (singleLayer 0 nodes (densityOf U A.shapes tri a)) (z 0, z 1, z 2) (A.points p)) ∧
    (A.op = laplaceDoubleGradient → HasGradient (doubleLayer 0 nodes (densityOf U A.shapes tri a)) (z 0, z 1, z 2) (A.points p)) := by
  have e := fun c => (value_eq hs hn (hz c)).2
  refine ⟨fun ho => ?_, fun ho => ?_⟩
  · rw [e 0, e 1, e 2, ho]
    exact gradient_sum nodes (fun ν x => fundamental 0 x ν.position) (fun ν =>
      (((laplaceSLGrad ⟨A.points p, ⟨0, 0, 0⟩⟩ ⟨ν.position, ν.normal⟩).x : ℂ),
        ((laplaceSLGrad ⟨A.points p, ⟨0, 0, 0⟩⟩ ⟨ν.position, ν.normal⟩).y : ℂ),
        ((laplaceSLGrad ⟨A.points p, ⟨0, 0, 0⟩⟩ ⟨ν.position, ν.normal⟩).z : ℂ))) (densityOf U A.shapes tri a).scalar (A.points p) fun ν hν =>
      (C73_gradients 0 ⟨A.points p, ⟨0, 0, 0⟩⟩ ⟨ν.position, ν.normal⟩ (hx ν hν)).2.1
  · rw [e 0, e 1, e 2, ho]
    refine gradient_sum nodes (fun ν x => normalDerivative 0 x ν.position ν.normal) (fun ν =>
      (((laplaceDLGrad ⟨A.points p, ⟨0, 0, 0⟩⟩ ⟨ν.position, ν.normal⟩).x : ℂ),
        ((laplaceDLGrad ⟨A.points p, ⟨0, 0, 0⟩⟩ ⟨ν.position, ν.normal⟩).y : ℂ),
        ((laplaceDLGrad ⟨A.points p, ⟨0, 0, 0⟩⟩ ⟨ν.position, ν.normal⟩).z : ℂ))) (densityOf U A.shapes tri a).scalar (A.points p)
      fun ν hν => ?_
    refine gradient_congr (C73_gradients 0 ⟨A.points p, ⟨0, 0, 0⟩⟩ ⟨ν.position, ν.normal⟩ (hx ν hν)).2.2.1 (hx ν hν) fun q hq => ?_
    rw [normalDerivative_eq 0 hq ν.normal ⟨0, 0, 0⟩, (laplace_zero ⟨q, ⟨0, 0, 0⟩⟩ ⟨ν.position, ν.normal⟩ hq).2.1]

/-! ### Far fields -/

theorem far_const {κ : ℂ} {F : P3 ℝ → ℂ} {L : ℂ} {x : P3 ℝ} (s : ℂ) (h : HasFarField κ F L x) :
    HasFarField κ (fun p => s * F p) (s * L) x := by
  unfold HasFarField at *
  refine (h.const_mul s).congr fun r => ?_
  ring

theorem far_add {κ : ℂ} {F G : P3 ℝ → ℂ} {L M : ℂ} {x : P3 ℝ} (h : HasFarField κ F L x) (h' : HasFarField κ G M x) :
    HasFarField κ (fun p => F p + G p) (L + M) x := by
  unfold HasFarField at *
  refine (h.add h').congr fun r => ?_
  ring

theorem far_sum (κ : ℂ) (nodes : List Node) (F : Node → P3 ℝ → ℂ) (L : Node → ℂ) (x : P3 ℝ)
    (h : ∀ ν ∈ nodes, HasFarField κ (F ν) (L ν) x) : HasFarField κ (fun p => nodeSum nodes fun ν => F ν p) (nodeSum nodes L) x := by
  induction nodes with
  | nil => simp [nodeSum, HasFarField]
  | cons ν nodes ih =>
    have := far_add (far_const (ν.weight : ℂ) (h ν (by simp))) (ih fun μ hμ => h μ (by simp [hμ]))
    simpa [nodeSum] using this

/-- **C80 (far fields)** In directions that are unit vectors the far-field operators compute the far-field patterns of the potentials with
the same nodes. -/
theorem C80_far_field (A : Assembler addr) (k : ℂ) (tri : Triangles) (U : ASpace ℂ) (n : Nat) (hs : A.Setup k tri U n) (a : Nat → ℂ)
    (p c : Nat) (nodes : List Node) (hn : A.Nodes tri U p nodes)
    (hx : (A.points p).x ^ 2 + (A.points p).y ^ 2 + (A.points p).z ^ 2 = 1) (z : ℂ) (hz : A.Computes tri U n a p c z) :
    (A.op = helmholtzFarSingle k → HasFarField (k / Complex.I) (singleLayer (k / Complex.I) nodes (densityOf U A.shapes tri a)) z
      (A.points p)) ∧
    (A.op = helmholtzFarDouble k → HasFarField (k / Complex.I) (doubleLayer (k / Complex.I) nodes (densityOf U A.shapes tri a)) z
      (A.points p)) ∧
    (A.op = maxwellFarSingle k → k ≠ 0 → HasFarField (k / Complex.I)
      (fun x => electric (k / Complex.I) nodes (densityOf U A.shapes tri a) x c) z (A.points p)) ∧
    (A.op = maxwellFarDouble k → HasFarField (k / Complex.I)
      (fun x => magnetic (k / Complex.I) nodes (densityOf U A.shapes tri a) x c) z (A.points p)) := by
  obtain ⟨hc, e⟩ := value_eq hs hn hz
  have hu : sumMul (A.points p) (A.points p) = 1 := by simp only [sumMul]; linarith
  have far := fun ν : Node => C73_far_field (k / Complex.I) ⟨A.points p, ⟨0, 0, 0⟩⟩ ⟨ν.position, ν.normal⟩ hx ⟨0, 0, 0⟩
  refine ⟨fun ho => ?_, fun ho => ?_, fun ho hk => ?_, fun ho => ?_⟩
  · rw [e, ho]
    refine far_sum _ nodes _ _ _ fun ν _ => ?_
    have := far_const ((densityOf U A.shapes tri a).scalar ν) (far ν).1
    refine HasFarField.congr' _ ν.position hu this fun q hq => ?_
    rw [← (C73_single_layer (k / Complex.I) ⟨q, ⟨0, 0, 0⟩⟩ ⟨ν.position, ν.normal⟩).1, mul_comm]
  · rw [e, ho]
    refine far_sum _ nodes _ _ _ fun ν _ => ?_
    have := far_const ((densityOf U A.shapes tri a).scalar ν) (far ν).2.1
    refine HasFarField.congr' _ ν.position hu this fun q hq => ?_
    rw [normalDerivative_eq _ hq ν.normal ⟨0, 0, 0⟩, mul_comm]
  · rw [ho] at hc e
    have hc3 : c < 3 := hc
    rw [e]
    have hκ : k / Complex.I ≠ 0 := div_ne_zero hk Complex.I_ne_zero
    refine far_sum _ nodes _ _ _ fun ν _ => ?_
    obtain ⟨-, -, -, -, -, hf⟩ := far ν
    obtain ⟨f0, f1, f2, f3⟩ := hf hκ
    have fc : HasFarField (k / Complex.I) (fun q => partialDerivative (k / Complex.I) q ν.position c / (k / Complex.I))
        (kernelValues (maxwellFarSLFunctor (k / Complex.I)) ⟨A.points p, ⟨0, 0, 0⟩⟩ ⟨ν.position, ν.normal⟩ 1 c) (A.points p) := by
      rcases (by omega : c = 0 ∨ c = 1 ∨ c = 2) with rfl | rfl | rfl
      · refine HasFarField.congr' _ ν.position hu f1 fun q hq => ?_
        rw [maxwellSL_partial _ hκ hq]
      · refine HasFarField.congr' _ ν.position hu f2 fun q hq => ?_
        rw [maxwellSL_partial _ hκ hq]
      · refine HasFarField.congr' _ ν.position hu f3 fun q hq => ?_
        rw [maxwellSL_partial _ hκ hq]
    have := far_add (far_const (-(densityOf U A.shapes tri a).vector c ν) f0) (far_const ((densityOf U A.shapes tri a).divergence ν) fc)
    have e2 : atNode (maxwellFarSingle k) U A.shapes tri a (A.points p) c ν = -(densityOf U A.shapes tri a).vector c ν *
        (maxwellFarSL (k / Complex.I) ⟨A.points p, ⟨0, 0, 0⟩⟩ ⟨ν.position, ν.normal⟩).1 + (densityOf U A.shapes tri a).divergence ν *
        kernelValues (maxwellFarSLFunctor (k / Complex.I)) ⟨A.points p, ⟨0, 0, 0⟩⟩ ⟨ν.position, ν.normal⟩ 1 c := by
      show -kernelValues (maxwellFarSLFunctor (k / Complex.I)) ⟨A.points p, ⟨0, 0, 0⟩⟩ ⟨ν.position, ν.normal⟩ 0 0 *
        (densityOf U A.shapes tri a).vector c ν +
        kernelValues (maxwellFarSLFunctor (k / Complex.I)) ⟨A.points p, ⟨0, 0, 0⟩⟩ ⟨ν.position, ν.normal⟩ 1 c *
        (densityOf U A.shapes tri a).divergence ν = _
      rw [show kernelValues (maxwellFarSLFunctor (k / Complex.I)) ⟨A.points p, ⟨0, 0, 0⟩⟩ ⟨ν.position, ν.normal⟩ 0 0 =
        (maxwellFarSL (k / Complex.I) ⟨A.points p, ⟨0, 0, 0⟩⟩ ⟨ν.position, ν.normal⟩).1 from rfl]
      ring
    rw [e2]
    refine HasFarField.congr' _ ν.position hu this fun q hq => ?_
    rw [maxwellSL_partial _ hκ hq]
    ring
  · rw [ho] at hc e
    have hc3 : c < 3 := hc
    rw [e]
    refine far_sum _ nodes _ _ _ fun ν _ => ?_
    obtain ⟨-, -, f0, f1, f2, -⟩ := far ν
    have fc : ∀ d < 3, HasFarField (k / Complex.I) (fun q => partialDerivative (k / Complex.I) q ν.position d)
        (kernelValues (maxwellFarDLFunctor (k / Complex.I)) ⟨A.points p, ⟨0, 0, 0⟩⟩ ⟨ν.position, ν.normal⟩ 0 d) (A.points p) := by
      intro d hd
      rcases (by omega : d = 0 ∨ d = 1 ∨ d = 2) with rfl | rfl | rfl
      · refine HasFarField.congr' _ ν.position hu f0 fun q hq => ?_
        rw [maxwell_partial _ hq]
      · refine HasFarField.congr' _ ν.position hu f1 fun q hq => ?_
        rw [maxwell_partial _ hq]
      · refine HasFarField.congr' _ ν.position hu f2 fun q hq => ?_
        rw [maxwell_partial _ hq]
    have pair : ∀ i j, i < 3 → j < 3 → HasFarField (k / Complex.I) (fun q =>
        partialDerivative (k / Complex.I) q ν.position i * (densityOf U A.shapes tri a).vector j ν -
          partialDerivative (k / Complex.I) q ν.position j * (densityOf U A.shapes tri a).vector i ν)
        (kernelValues (maxwellFarDLFunctor (k / Complex.I)) ⟨A.points p, ⟨0, 0, 0⟩⟩ ⟨ν.position, ν.normal⟩ 0 i *
            (densityOf U A.shapes tri a).vector j ν -
          kernelValues (maxwellFarDLFunctor (k / Complex.I)) ⟨A.points p, ⟨0, 0, 0⟩⟩ ⟨ν.position, ν.normal⟩ 0 j *
            (densityOf U A.shapes tri a).vector i ν) (A.points p) := by
      intro i j hi hj
      have := far_add (far_const ((densityOf U A.shapes tri a).vector j ν) (fc i hi))
        (far_const (-(densityOf U A.shapes tri a).vector i ν) (fc j hj))
      convert this using 1
      · funext q; ring
      · ring
    rcases (by omega : c = 0 ∨ c = 1 ∨ c = 2) with rfl | rfl | rfl
    · exact pair 1 2 (by omega) (by omega)
    · exact pair 2 0 (by omega) (by omega)
    · exact pair 0 1 (by omega) (by omega)

/-! ### Equations -/

theorem laplacian_sum (nodes : List Node) (F : Node → P3 ℝ → ℂ) (κ : ℂ) (x : P3 ℝ)
    (h : ∀ ν ∈ nodes, HasLaplacian (F ν) (κ ^ 2 * F ν x) x) :
    HasLaplacian (fun x => nodeSum nodes fun ν => F ν x) (κ ^ 2 * nodeSum nodes fun ν => F ν x) x := by
  induction nodes with
  | nil => simpa [nodeSum] using HasLaplacian.zero x
  | cons ν nodes ih =>
    have h1 := (h ν (by simp)).const_mul (ν.weight : ℂ)
    have h2 := h1.add (ih fun μ hμ => h μ (by simp [hμ]))
    have e : κ ^ 2 * nodeSum (ν :: nodes) (fun ν => F ν x) =
        (ν.weight : ℂ) * (κ ^ 2 * F ν x) + κ ^ 2 * nodeSum nodes fun ν => F ν x := by
      simp only [nodeSum, List.map_cons, List.sum_cons]
      ring
    rw [e]
    simpa only [nodeSum, List.map_cons, List.sum_cons] using h2

theorem laplacian_fundamental (κ : ℂ) {x y : P3 ℝ} (h : x ≠ y) : HasLaplacian (fun x => fundamental κ x y) (κ ^ 2 * fundamental κ x y) x :=
  laplacian_rad0 κ x y h

theorem laplacian_partial (κ : ℂ) {x y : P3 ℝ} (h : x ≠ y) (c : Nat) :
    HasLaplacian (fun x => partialDerivative κ x y c) (κ ^ 2 * partialDerivative κ x y c) x := by
  rw [partialDerivative_rad κ h]
  exact (laplacian_rad1 κ x y (axis c) h).congr h fun q hq => partialDerivative_rad κ hq c

/-- A linear combination of two solutions. -/
theorem laplacian_pair {F G : P3 ℝ → ℂ} {κ : ℂ} {x : P3 ℝ} (s t : ℂ) (h : HasLaplacian F (κ ^ 2 * F x) x)
    (h' : HasLaplacian G (κ ^ 2 * G x) x) : HasLaplacian (fun x => s * F x + t * G x) (κ ^ 2 * (s * F x + t * G x)) x := by
  have := (h.const_mul s).add (h'.const_mul t)
  rwa [show s * (κ ^ 2 * F x) + t * (κ ^ 2 * G x) = κ ^ 2 * (s * F x + t * G x) by ring] at this

/-- **C80 (equations)** Away from the nodes the potentials solve `Δu = κ²u`, whatever the nodes and densities: the potentials computed
with fixed nodes are exact solutions (for `κ = k/i` of the Helmholtz equation `Δu = -k²u`). -/
theorem C80_equation (κ : ℂ) (nodes : List Node) (u : Density) (x : P3 ℝ) (hx : ∀ ν ∈ nodes, x ≠ ν.position) :
    HasLaplacian (singleLayer κ nodes u) (κ ^ 2 * singleLayer κ nodes u x) x ∧
    HasLaplacian (doubleLayer κ nodes u) (κ ^ 2 * doubleLayer κ nodes u x) x ∧
    (∀ c, HasLaplacian (fun x => electric κ nodes u x c) (κ ^ 2 * electric κ nodes u x c) x) ∧
    (∀ c, HasLaplacian (fun x => magnetic κ nodes u x c) (κ ^ 2 * magnetic κ nodes u x c) x) ∧
    ∀ k, κ = k / Complex.I → κ ^ 2 = -k ^ 2 := by
  refine ⟨?_, ?_, fun c => ?_, fun c => ?_, ?_⟩
  · refine laplacian_sum nodes _ κ x fun ν hν => ?_
    have := laplacian_pair (u.scalar ν) 0 (laplacian_fundamental κ (hx ν hν)) (laplacian_fundamental κ (hx ν hν))
    simpa [mul_comm] using this
  · refine laplacian_sum nodes (fun ν x => normalDerivative κ x ν.position ν.normal * u.scalar ν) κ x fun ν hν => ?_
    have h1 : HasLaplacian (fun x => normalDerivative κ x ν.position ν.normal)
        (κ ^ 2 * normalDerivative κ x ν.position ν.normal) x := by
      have h2 := (laplacian_rad1 κ x ν.position ν.normal (hx ν hν)).const_mul (-1)
      rw [normalDerivative_rad κ (hx ν hν)]
      rw [show κ ^ 2 * -(lin ν.position ν.normal x * rad1 κ (dist x ν.position)) =
        -1 * (κ ^ 2 * (lin ν.position ν.normal x * rad1 κ (dist x ν.position))) by ring]
      exact h2.congr (hx ν hν) fun q hq => by rw [normalDerivative_rad κ hq]; ring
    have := laplacian_pair (u.scalar ν) 0 h1 h1
    simpa [mul_comm] using this
  · refine laplacian_sum nodes (fun ν x => -κ * fundamental κ x ν.position * u.vector c ν +
      partialDerivative κ x ν.position c / κ * u.divergence ν) κ x fun ν hν => ?_
    have := laplacian_pair (-κ * u.vector c ν) (u.divergence ν / κ) (laplacian_fundamental κ (hx ν hν)) (laplacian_partial κ (hx ν hν) c)
    convert this using 2
    · ring
    · ring
  · refine laplacian_sum nodes (fun ν x => partialDerivative κ x ν.position ((c + 1) % 3) * u.vector ((c + 2) % 3) ν -
      partialDerivative κ x ν.position ((c + 2) % 3) * u.vector ((c + 1) % 3) ν) κ x fun ν hν => ?_
    have := laplacian_pair (u.vector ((c + 2) % 3) ν) (-u.vector ((c + 1) % 3) ν) (laplacian_partial κ (hx ν hν) ((c + 1) % 3))
      (laplacian_partial κ (hx ν hν) ((c + 2) % 3))
    convert this using 2
    · ring
    · ring
  · rintro k rfl
    rw [div_pow, Complex.I_sq]
    ring

/-- **C80 (fixed nodes)** If the accuracy options do not depend on the distance, all points have the same nodes, whatever the points:
the values computed are those of one field. -/
theorem C80_uniform (A : Assembler addr) (k : ℂ) (tri : Triangles) (U : ASpace ℂ) (hv : A.Valid k tri)
    (ho : ∀ d d', Verif.Quad.regularOptions A.singleRegular d = Verif.Quad.regularOptions A.singleRegular d') :
    ∃ nodes, ∀ (points : Nat → P3 ℝ) (p : Nat) (nodes' : List Node),
      ({ A with points := points } : Assembler addr).Nodes tri U p nodes' ↔ nodes' = nodes := by
  have hr : ∀ (points : Nat → P3 ℝ) (p e : Nat) (d : Descriptor),
      ({ A with points := points } : Assembler addr).Rule tri p e (-1) d ↔ A.Rule tri 0 e (-1) d := by
    intro points p e d
    unfold Assembler.Rule Assembler.Accuracy
    rw [ho (({ A with points := points } : Assembler addr).distance tri (points p) e (-1)) (A.distance tri (A.points 0) e (-1))]
    rfl
  refine ⟨surfaceNodes U.elementCount tri fun e => rulePoints (A.rule tri 0 e (-1)), fun points p nodes' => ?_⟩
  unfold Assembler.Nodes
  simp only [hr]
  constructor
  · rintro ⟨d, hd, rfl⟩
    unfold surfaceNodes
    refine List.flatMap_congr fun e he => ?_
    dsimp only
    rw [(rule_iff hv 0 e (-1) (d e)).mp (hd e (List.mem_range.mp he))]
  · rintro rfl
    exact ⟨fun e => A.rule tri 0 e (-1), fun e _ => rule_spec hv 0 e (-1), rfl⟩

/-- The continuous piecewise linear functions on the two triangles. -/
def exampleSpace : ASpace ℂ :=
  weighted ⟨[[0, 1, 2], [0, 1, 3]], [[⟨0, 0⟩, ⟨1, 0⟩], [⟨0, 1⟩, ⟨1, 1⟩], [⟨0, 2⟩], [⟨1, 2⟩]]⟩ fun _ => 1

theorem exampleSpace_valid : exampleSpace.Valid := by
  have hm : assignP1 (book 2) (wholeGrid (book 2)) false =
      .ok ⟨[[0, 1, 2], [0, 1, 3]], [[⟨0, 0⟩, ⟨1, 0⟩], [⟨0, 1⟩, ⟨1, 1⟩], [⟨0, 2⟩], [⟨1, 2⟩]]⟩ := by
    simp only [assignP1, p1Writes_eq, p1Numbering, p1Marks, excludedMarks_eq _ (book 2).dim (by decide)]; decide
  exact p1_valid (K := ℂ) (book 2) (book_WF 2 (by decide)) (Or.inr rfl) (wholeGrid (book 2)) (fun _ => rfl) false _ hm

theorem example_setup (k : ℂ) (op : PotentialOperator) (hop : op ∈ potentialOperators k) :
    (exampleAssembler op).Setup k exampleTriangles exampleSpace 2 where
  valid := exampleAssembler_valid k op hop
  space := exampleSpace_valid
  elements := rfl
  sizes := by
    intro e he
    have : e < 2 := he
    rcases (by omega : e = 0 ∨ e = 1) with rfl | rfl <;> rfl
  moderate := exampleAssembler_moderate op _ _ _

/-- Non-vacuity of C80: for every operator there are nodes and values; the two points are not nodes, and the second one is a unit
vector; the accuracy options do not depend on the distance. -/
example (k : ℂ) (op : PotentialOperator) (hop : op ∈ potentialOperators k) (a : Nat → ℂ) :
    (exampleAssembler op).Setup k exampleTriangles exampleSpace 2 ∧
    (∀ p < 2, ∃ nodes, (exampleAssembler op).Nodes exampleTriangles exampleSpace p nodes ∧
      (∀ ν ∈ nodes, (exampleAssembler op).points p ≠ ν.position) ∧
      ∀ c < op.functor.dim, ∃ z, (exampleAssembler op).Computes exampleTriangles exampleSpace 2 a p c z) ∧
    ((exampleAssembler op).points 1).x ^ 2 + ((exampleAssembler op).points 1).y ^ 2 + ((exampleAssembler op).points 1).z ^ 2 = 1 ∧
    ∀ d d', Verif.Quad.regularOptions (exampleAssembler op).singleRegular d =
      Verif.Quad.regularOptions (exampleAssembler op).singleRegular d' := by
  refine ⟨example_setup k op hop, fun p _ => ⟨_, ⟨_, fun e _ => exampleAssembler_rule op p e (-1), rfl⟩, ?_, ?_⟩, ?_, ?_⟩
  · intro ν hν h
    unfold surfaceNodes at hν
    obtain ⟨e, -, hν⟩ := List.mem_flatMap.mp hν
    obtain ⟨q, -, rfl⟩ := List.mem_map.mp hν
    dsimp only at h
    have hy := congrArg P3.y h
    have hz := congrArg P3.z h
    by_cases he : e = 0 <;> by_cases hp : p = 0
    · simp [exampleAssembler, exampleTriangles, refMap, he, hp] at hz
    · simp [exampleAssembler, exampleTriangles, refMap, he, hp] at hz
    · simp [exampleAssembler, exampleTriangles, refMap, he, hp] at hy
    · simp [exampleAssembler, exampleTriangles, refMap, he, hp] at hy
  · intro c hc
    exact ⟨_, (computes_iff (example_setup k op hop) a p c _).mpr ⟨by assumption, hc, rfl⟩⟩
  · simp [exampleAssembler]
    norm_num
  · intro d d'
    rw [exampleOptions, exampleOptions]

end

end Verif.Pot
