import Verif.Spec.LocalOperators
import Verif.Props.Quadrature
import Verif.Props.ShapeTransformation
import Mathlib.Tactic.Positivity
/-
Lemmas for the assembly of local operators.
-/
namespace Verif.LocalOps
open Verif.Grid Verif.Shape Verif.SingleQuad Verif.Space Verif.HMat MvPolynomial

/-! ### Batches -/

theorem distribute_eq {V M : Type} [DecidableEq V] (v : V) (g : Nat → M) (es : List Nat) (vs : List V) (rs : List M)
    (h1 : vs.length = es.length) (h2 : rs.length = es.length) :
    distribute v vs rs ((((es.zip vs).filter fun p => decide (p.2 = v)).map Prod.fst).map g) =
      some (List.zipWith (fun (p : Nat × V) r => if p.2 = v then g p.1 else r) (es.zip vs) rs) := by
  induction es generalizing vs rs with
  | nil =>
    cases vs with
    | cons _ _ => simp at h1
    | nil => simp [distribute]
  | cons e es ih =>
    cases vs with
    | nil => simp at h1
    | cons w vs =>
      cases rs with
      | nil => simp at h2
      | cons r rs =>
        have := ih vs rs (by simpa using h1) (by simpa using h2)
        rw [List.map_map] at this
        by_cases hw : w = v
        · subst hw
          simp [distribute, this]
        · simp [distribute, hw, this]

theorem variantLoop_eq {V M : Type} [DecidableEq V] (integrate : V → List Nat → List M) (g : V → Nat → M) (es : List Nat) (vs : List V)
    (h1 : vs.length = es.length) (order : List V)
    (hg : ∀ v ∈ order, ∀ l : List Nat, l = ((es.zip vs).filter fun p => decide (p.2 = v)).map Prod.fst → integrate v l = l.map (g v))
    (rs : List M) (h2 : rs.length = es.length) :
    variantLoop integrate es vs order rs =
      some (List.zipWith (fun (p : Nat × V) r => if p.2 ∈ order then g p.2 p.1 else r) (es.zip vs) rs) := by
  induction order generalizing rs with
  | nil =>
    simp only [variantLoop, List.not_mem_nil, if_false]
    congr 1
    symm
    apply List.ext_getElem
    · simp [h1, h2]
    · intro n a b; simp
  | cons v order ih =>
    simp only [variantLoop]
    rw [hg v (by simp) _ rfl, distribute_eq v (g v) es vs rs h1 h2, Option.bind_some, ih (fun w hw => hg w (by simp [hw])) _ (by simp [h1, h2])]
    congr 1
    apply List.ext_getElem
    · simp [h1, h2]
    · intro n a b
      simp only [List.getElem_zipWith, List.mem_cons]
      generalize (es.zip vs)[n]'(by simp [h1, h2] at a b ⊢; omega) = p
      by_cases ho : p.2 ∈ order
      · rw [if_pos ho, if_pos (Or.inr ho)]
      · rw [if_neg ho]
        by_cases hv : p.2 = v
        · rw [if_pos hv, if_pos (Or.inl hv), hv]
        · rw [if_neg hv, if_neg (by tauto)]

/-! ### Geometrical data -/

/-- The value depends only on the data asked for. -/
def Transformation.Honest (T : Transformation) : Prop :=
  ∀ (A B C : P3 ℝ) (b : BasisAt) (old : GeomData) (more : GeomDeps),
    T.evaluate b (getData A B C (T.deps.or more) old) = T.evaluate b (fullData A B C)

def IntegrandFunctor.Honest (F : IntegrandFunctor) : Prop :=
  ∀ (A B C : P3 ℝ) (old : GeomData) (more : GeomDeps), F.evaluate (getData A B C (F.deps.or more) old) = F.evaluate (fullData A B C)

structure Operator.Honest (op : Operator) : Prop where
  test : op.test.Honest
  trial : op.trial.Honest
  functor : op.functor.Honest

theorem scalarValueT_honest : scalarValueT.Honest := fun _ _ _ _ _ _ => rfl
theorem hdivT_honest : hdivT.Honest := fun A B C b old more => by
  simp only [hdivT]; rw [(C71_dependencies A B C b old more).1]
theorem hcurlT_honest : hcurlT.Honest := fun A B C b old more => by
  simp only [hcurlT]; rw [(C71_dependencies A B C b old more).2.1]
theorem surfaceGradT_honest : surfaceGradT.Honest := fun A B C b old more => by
  simp only [surfaceGradT]; rw [(C71_dependencies A B C b old more).2.2.2.1]
theorem surfaceDivT_honest : surfaceDivT.Honest := fun A B C b old more => by
  simp only [surfaceDivT]; rw [(C71_dependencies A B C b old more).2.2.1]
theorem surfaceCurlT_honest : surfaceCurlT.Honest := fun A B C b old more => by
  simp only [surfaceCurlT]; rw [(C71_dependencies A B C b old more).2.2.2.2.1]
theorem hcurlSurfaceCurlT_honest : hcurlSurfaceCurlT.Honest := fun A B C b old more => by
  simp only [hcurlSurfaceCurlT]; rw [(C71_dependencies A B C b old more).2.2.2.2.2.1]
theorem valueTimesNormalT_honest : valueTimesNormalT.Honest := fun A B C b old more => by
  obtain ⟨m1, m2, m3, m4⟩ := more
  cases m1 <;> cases m2 <;> cases m3 <;> cases m4 <;> rfl
theorem singleComponentFunctor_honest (a b : Nat) : (singleComponentFunctor a b).Honest := fun _ _ _ _ _ => rfl
theorem simpleFunctor_honest : simpleFunctor.Honest := fun _ _ _ _ _ => rfl
theorem maxwellFunctor_honest : maxwellFunctor.Honest := fun A B C old more => by
  obtain ⟨m1, m2, m3, m4⟩ := more
  cases m1 <;> cases m2 <;> cases m3 <;> cases m4 <;> rfl

theorem or_comm (a b : GeomDeps) : a.or b = b.or a := by
  cases a; cases b; simp [GeomDeps.or, Bool.or_comm]
theorem or_assoc (a b c : GeomDeps) : (a.or b).or c = a.or (b.or c) := by
  cases a; cases b; cases c; simp [GeomDeps.or, Bool.or_assoc]

section
variable {op : Operator} (h : op.Honest) (A B C : P3 ℝ) (old : GeomData)
include h

theorem data_test (b : BasisAt) : op.test.evaluate b (getData A B C op.geomDeps old) = op.test.evaluate b (fullData A B C) := by
  unfold Operator.geomDeps
  rw [or_assoc, or_assoc]
  exact h.test _ _ _ _ _ _

theorem data_trial (b : BasisAt) : op.trial.evaluate b (getData A B C op.geomDeps old) = op.trial.evaluate b (fullData A B C) := by
  unfold Operator.geomDeps
  rw [or_comm op.test.deps, or_assoc, or_assoc]
  exact h.trial _ _ _ _ _ _

theorem data_functor : op.functor.evaluate (getData A B C op.geomDeps old) = op.functor.evaluate (fullData A B C) := by
  unfold Operator.geomDeps
  rw [or_comm _ op.functor.deps]
  exact h.functor _ _ _ _ _

omit h in
theorem data_ie : (getData A B C op.geomDeps old).integrationElement = (fullData A B C).integrationElement := by
  unfold Operator.geomDeps
  generalize op.test.deps.or op.trial.deps = a
  generalize op.functor.deps = b
  obtain ⟨m1, m2, m3, m4⟩ := a
  obtain ⟨n1, n2, n3, n4⟩ := b
  cases m2 <;> cases m3 <;> cases m4 <;> cases m1 <;> cases n1 <;> cases n2 <;> cases n3 <;> cases n4 <;> rfl
end

/-- The integrand of an operator on the triangle `A B C` at a point of the reference triangle. -/
noncomputable def Operator.integrand (op : Operator) (test trial : Shapeset) (A B C : P3 ℝ) (i j : Nat) (x y : ℝ) : ℝ :=
  op.functor.evaluate (fullData A B C) op.test.dim (op.test.evaluate (test.shape i (x, y)) (fullData A B C))
    (op.trial.evaluate (trial.shape j (x, y)) (fullData A B C))

theorem foldl_sum {α : Type} (f : α → ℝ) (l : List α) (a : ℝ) : l.foldl (fun s x => s + f x) a = a + (l.map f).sum := by
  induction l generalizing a with
  | nil => simp
  | cons x l ih => rw [List.foldl_cons, ih, List.map_cons, List.sum_cons]; ring

theorem integral_eq {op : Operator} (h : op.Honest) (A B C : P3 ℝ) (points : List QPoint) (test trial : Shapeset)
    (geomData : Nat → GeomData) (hg : ∀ n < points.length, ∃ old, geomData n = getData A B C op.geomDeps old) (i j : Nat) :
    op.integral points test trial geomData i j =
      (fullData A B C).integrationElement * quadSum points (op.integrand test trial A B C i j) := by
  unfold Operator.integral quadSum
  rw [foldl_sum, zero_add, ← List.sum_map_mul_left]
  have : (points.zipIdx.map fun qn : QPoint × Nat => op.functor.evaluate (geomData qn.2) op.test.dim
      (op.test.evaluate (test.shape i (qn.1.x, qn.1.y)) (geomData qn.2))
      (op.trial.evaluate (trial.shape j (qn.1.x, qn.1.y)) (geomData qn.2)) * (geomData qn.2).integrationElement * qn.1.w) =
      points.map fun q => (fullData A B C).integrationElement * (q.w * op.integrand test trial A B C i j q.x q.y) := by
    apply List.ext_getElem
    · simp
    · intro n a b
      have hn : n < points.length := by simpa using b
      obtain ⟨old, ho⟩ := hg n hn
      simp only [List.getElem_map, List.getElem_zipIdx, zero_add, ho, data_test h, data_trial h, data_functor h, data_ie,
        Operator.integrand]
      ring
  exact congrArg List.sum this

theorem loop_eq {op : Operator} (h : op.Honest) (mesh : Mesh) (tri : Nat → P3 ℝ × P3 ℝ × P3 ℝ) (points : List QPoint)
    (test trial : Shapeset) (es : List Nat)
    (hm : ∀ e ∈ es, IsTriangle mesh e (tri e).1 (tri e).2.1 (tri e).2.2) (geomData : Nat → GeomData) :
    op.loop mesh points test trial es geomData = es.map fun e => ⟨test.size, trial.size, fun i j =>
      (fullData (tri e).1 (tri e).2.1 (tri e).2.2).integrationElement *
        quadSum points (op.integrand test trial (tri e).1 (tri e).2.1 (tri e).2.2 i j)⟩ := by
  induction es generalizing geomData with
  | nil => rfl
  | cons e es ih =>
    rw [Operator.loop, List.map_cons]
    rw [ih (fun e' he' => hm e' (by simp [he']))]
    congr 2
    funext i j
    refine integral_eq h _ _ _ _ _ _ _ (fun n hn => ⟨geomData n, ?_⟩) i j
    rw [List.getElem?_eq_getElem hn, (hm e (by simp)).2.1]

/-! ### Polynomials -/

theorem triangleIntegral_add (p q : MvPolynomial (Fin 2) ℝ) :
    triangleIntegral (value (p + q)) = triangleIntegral (value p) + triangleIntegral (value q) := by
  rw [triangle_moments, triangle_moments, triangle_moments]
  exact Finsupp.sum_add_index' (h := fun (s : Fin 2 →₀ ℕ) (c : ℝ) => c *
    (((s 0).factorial * (s 1).factorial : ℝ) / ((s 0 + s 1 + 2).factorial : ℝ))) (by simp) (by intros; ring)

theorem triangleIntegral_monomial (s : Fin 2 →₀ ℕ) (c : ℝ) : triangleIntegral (value (monomial s c)) = c *
    (((s 0).factorial * (s 1).factorial : ℝ) / ((s 0 + s 1 + 2).factorial : ℝ)) := by
  rw [triangle_moments]
  exact Finsupp.sum_single_index (h := fun (s : Fin 2 →₀ ℕ) (c : ℝ) => c *
    (((s 0).factorial * (s 1).factorial : ℝ) / ((s 0 + s 1 + 2).factorial : ℝ))) (by simp)

theorem coeffNorm_superset (p : MvPolynomial (Fin 2) ℝ) (T : Finset (Fin 2 →₀ ℕ)) (h : p.support ⊆ T) :
    coeffNorm p = ∑ s ∈ T, |p.coeff s| := by
  unfold coeffNorm
  refine Finset.sum_subset h fun s _ hs => ?_
  rw [notMem_support_iff.mp hs, abs_zero]

theorem coeffNorm_add (p q : MvPolynomial (Fin 2) ℝ) : coeffNorm (p + q) ≤ coeffNorm p + coeffNorm q := by
  classical
  rw [coeffNorm_superset (p + q) (p.support ∪ q.support) support_add, coeffNorm_superset p (p.support ∪ q.support) Finset.subset_union_left,
    coeffNorm_superset q (p.support ∪ q.support) Finset.subset_union_right, ← Finset.sum_add_distrib]
  exact Finset.sum_le_sum fun s _ => by rw [coeff_add]; exact abs_add_le _ _

theorem coeffNorm_monomial (s : Fin 2 →₀ ℕ) (c : ℝ) : coeffNorm (monomial s c) ≤ |c| := by
  classical
  rw [coeffNorm_superset _ {s} support_monomial_subset, Finset.sum_singleton, coeff_monomial, if_pos rfl]

theorem coeffNorm_nonneg (p : MvPolynomial (Fin 2) ℝ) : 0 ≤ coeffNorm p := Finset.sum_nonneg fun _ _ => abs_nonneg _

/-- The exponent vector `(a, b)`. -/
noncomputable def expo (a b : Nat) : Fin 2 →₀ ℕ := Finsupp.single 0 a + Finsupp.single 1 b

theorem expo_zero (a b : Nat) : expo a b 0 = a := by simp [expo]
theorem expo_one (a b : Nat) : expo a b 1 = b := by simp [expo]

theorem value_add (p q : MvPolynomial (Fin 2) ℝ) (x y : ℝ) : value (p + q) x y = value p x y + value q x y := by
  simp [value]

theorem value_monomial (a b : Nat) (c x y : ℝ) : value (monomial (expo a b) c) x y = c * (x ^ a * y ^ b) := by
  unfold value
  rw [eval_monomial, Finsupp.prod_fintype _ _ (by simp), Fin.prod_univ_two, expo_zero, expo_one]
  simp

theorem degree_monomial (a b d : Nat) (c : ℝ) (h : c = 0 ∨ a + b ≤ d) : (monomial (expo a b) c).totalDegree ≤ d := by
  rcases h with rfl | h
  · simp
  · refine (totalDegree_monomial_le _ _).trans ?_
    rw [Finsupp.sum_fintype _ _ (by simp), Fin.sum_univ_two, expo_zero, expo_one]
    exact h

/-- `c + a x + b y + p x² + q x y + r y²`. -/
noncomputable def quadratic (c a b p q r : ℝ) : MvPolynomial (Fin 2) ℝ :=
  monomial (expo 0 0) c + monomial (expo 1 0) a + monomial (expo 0 1) b + monomial (expo 2 0) p + monomial (expo 1 1) q +
    monomial (expo 0 2) r

theorem quadratic_value (c a b p q r x y : ℝ) : value (quadratic c a b p q r) x y = c + a * x + b * y + p * x ^ 2 + q * (x * y) + r * y ^ 2 := by
  unfold quadratic
  simp only [value_add, value_monomial]
  ring

theorem quadratic_integral (c a b p q r : ℝ) : triangleIntegral (value (quadratic c a b p q r)) =
    c / 2 + a / 6 + b / 6 + p / 12 + q / 24 + r / 12 := by
  unfold quadratic
  simp only [triangleIntegral_add, triangleIntegral_monomial, expo_zero, expo_one]
  norm_num [Nat.factorial]
  ring

theorem quadratic_norm (c a b p q r : ℝ) : coeffNorm (quadratic c a b p q r) ≤ |c| + |a| + |b| + |p| + |q| + |r| := by
  unfold quadratic
  refine (coeffNorm_add _ _).trans (add_le_add ?_ (coeffNorm_monomial _ _))
  refine (coeffNorm_add _ _).trans (add_le_add ?_ (coeffNorm_monomial _ _))
  refine (coeffNorm_add _ _).trans (add_le_add ?_ (coeffNorm_monomial _ _))
  refine (coeffNorm_add _ _).trans (add_le_add ?_ (coeffNorm_monomial _ _))
  exact (coeffNorm_add _ _).trans (add_le_add (coeffNorm_monomial _ _) (coeffNorm_monomial _ _))

theorem quadratic_degree (c a b p q r : ℝ) (d : Nat) (h1 : (a = 0 ∧ b = 0) ∨ 1 ≤ d) (h2 : (p = 0 ∧ q = 0 ∧ r = 0) ∨ 2 ≤ d) :
    (quadratic c a b p q r).totalDegree ≤ d := by
  unfold quadratic
  refine (totalDegree_add _ _).trans (max_le ?_ (degree_monomial _ _ _ _ (by tauto)))
  refine (totalDegree_add _ _).trans (max_le ?_ (degree_monomial _ _ _ _ (by tauto)))
  refine (totalDegree_add _ _).trans (max_le ?_ (degree_monomial _ _ _ _ (by tauto)))
  refine (totalDegree_add _ _).trans (max_le ?_ (degree_monomial _ _ _ _ (by tauto)))
  exact (totalDegree_add _ _).trans (max_le (degree_monomial _ _ _ _ (by omega)) (degree_monomial _ _ _ _ (by tauto)))

/-- A product of polynomials. -/
theorem value_mul (p q : MvPolynomial (Fin 2) ℝ) (x y : ℝ) : value (p * q) x y = value p x y * value q x y := by simp [value]

end Verif.LocalOps
