import Verif.Lemmas.LocalOperators
import Verif.Props.SpaceVector
/-
Property C76: local operators are assembled exactly, whatever the list of elements.
-/
namespace Verif.LocalOps
open Verif.Grid Verif.Shape Verif.SingleQuad Verif.Space Verif.HMat MvPolynomial

theorem valid_honest {addr : Type} {c : Call addr} {tri : Nat → P3 ℝ × P3 ℝ × P3 ℝ} (hv : c.Valid tri) : c.op.Honest := by
  have key : ∀ T, IsTransformation T → T.Honest := by
    rintro T (rfl | rfl | rfl | rfl | rfl | rfl | rfl | rfl)
    · exact scalarValueT_honest
    · exact hdivT_honest
    · exact hcurlT_honest
    · exact surfaceGradT_honest
    · exact surfaceDivT_honest
    · exact surfaceCurlT_honest
    · exact hcurlSurfaceCurlT_honest
    · exact valueTimesNormalT_honest
  refine ⟨key _ hv.test, key _ hv.trial, ?_⟩
  rcases hv.functor with h | h | ⟨a, b, h⟩ <;> rw [h]
  · exact simpleFunctor_honest
  · exact maxwellFunctor_honest
  · exact singleComponentFunctor_honest a b

theorem integrators_ok (desc : Nat → Descriptor) (es : List Nat)
    (h : ∀ e ∈ es, ∃ r, fillSingle (desc e).vertexCount (desc e).order = .ok r) :
    evaluateLocalWeakForms.integrators desc es = .ok () := by
  induction es with
  | nil => rfl
  | cons e es ih =>
    obtain ⟨r, hr⟩ := h e (by simp)
    unfold evaluateLocalWeakForms.integrators
    rw [hr]
    exact ih fun e' he' => h e' (by simp [he'])

theorem value_const (c x y : ℝ) : value (monomial (expo 0 0) c) x y = c := by rw [value_monomial]; ring

theorem ie_eq (A B C : P3 ℝ) : (fullData A B C).integrationElement = 2 * area A B C := by
  have : (fullData A B C).integrationElement = Real.sqrt (gram (B.sub A) (C.sub A)) := rfl
  rw [this, gram_eq, ← areaVector_eq]
  unfold area
  ring

theorem area_pos (A B C : P3 ℝ) (h : areaVector A B C ≠ ⟨0, 0, 0⟩) : 0 < area A B C := by
  have := ie_pos A B C h
  rw [ie_eq] at this
  linarith

theorem run_eq {addr : Type} [DecidableEq addr] {c : Call addr} {tri : Nat → P3 ℝ × P3 ℝ × P3 ℝ} (hv : c.Valid tri) :
    ∃ rule : Nat → List QPoint, (∀ e ∈ c.elements, fillSingle 3 ((c.test e).order + (c.trial e).order) = .ok (rule e)) ∧
    c.run = .ok (c.elements.map fun e => ⟨(c.test e).size, (c.trial e).size, fun i j =>
      (fullData (tri e).1 (tri e).2.1 (tri e).2.2).integrationElement *
        quadSum (rule e) (c.op.integrand (c.test e) (c.trial e) (tri e).1 (tri e).2.1 (tri e).2.2 i j)⟩) := by
  have hrule : ∀ e ∈ c.elements, ∃ r, fillSingle 3 ((c.test e).order + (c.trial e).order) = .ok r ∧ r.length ≠ 0 := by
    intro e he
    obtain ⟨r, hr, hx⟩ := C75_triangle _ (hv.orders e he)
    refine ⟨r, hr, fun h0 => ?_⟩
    have h1 := hx (monomial (expo 0 0) 1) (by
      have := degree_monomial 0 0 0 1 (by right; rfl)
      have h2 : (monomial (expo 0 0) (1 : ℝ)).totalDegree = 0 := by omega
      rw [h2]
      have := le_max_right ((c.test e).order + (c.trial e).order) 1
      push_cast
      omega)
    rw [List.length_eq_zero_iff] at h0
    subst h0
    rw [triangleIntegral_monomial, expo_zero, expo_one] at h1
    have h3 := coeffNorm_monomial (expo 0 0) 1
    rw [abs_one] at h3
    have h4 : quadSum [] (value (monomial (expo 0 0) 1)) = 0 := rfl
    rw [h4] at h1
    norm_num [Nat.factorial] at h1
    linarith
  let desc := quadratureDescriptor c.mesh c.test c.trial
  have hdesc : ∀ e ∈ c.elements, desc e = ⟨3, (c.test e).order + (c.trial e).order⟩ := by
    intro e he
    simp only [desc, quadratureDescriptor, (hv.triangles e he).1]
  let points (d : Descriptor) : List QPoint := rulePoints d
  have hpoints : ∀ e ∈ c.elements, fillSingle 3 ((c.test e).order + (c.trial e).order) = .ok (points (desc e)) ∧ (points (desc e)).length ≠ 0 := by
    intro e he
    obtain ⟨r, hr, hx⟩ := hrule e he
    have : points (desc e) = r := by
      simp only [points, rulePoints, hdesc e he, hr]
    rw [this]
    exact ⟨hr, hx⟩
  refine ⟨fun e => points (desc e), fun e he => (hpoints e he).1, ?_⟩
  have hint : evaluateLocalWeakForms.integrators desc c.elements = .ok () := by
    refine integrators_ok desc _ fun e he => ?_
    rw [hdesc e he]
    exact ⟨_, (hpoints e he).1⟩
  unfold Call.run evaluateLocalWeakForms
  dsimp only
  have hint' : evaluateLocalWeakForms.integrators (quadratureDescriptor c.mesh (fun e => c.shapeset (c.testAt e)) fun e => c.shapeset (c.trialAt e))
      c.elements = .ok () := hint
  rw [hint']
  dsimp only
  let g : (Descriptor × addr × addr) → Nat → Mx ℝ := fun v e => ⟨(c.shapeset v.2.1).size, (c.shapeset v.2.2).size, fun i j =>
      (fullData (tri e).1 (tri e).2.1 (tri e).2.2).integrationElement *
        quadSum (points v.1) (c.op.integrand (c.shapeset v.2.1) (c.shapeset v.2.2) (tri e).1 (tri e).2.1 (tri e).2.2 i j)⟩
  have hl := variantLoop_eq (fun (v : Descriptor × addr × addr) es => c.op.integrate c.mesh (points v.1) es (c.shapeset v.2.1) (c.shapeset v.2.2) c.blank)
    g c.elements (c.elements.map fun e => (desc e, c.testAt e, c.trialAt e)) (by simp) c.order (by
      intro v hvo l hl
      have hmem : ∀ e ∈ l, e ∈ c.elements := by
        intro e he
        rw [hl, List.mem_map] at he
        obtain ⟨p, hp, rfl⟩ := he
        exact (List.of_mem_zip (List.mem_filter.mp hp).1).1
      obtain ⟨e, he, rfl⟩ := (hv.complete v).mp hvo
      have hne : (points ⟨3, (c.test e).order + (c.trial e).order⟩).length ≠ 0 := by
        rw [← hdesc e he]; exact (hpoints e he).2
      unfold Operator.integrate
      by_cases hz : l.length = 0
      · rw [List.length_eq_zero_iff] at hz
        subst hz
        simp
      · rw [if_neg (by tauto), loop_eq (valid_honest hv) c.mesh tri _ _ _ _ (fun e he => hv.triangles e (hmem e he))]) c.old hv.old
  have hl' : variantLoop (fun (v : Descriptor × addr × addr) es => c.op.integrate c.mesh (rulePoints v.1) es (c.shapeset v.2.1)
      (c.shapeset v.2.2) c.blank) c.elements
      (c.elements.map fun e => (quadratureDescriptor c.mesh (fun e => c.shapeset (c.testAt e)) (fun e => c.shapeset (c.trialAt e)) e,
        c.testAt e, c.trialAt e)) c.order c.old = _ := hl
  rw [hl']
  refine congrArg Outcome.ok ?_
  apply List.ext_getElem
  · simp [hv.old]
  · intro n a b
    have hn : n < c.elements.length := by simpa using b
    have hin : (desc c.elements[n], c.testAt c.elements[n], c.trialAt c.elements[n]) ∈ c.order := by
      refine (hv.complete _).mpr ⟨c.elements[n], List.getElem_mem hn, ?_⟩
      rw [hdesc _ (List.getElem_mem hn)]
    simp only [List.getElem_zipWith, List.getElem_zip, List.getElem_map]
    rw [if_pos hin]
    rfl

/-- **C76 (every element)** Whatever the list of elements (with repetitions and different shapesets) and the order in which the
variants are traversed, the call returns a matrix for each position of the list, of the size of the shapesets of the element at that
position, and if the integrand on that element, as a function on the reference triangle, is a polynomial `P` of degree at most the sum
of the orders of the two shapesets, then the entry is its integral over the element up to 5e-15 times the sum of the absolute values of
its coefficients times twice the area. -/
theorem C76_elements {addr : Type} [DecidableEq addr] (c : Call addr) (tri : Nat → P3 ℝ × P3 ℝ × P3 ℝ) (hv : c.Valid tri) :
    (∃ result, c.run = .ok result ∧ result.length = c.elements.length) ∧
    ∀ k e m, c.Returns k e m → m.rows = (c.test e).size ∧ m.cols = (c.trial e).size ∧
      ∀ i j (P : MvPolynomial (Fin 2) ℝ), (P.totalDegree : ℤ) ≤ (c.test e).order + (c.trial e).order →
        (∀ x y, value P x y = c.op.integrand (c.test e) (c.trial e) (tri e).1 (tri e).2.1 (tri e).2.2 i j x y) →
        |m.e i j - 2 * area (tri e).1 (tri e).2.1 (tri e).2.2 * triangleIntegral (value P)| ≤
          5 / 10 ^ 15 * (2 * area (tri e).1 (tri e).2.1 (tri e).2.2 * coeffNorm P) := by
  obtain ⟨rule, hrule, hrun⟩ := run_eq hv
  refine ⟨⟨_, hrun, by simp⟩, ?_⟩
  rintro k e m ⟨hk, result, hres, hm⟩
  rw [hrun] at hres
  cases hres
  rw [List.getElem?_map, hk] at hm
  cases hm
  have he : e ∈ c.elements := List.mem_of_getElem? hk
  refine ⟨rfl, rfl, ?_⟩
  intro i j P hd hP
  dsimp only
  have hfun : c.op.integrand (c.test e) (c.trial e) (tri e).1 (tri e).2.1 (tri e).2.2 i j = value P := by
    funext x y; exact (hP x y).symm
  rw [hfun, ie_eq, ← mul_sub, abs_mul]
  have hpos := area_pos _ _ _ (hv.triangles e he).2.2
  rw [abs_of_pos (by linarith)]
  obtain ⟨r, hr, hx⟩ := C75_triangle _ (hv.orders e he)
  rw [hrule e he] at hr
  cases hr
  have := hx P (hd.trans (le_max_left _ _))
  have h2 := mul_le_mul_of_nonneg_left this (by linarith : 0 ≤ 2 * area (tri e).1 (tri e).2.1 (tri e).2.2)
  linarith

/-! ### Functors -/

theorem simpleIntegrand_eq {K : Type} [CommRing K] [StarRing K] (n : Nat) (f g : Nat → K) :
    simpleIntegrand n f g = ∑ d ∈ Finset.range n, star (f d) * g d := by
  unfold simpleIntegrand
  induction n with
  | zero => rfl
  | succ n ih => rw [List.range_succ, List.foldl_append, ih, Finset.sum_range_succ]; rfl

theorem simple_real (f g : P3 ℝ) : simpleIntegrand 3 (comp f) (comp g) = f.dot g := by
  rw [simpleIntegrand_eq, Finset.sum_range_succ, Finset.sum_range_succ, Finset.sum_range_succ, Finset.sum_range_zero]
  simp [comp, P3.dot]

theorem maxwell_real (n f g : P3 ℝ) : maxwellIntegrand (comp n) (comp f) (comp g) = f.dot (g.cross n) := by
  simp only [maxwellIntegrand, comp, P3.dot, P3.cross, star_trivial]
  norm_num
  ring

/-- **C76 (integrands)** For complex values: the integrand of the identity is the inner product, conjugate linear in the test function,
Hermitian and positive; that of the Maxwell identity is `conj(f) · (g × n)`, so exchanging the functions changes it to minus its
conjugate; the single component functor multiplies the chosen components. -/
theorem C76_integrands (n : Nat) (f g : Nat → ℂ) (ν : Nat → ℂ) (hν : ∀ i, star (ν i) = ν i) :
    simpleIntegrand n f g = ∑ d ∈ Finset.range n, star (f d) * g d ∧
    simpleIntegrand n g f = star (simpleIntegrand n f g) ∧
    simpleIntegrand n f f = ((∑ d ∈ Finset.range n, ‖f d‖ ^ 2 : ℝ) : ℂ) ∧
    maxwellIntegrand ν f g = star (f 0) * (g 1 * ν 2 - g 2 * ν 1) + star (f 1) * (g 2 * ν 0 - g 0 * ν 2) +
      star (f 2) * (g 0 * ν 1 - g 1 * ν 0) ∧
    maxwellIntegrand ν g f = -star (maxwellIntegrand ν f g) ∧
    (∀ a b, singleComponentIntegrand a b f g = star (f a) * g b) := by
  refine ⟨simpleIntegrand_eq n f g, ?_, ?_, ?_, ?_, fun _ _ => rfl⟩
  · rw [simpleIntegrand_eq, simpleIntegrand_eq, star_sum]
    refine Finset.sum_congr rfl fun d _ => ?_
    rw [star_mul, star_star, mul_comm]
  · rw [simpleIntegrand_eq]
    push_cast
    refine Finset.sum_congr rfl fun d _ => ?_
    exact Complex.conj_mul' (f d)
  · unfold maxwellIntegrand
    ring
  · unfold maxwellIntegrand
    simp only [star_neg, star_add, star_mul, star_sub, star_star, hν]
    ring

/-! ### Scalar functions -/

/-- **C76 (identity, scalar functions)** If the test and trial functions on the element are `u` and `w`, given on the reference triangle by
polynomials of degree at most the order of their shapesets, then the entry is the integral of `u w` over the element, up to 5e-15 times
twice the area times the sum of the absolute values of the coefficients of the product. -/
theorem C76_identity {addr : Type} [DecidableEq addr] (c : Call addr) (tri : Nat → P3 ℝ × P3 ℝ × P3 ℝ) (hv : c.Valid tri)
    (hop : c.op = identityOperator scalarValueT scalarValueT) (k e : Nat) (m : Mx ℝ) (hm : c.Returns k e m) (i j : Nat)
    (A B C : P3 ℝ) (htri : tri e = (A, B, C)) (p q : MvPolynomial (Fin 2) ℝ) (u w : P3 ℝ → ℝ)
    (hp : (p.totalDegree : ℤ) ≤ (c.test e).order) (hq : (q.totalDegree : ℤ) ≤ (c.trial e).order)
    (hpv : ∀ x y, ((c.test e).shape i (x, y)).v0 = value p x y) (hqv : ∀ x y, ((c.trial e).shape j (x, y)).v0 = value q x y)
    (hu : ∀ x y, u (refMap A B C (x, y)) = value p x y) (hw : ∀ x y, w (refMap A B C (x, y)) = value q x y) :
    |m.e i j - surfaceIntegral A B C fun X => u X * w X| ≤ 5 / 10 ^ 15 * (2 * area A B C * coeffNorm (p * q)) := by
  have h := ((C76_elements c tri hv).2 k e m hm).2.2 i j (p * q)
    (by have := totalDegree_mul p q; push_cast [← Int.ofNat_le] at this ⊢; omega) (by
      intro x y
      rw [value_mul, ← hpv, ← hqv, hop]
      show _ = simpleIntegrand 1 _ _
      rw [simpleIntegrand_eq, Finset.sum_range_one]
      rfl)
  rw [htri] at h
  have e1 : surfaceIntegral A B C (fun X => u X * w X) = 2 * area A B C * triangleIntegral (value (p * q)) := by
    unfold surfaceIntegral
    congr 2
    funext x y
    show u _ * w _ = _
    rw [hu, hw, value_mul]
  rw [e1]
  exact h

/-- Auxiliary: an integrand that is a quadratic function. -/
theorem quadratic_entry {addr : Type} [DecidableEq addr] (c : Call addr) (tri : Nat → P3 ℝ × P3 ℝ × P3 ℝ) (hv : c.Valid tri)
    (k e : Nat) (m : Mx ℝ) (hm : c.Returns k e m) (i j : Nat) (A B C : P3 ℝ) (htri : tri e = (A, B, C)) (z a b p q r N : ℝ)
    (h1 : (a = 0 ∧ b = 0) ∨ 1 ≤ (c.test e).order + (c.trial e).order)
    (h2 : (p = 0 ∧ q = 0 ∧ r = 0) ∨ 2 ≤ (c.test e).order + (c.trial e).order)
    (h0 : 0 ≤ (c.test e).order + (c.trial e).order)
    (hN : |z| + |a| + |b| + |p| + |q| + |r| ≤ N)
    (hval : ∀ x y, c.op.integrand (c.test e) (c.trial e) A B C i j x y = z + a * x + b * y + p * x ^ 2 + q * (x * y) + r * y ^ 2) :
    |m.e i j - 2 * area A B C * (z / 2 + a / 6 + b / 6 + p / 12 + q / 24 + r / 12)| ≤ 5 / 10 ^ 15 * (2 * area A B C * N) := by
  have hd := quadratic_degree z a b p q r ((c.test e).order + (c.trial e).order).toNat
    (h1.imp_right fun h => by omega) (h2.imp_right fun h => by omega)
  have h := ((C76_elements c tri hv).2 k e m hm).2.2 i j (quadratic z a b p q r) (by omega) (by
      intro x y
      rw [htri, quadratic_value]
      exact (hval x y).symm)
  rw [htri, quadratic_integral] at h
  refine h.trans ?_
  have hpos : 0 < area A B C := by
    have := area_pos _ _ _ (hv.triangles e (List.mem_of_getElem? hm.1)).2.2
    rwa [htri] at this
  have h3 := (quadratic_norm z a b p q r).trans hN
  have h4 : 2 * area A B C * coeffNorm (quadratic z a b p q r) ≤ 2 * area A B C * N := mul_le_mul_of_nonneg_left h3 (by linarith)
  exact mul_le_mul_of_nonneg_left h4 (by positivity)

/-- **C76 (mass matrices)** The mass matrices of piecewise constant and piecewise linear functions: the area; a third of it; a sixth of
it on and a twelfth of it off the diagonal, up to 1e-13 of the area. -/
theorem C76_mass {addr : Type} [DecidableEq addr] (c : Call addr) (tri : Nat → P3 ℝ × P3 ℝ × P3 ℝ) (hv : c.Valid tri)
    (hop : c.op = identityOperator scalarValueT scalarValueT) (k e : Nat) (m : Mx ℝ) (hm : c.Returns k e m)
    (A B C : P3 ℝ) (htri : tri e = (A, B, C)) :
    (c.test e = constantShapeset → c.trial e = constantShapeset →
      m.rows = 1 ∧ m.cols = 1 ∧ |m.e 0 0 - area A B C| ≤ 1 / 10 ^ 13 * area A B C) ∧
    (c.test e = constantShapeset → c.trial e = linearShapeset →
      m.rows = 1 ∧ m.cols = 3 ∧ ∀ j < 3, |m.e 0 j - area A B C / 3| ≤ 1 / 10 ^ 13 * area A B C) ∧
    (c.test e = linearShapeset → c.trial e = constantShapeset →
      m.rows = 3 ∧ m.cols = 1 ∧ ∀ i < 3, |m.e i 0 - area A B C / 3| ≤ 1 / 10 ^ 13 * area A B C) ∧
    (c.test e = linearShapeset → c.trial e = linearShapeset →
      m.rows = 3 ∧ m.cols = 3 ∧ ∀ i < 3, ∀ j < 3,
        |m.e i j - area A B C / (if i = j then 6 else 12)| ≤ 1 / 10 ^ 13 * area A B C) := by
  have hpos : 0 < area A B C := by
    have := area_pos _ _ _ (hv.triangles e (List.mem_of_getElem? hm.1)).2.2
    rwa [htri] at this
  obtain ⟨hr, hc, -⟩ := (C76_elements c tri hv).2 k e m hm
  have hint : ∀ i j x y, c.op.integrand (c.test e) (c.trial e) A B C i j x y =
      ((c.test e).shape i (x, y)).v0 * ((c.trial e).shape j (x, y)).v0 := by
    intro i j x y
    rw [hop]
    show simpleIntegrand 1 _ _ = _
    rw [simpleIntegrand_eq, Finset.sum_range_one]
    rfl
  have big : ∀ N : ℝ, N ≤ 9 → 5 / 10 ^ 15 * (2 * area A B C * N) ≤ 1 / 10 ^ 13 * area A B C := by
    intro N hN
    have := mul_le_mul_of_nonneg_left hN hpos.le
    linarith
  have o0 : constantShapeset.order = 0 := rfl
  have o1 : linearShapeset.order = 1 := rfl
  refine ⟨?_, ?_, ?_, ?_⟩
  · intro ht hs
    refine ⟨by rw [hr, ht]; rfl, by rw [hc, hs]; rfl, ?_⟩
    have h := quadratic_entry c tri hv k e m hm 0 0 A B C htri 1 0 0 0 0 0 9 (by simp) (by simp) (by rw [ht, hs, o0]; norm_num) (by norm_num) (by
      intro x y; rw [hint, ht, hs]; simp only [constantShapeset]; ring)
    have e1 : 2 * area A B C * (1 / 2 + 0 / 6 + 0 / 6 + 0 / 12 + 0 / 24 + 0 / 12) = area A B C := by ring
    rw [e1] at h
    exact h.trans (big 9 (by norm_num))
  · intro ht hs
    refine ⟨by rw [hr, ht]; rfl, by rw [hc, hs]; rfl, ?_⟩
    intro j hj
    have h := quadratic_entry c tri hv k e m hm 0 j A B C htri (if j = 0 then 1 else 0) (if j = 0 then -1 else if j = 1 then 1 else 0)
      (if j = 0 then -1 else if j = 1 then 0 else 1) 0 0 0 9 (by rw [ht, hs, o0, o1]; norm_num) (by simp)
      (by rw [ht, hs, o0, o1]; norm_num) (by interval_cases j <;> norm_num) (by
      intro x y; rw [hint, ht, hs]; simp only [constantShapeset, linearShapeset]; interval_cases j <;> norm_num <;> ring)
    refine le_trans (le_of_eq ?_) (h.trans (big 9 (by norm_num)))
    congr 1
    interval_cases j <;> norm_num <;> ring
  · intro ht hs
    refine ⟨by rw [hr, ht]; rfl, by rw [hc, hs]; rfl, ?_⟩
    intro j hj
    have h := quadratic_entry c tri hv k e m hm j 0 A B C htri (if j = 0 then 1 else 0) (if j = 0 then -1 else if j = 1 then 1 else 0)
      (if j = 0 then -1 else if j = 1 then 0 else 1) 0 0 0 9 (by rw [ht, hs, o0, o1]; norm_num) (by simp)
      (by rw [ht, hs, o0, o1]; norm_num) (by interval_cases j <;> norm_num) (by
      intro x y; rw [hint, ht, hs]; simp only [constantShapeset, linearShapeset]; interval_cases j <;> norm_num <;> ring)
    refine le_trans (le_of_eq ?_) (h.trans (big 9 (by norm_num)))
    congr 1
    interval_cases j <;> norm_num <;> ring
  · intro ht hs
    refine ⟨by rw [hr, ht]; rfl, by rw [hc, hs]; rfl, ?_⟩
    intro i hi j hj
    obtain ⟨a0, ha0⟩ : ∃ f : Nat → ℝ, f = fun k => if k = 0 then 1 else 0 := ⟨_, rfl⟩
    obtain ⟨a1, ha1⟩ : ∃ f : Nat → ℝ, f = fun k => if k = 0 then -1 else if k = 1 then 1 else 0 := ⟨_, rfl⟩
    obtain ⟨a2, ha2⟩ : ∃ f : Nat → ℝ, f = fun k => if k = 0 then -1 else if k = 1 then 0 else 1 := ⟨_, rfl⟩
    have hl : ∀ k < 3, ∀ x y : ℝ, (linearShapeset.shape k (x, y)).v0 = a0 k + a1 k * x + a2 k * y := by
      intro k hk x y
      rw [ha0, ha1, ha2]
      simp only [linearShapeset]
      interval_cases k <;> norm_num <;> ring
    have h := quadratic_entry c tri hv k e m hm i j A B C htri (a0 i * a0 j) (a0 i * a1 j + a1 i * a0 j) (a0 i * a2 j + a2 i * a0 j)
      (a1 i * a1 j) (a1 i * a2 j + a2 i * a1 j) (a2 i * a2 j) 9 (by rw [ht, hs, o1]; norm_num) (by rw [ht, hs, o1]; norm_num)
      (by rw [ht, hs, o1]; norm_num) (by rw [ha0, ha1, ha2]; interval_cases i <;> interval_cases j <;> norm_num) (by
      intro x y; rw [hint, ht, hs, hl i hi, hl j hj]; ring)
    refine le_trans (le_of_eq ?_) (h.trans (big 9 (by norm_num)))
    congr 1
    rw [ha0, ha1, ha2]
    interval_cases i <;> interval_cases j <;> norm_num <;> ring

theorem scaled_dot (u v : P3 ℝ) (a b p q D : ℝ) :
    P3.dot ⟨(a * u.x - b * v.x) / D, (a * u.y - b * v.y) / D, (a * u.z - b * v.z) / D⟩
      ⟨(p * u.x - q * v.x) / D, (p * u.y - q * v.y) / D, (p * u.z - q * v.z) / D⟩ =
      (a * p * u.dot u - (a * q + b * p) * u.dot v + b * q * v.dot v) / D ^ 2 := by
  simp only [P3.dot]
  ring

theorem jit_dots (A B C : P3 ℝ) (h : areaVector A B C ≠ ⟨0, 0, 0⟩) (a b p q : ℝ) :
    (surfaceGrad ⟨0, 0, a, b, 0, 0⟩ (fullData A B C)).dot (surfaceGrad ⟨0, 0, p, q, 0, 0⟩ (fullData A B C)) =
      (b * q * (B.sub A).dot (B.sub A) - (b * p + a * q) * (B.sub A).dot (C.sub A) + a * p * (C.sub A).dot (C.sub A)) /
        gram (B.sub A) (C.sub A) := by
  have hg := (gram_pos A B C h).ne'
  have hdef : gram (B.sub A) (C.sub A) = (B.sub A).dot (B.sub A) * (C.sub A).dot (C.sub A) - (B.sub A).dot (C.sub A) * (B.sub A).dot (C.sub A) := rfl
  have key : ∀ a b : ℝ, surfaceGrad ⟨0, 0, a, b, 0, 0⟩ (fullData A B C) =
      ⟨((a * (C.sub A).dot (C.sub A) - b * (B.sub A).dot (C.sub A)) * (B.sub A).x -
          (a * (B.sub A).dot (C.sub A) - b * (B.sub A).dot (B.sub A)) * (C.sub A).x) / gram (B.sub A) (C.sub A),
        ((a * (C.sub A).dot (C.sub A) - b * (B.sub A).dot (C.sub A)) * (B.sub A).y -
          (a * (B.sub A).dot (C.sub A) - b * (B.sub A).dot (B.sub A)) * (C.sub A).y) / gram (B.sub A) (C.sub A),
        ((a * (C.sub A).dot (C.sub A) - b * (B.sub A).dot (C.sub A)) * (B.sub A).z -
          (a * (B.sub A).dot (C.sub A) - b * (B.sub A).dot (B.sub A)) * (C.sub A).z) / gram (B.sub A) (C.sub A)⟩ := by
    intro a b
    simp only [surfaceGrad, fullData, jacobianTransposed, jacobianInverseTransposed]
    rw [← hdef]
    generalize gram (B.sub A) (C.sub A) = D
    congr 1 <;> ring
  rw [key, key, scaled_dot]
  generalize (B.sub A).dot (B.sub A) = g00 at *
  generalize (B.sub A).dot (C.sub A) = g01 at *
  generalize (C.sub A).dot (C.sub A) = g11 at *
  generalize gram (B.sub A) (C.sub A) = D at *
  rw [div_eq_div_iff (pow_ne_zero 2 hg) hg, hdef]
  ring

/-- **C76 (Laplace-Beltrami)** For piecewise linear functions the matrix of the Laplace-Beltrami operator is the product of the edges
opposite to the two vertices over four times the area, up to 1e-14 of it. -/
theorem C76_laplace_beltrami {addr : Type} [DecidableEq addr] (c : Call addr) (tri : Nat → P3 ℝ × P3 ℝ × P3 ℝ) (hv : c.Valid tri)
    (hop : c.op = laplaceBeltramiOperator) (k e : Nat) (m : Mx ℝ) (hm : c.Returns k e m)
    (A B C : P3 ℝ) (htri : tri e = (A, B, C)) (ht : c.test e = linearShapeset) (hs : c.trial e = linearShapeset) :
    ∀ i < 3, ∀ j < 3, |m.e i j - (oppositeEdge A B C i).dot (oppositeEdge A B C j) / (4 * area A B C)| ≤
      1 / 10 ^ 14 * |(oppositeEdge A B C i).dot (oppositeEdge A B C j) / (4 * area A B C)| := by
  intro i hi j hj
  have hne : areaVector A B C ≠ ⟨0, 0, 0⟩ := by
    have := (hv.triangles e (List.mem_of_getElem? hm.1)).2.2
    rwa [htri] at this
  have hpos := area_pos A B C hne
  have hg := gram_pos A B C hne
  have hsq := ie_sq A B C hne
  rw [ie_eq] at hsq
  have o1 : linearShapeset.order = 1 := rfl
  have hgrad : ∀ x y, c.op.integrand (c.test e) (c.trial e) A B C i j x y =
      (oppositeEdge A B C i).dot (oppositeEdge A B C j) / (2 * area A B C) ^ 2 := by
    intro x y
    rw [hop, ht, hs, hsq]
    show simpleIntegrand 3 (comp _) (comp _) = _
    rw [simple_real]
    have e1 : ∀ k < 3, ∃ a b : ℝ, surfaceGrad (linearShapeset.shape k (x, y)) (fullData A B C) =
        surfaceGrad ⟨0, 0, a, b, 0, 0⟩ (fullData A B C) ∧
        oppositeEdge A B C k = ⟨b * (B.sub A).x - a * (C.sub A).x, b * (B.sub A).y - a * (C.sub A).y, b * (B.sub A).z - a * (C.sub A).z⟩ := by
      intro k hk
      interval_cases k
      · exact ⟨-1, -1, rfl, by simp only [oppositeEdge, P3.sub]; norm_num⟩
      · exact ⟨1, 0, rfl, by simp only [oppositeEdge, P3.sub]; norm_num⟩
      · exact ⟨0, 1, rfl, by simp only [oppositeEdge, P3.sub]; norm_num⟩
    obtain ⟨a, b, f1, f2⟩ := e1 i hi
    obtain ⟨p, q, g1, g2⟩ := e1 j hj
    show (surfaceGrad _ _).dot (surfaceGrad _ _) = _
    rw [f1, g1, jit_dots A B C hne, f2, g2]
    congr 1
    simp only [P3.dot]
    ring
  have h := quadratic_entry c tri hv k e m hm i j A B C htri ((oppositeEdge A B C i).dot (oppositeEdge A B C j) / (2 * area A B C) ^ 2)
    0 0 0 0 0 _ (by simp) (by simp) (by rw [ht, hs, o1]; norm_num) le_rfl (by intro x y; rw [hgrad]; ring)
  have e1 : 2 * area A B C * ((oppositeEdge A B C i).dot (oppositeEdge A B C j) / (2 * area A B C) ^ 2 / 2 + 0 / 6 + 0 / 6 + 0 / 12 + 0 / 24 + 0 / 12)
      = (oppositeEdge A B C i).dot (oppositeEdge A B C j) / (4 * area A B C) := by
    have := hpos.ne'
    field_simp
    ring
  rw [e1] at h
  refine h.trans (le_of_eq ?_)
  rw [abs_zero, abs_div, abs_div, abs_of_pos (show 0 < 4 * area A B C by linarith), abs_of_pos (show 0 < (2 * area A B C) ^ 2 by positivity)]
  generalize |(oppositeEdge A B C i).dot (oppositeEdge A B C j)| = z
  generalize area A B C = a at hpos
  have e2 : z / (2 * a) ^ 2 = z / (4 * a) / a := by
    have := hpos.ne'
    field_simp
    norm_num
  rw [e2]
  generalize z / (4 * a) = y
  have e3 : a * (y / a) = y := mul_div_cancel₀ y hpos.ne'
  linear_combination 1 / 10 ^ 14 * e3

/-! ### Vector functions -/

/-- `A` minus the vertex opposite to edge `i`. -/
noncomputable def offset (A B C : P3 ℝ) (i : Nat) : P3 ℝ := A.sub (oppositeVertex A B C i)

theorem rt_position (A B C : P3 ℝ) (i : Nat) (x y : ℝ) : (refMap A B C (x, y)).sub (oppositeVertex A B C i) =
    ⟨(offset A B C i).x + x * (B.sub A).x + y * (C.sub A).x, (offset A B C i).y + x * (B.sub A).y + y * (C.sub A).y,
      (offset A B C i).z + x * (B.sub A).z + y * (C.sub A).z⟩ := by
  simp only [refMap, offset, P3.sub]
  congr 1 <;> ring

theorem rt_value (A B C : P3 ℝ) (i : Nat) (x y : ℝ) : hdivValue (rtShape i (x, y)) (fullData A B C) =
    P3.smul (1 / (fullData A B C).integrationElement) ((refMap A B C (x, y)).sub (oppositeVertex A B C i)) := by
  generalize hie : (fullData A B C).integrationElement = w
  unfold hdivValue
  rw [hie]
  simp only [fullData, jacobianTransposed, refMap, oppositeVertex, P3.sub, P3.smul, rtShape]
  rcases Nat.lt_or_ge i 2 with h | h
  · interval_cases i <;> (norm_num; refine ⟨?_, ?_, ?_⟩ <;> ring)
  · rw [if_neg (by omega), if_neg (by omega), if_neg (by omega), if_neg (by omega)]
    dsimp only
    congr 1 <;> ring

theorem dot_le (a b : P3 ℝ) (M : ℝ) (ha : a.dot a ≤ M) (hb : b.dot b ≤ M) : |a.dot b| ≤ M := by
  simp only [P3.dot] at *
  rw [abs_le]
  constructor
  · nlinarith [sq_nonneg (a.x + b.x), sq_nonneg (a.y + b.y), sq_nonneg (a.z + b.z)]
  · nlinarith [sq_nonneg (a.x - b.x), sq_nonneg (a.y - b.y), sq_nonneg (a.z - b.z)]

theorem cross_le (b n : P3 ℝ) (M : ℝ) (hn : n.dot n = 1) (hb : b.dot b ≤ M) : (b.cross n).dot (b.cross n) ≤ M := by
  have h : (b.cross n).dot (b.cross n) = b.dot b * n.dot n - (b.dot n) ^ 2 := by
    simp only [P3.dot, P3.cross]; ring
  rw [h, hn]
  nlinarith [sq_nonneg (b.dot n)]

theorem offset_le (A B C : P3 ℝ) (i : Nat) (M : ℝ) (h1 : (B.sub A).dot (B.sub A) ≤ M) (h2 : (C.sub A).dot (C.sub A) ≤ M) :
    (offset A B C i).dot (offset A B C i) ≤ M := by
  have hM : 0 ≤ M := (dot_self_nonneg _).trans h1
  unfold offset oppositeVertex
  split
  · refine le_trans (le_of_eq ?_) h2
    simp only [P3.dot, P3.sub]; ring
  · split
    · refine le_trans (le_of_eq ?_) h1
      simp only [P3.dot, P3.sub]; ring
    · simp only [P3.dot, P3.sub]
      linarith

/-- Auxiliary: a bilinear form of two Raviart-Thomas functions. -/
theorem rt_entry {addr : Type} [DecidableEq addr] (c : Call addr) (tri : Nat → P3 ℝ × P3 ℝ × P3 ℝ) (hv : c.Valid tri)
    (k e : Nat) (m : Mx ℝ) (hm : c.Returns k e m) (A B C : P3 ℝ) (htri : tri e = (A, B, C)) (ht : c.test e = raviartThomasShapeset)
    (hs : c.trial e = raviartThomasShapeset) (L : ℝ) (h1 : (B.sub A).dot (B.sub A) ≤ L ^ 2) (h2 : (C.sub A).dot (C.sub A) ≤ L ^ 2)
    (t : P3 ℝ → P3 ℝ → ℝ) (hle : ∀ a b, a.dot a ≤ L ^ 2 → b.dot b ≤ L ^ 2 → |t a b| ≤ L ^ 2)
    (hsm : ∀ z a b, t (P3.smul z a) (P3.smul z b) = z ^ 2 * t a b)
    (hexp : ∀ (α β u v : P3 ℝ) (x y : ℝ), t ⟨α.x + x * u.x + y * v.x, α.y + x * u.y + y * v.y, α.z + x * u.z + y * v.z⟩
        ⟨β.x + x * u.x + y * v.x, β.y + x * u.y + y * v.y, β.z + x * u.z + y * v.z⟩ =
      t α β + (t u β + t α u) * x + (t v β + t α v) * y + t u u * x ^ 2 + (t u v + t v u) * (x * y) + t v v * y ^ 2)
    (i j : Nat) (hint : ∀ x y, c.op.integrand (c.test e) (c.trial e) A B C i j x y =
      t (hdivValue (rtShape i (x, y)) (fullData A B C)) (hdivValue (rtShape j (x, y)) (fullData A B C))) :
    |m.e i j - surfaceIntegral A B C fun X => t (X.sub (oppositeVertex A B C i)) (X.sub (oppositeVertex A B C j)) / (4 * area A B C ^ 2)| ≤
      1 / 10 ^ 13 * (L ^ 2 / area A B C) := by
  have hpos : 0 < area A B C := by
    have := area_pos _ _ _ (hv.triangles e (List.mem_of_getElem? hm.1)).2.2
    rwa [htri] at this
  have o1 : raviartThomasShapeset.order = 1 := rfl
  obtain ⟨α, hα⟩ : ∃ α, α = offset A B C i := ⟨_, rfl⟩
  obtain ⟨β, hβ⟩ : ∃ β, β = offset A B C j := ⟨_, rfl⟩
  obtain ⟨u, hu⟩ : ∃ u, u = B.sub A := ⟨_, rfl⟩
  obtain ⟨v, hv'⟩ : ∃ v, v = C.sub A := ⟨_, rfl⟩
  have bα : α.dot α ≤ L ^ 2 := by rw [hα]; exact offset_le A B C i _ h1 h2
  have bβ : β.dot β ≤ L ^ 2 := by rw [hβ]; exact offset_le A B C j _ h1 h2
  rw [← hu] at h1
  rw [← hv'] at h2
  obtain ⟨w, hw⟩ : ∃ w, w = 4 * area A B C ^ 2 := ⟨_, rfl⟩
  have hwp : 0 < w := by rw [hw]; positivity
  have hval : ∀ x y, t ((refMap A B C (x, y)).sub (oppositeVertex A B C i)) ((refMap A B C (x, y)).sub (oppositeVertex A B C j)) / w =
      t α β / w + (t u β + t α u) / w * x + (t v β + t α v) / w * y + t u u / w * x ^ 2 + (t u v + t v u) / w * (x * y) + t v v / w * y ^ 2 := by
    intro x y
    rw [rt_position, rt_position, ← hα, ← hβ, ← hu, ← hv', hexp]
    ring
  have hdiv : ∀ a, |a| ≤ L ^ 2 → |a / w| ≤ L ^ 2 / w := by
    intro a ha
    rw [abs_div, abs_of_pos hwp]
    exact div_le_div_of_nonneg_right ha hwp.le
  have hdiv2 : ∀ a b, |a| ≤ L ^ 2 → |b| ≤ L ^ 2 → |(a + b) / w| ≤ 2 * (L ^ 2 / w) := by
    intro a b ha hb
    rw [add_div]
    have := abs_add_le (a / w) (b / w)
    have := hdiv a ha
    have := hdiv b hb
    linarith
  have h := quadratic_entry c tri hv k e m hm i j A B C htri (t α β / w) ((t u β + t α u) / w) ((t v β + t α v) / w) (t u u / w)
    ((t u v + t v u) / w) (t v v / w) (9 * (L ^ 2 / w)) (by rw [ht, hs, o1]; norm_num) (by rw [ht, hs, o1]; norm_num)
    (by rw [ht, hs, o1]; norm_num) (by
      have := hdiv _ (hle _ _ bα bβ)
      have := hdiv2 _ _ (hle _ _ h1 bβ) (hle _ _ bα h1)
      have := hdiv2 _ _ (hle _ _ h2 bβ) (hle _ _ bα h2)
      have := hdiv _ (hle _ _ h1 h1)
      have := hdiv2 _ _ (hle _ _ h1 h2) (hle _ _ h2 h1)
      have := hdiv _ (hle _ _ h2 h2)
      linarith) (by
      intro x y
      rw [hint, rt_value, rt_value, hsm, ie_eq, ← hval, hw]
      generalize t _ _ = T
      have := hpos.ne'
      field_simp
      ring)
  have e1 : surfaceIntegral A B C (fun X => t (X.sub (oppositeVertex A B C i)) (X.sub (oppositeVertex A B C j)) / (4 * area A B C ^ 2)) =
      2 * area A B C * (t α β / w / 2 + (t u β + t α u) / w / 6 + (t v β + t α v) / w / 6 + t u u / w / 12 +
        (t u v + t v u) / w / 24 + t v v / w / 12) := by
    unfold surfaceIntegral
    rw [← quadratic_integral]
    congr 2
    funext x y
    rw [quadratic_value, ← hval, hw]
  rw [e1]
  refine h.trans ?_
  have e2 : 2 * area A B C * (9 * (L ^ 2 / w)) = 9 / 2 * (L ^ 2 / area A B C) := by
    rw [hw]
    have := hpos.ne'
    field_simp
    ring
  rw [e2]
  have : 0 ≤ L ^ 2 / area A B C := by positivity
  linarith

/-- **C76 (Raviart-Thomas functions)** The function of an edge is `(X - P)/(2 area)`, `P` the vertex opposite to it.  The identity
between these functions is assembled with their inner products, the Maxwell identity with `f · (g × n)`, up to `1e-13 L²/area`, where
`L` bounds the lengths of the edges at the first vertex. -/
theorem C76_raviart_thomas {addr : Type} [DecidableEq addr] (c : Call addr) (tri : Nat → P3 ℝ × P3 ℝ × P3 ℝ) (hv : c.Valid tri)
    (k e : Nat) (m : Mx ℝ) (hm : c.Returns k e m) (A B C : P3 ℝ) (htri : tri e = (A, B, C)) (ht : c.test e = raviartThomasShapeset)
    (hs : c.trial e = raviartThomasShapeset) (L : ℝ) (h1 : (B.sub A).dot (B.sub A) ≤ L ^ 2) (h2 : (C.sub A).dot (C.sub A) ≤ L ^ 2)
    (n : P3 ℝ) (hn : IsNormal A B C n) :
    (c.op = identityOperator hdivT hdivT → ∀ i j, |m.e i j - surfaceIntegral A B C fun X =>
      (X.sub (oppositeVertex A B C i)).dot (X.sub (oppositeVertex A B C j)) / (4 * area A B C ^ 2)| ≤ 1 / 10 ^ 13 * (L ^ 2 / area A B C)) ∧
    (c.op = maxwellIdentityOperator hdivT hdivT → ∀ i j, |m.e i j - surfaceIntegral A B C fun X =>
      (X.sub (oppositeVertex A B C i)).dot ((X.sub (oppositeVertex A B C j)).cross n) / (4 * area A B C ^ 2)| ≤
        1 / 10 ^ 13 * (L ^ 2 / area A B C)) := by
  have hne : areaVector A B C ≠ ⟨0, 0, 0⟩ := by
    have := (hv.triangles e (List.mem_of_getElem? hm.1)).2.2
    rwa [htri] at this
  have hN := C71_normal A B C hne
  have hnN : n = (fullData A B C).normal := by
    generalize hNn : (fullData A B C).normal = N at hN
    have o1 := hn.orthogonal 1 0
    have o2 := hn.orthogonal 0 1
    have q1 := hN.orthogonal 1 0
    have q2 := hN.orthogonal 0 1
    rw [dot_displacement] at o1 o2 q1 q2
    have hz : n = P3.smul (n.dot N) N := by
      refine eq_of_dots A B C hne _ _ ?_ ?_ ?_
      · simp only [P3.smul, P3.dot] at *
        linear_combination o1 - (n.x * N.x + n.y * N.y + n.z * N.z) * q1
      · simp only [P3.smul, P3.dot] at *
        linear_combination o2 - (n.x * N.x + n.y * N.y + n.z * N.z) * q2
      · rw [hNn]
        have := hN.unit
        simp only [P3.smul, P3.dot] at *
        linear_combination -(n.x * N.x + n.y * N.y + n.z * N.z) * this
    generalize n.dot N = s at hz
    have u1 := hn.unit
    have u2 := hN.unit
    have r1 := hn.rightHanded
    have r2 := hN.rightHanded
    rw [hz] at u1 r1
    have e1 : (P3.smul s N).dot (P3.smul s N) = s ^ 2 * N.dot N := by simp only [P3.smul, P3.dot]; ring
    have e2 : (areaVector A B C).dot (P3.smul s N) = s * (areaVector A B C).dot N := by simp only [P3.smul, P3.dot]; ring
    rw [e1, u2, mul_one] at u1
    rw [e2] at r1
    have hs0 : 0 < s := pos_of_mul_pos_left r1 r2.le
    have hs1 : s = 1 := by nlinarith
    rw [hz, hs1]
    simp [P3.smul]
  constructor
  · intro hop i j
    refine rt_entry c tri hv k e m hm A B C htri ht hs L h1 h2 (fun a b => a.dot b) (fun a b => dot_le a b _) ?_ ?_ i j ?_
    · intro z a b; simp only [P3.smul, P3.dot]; ring
    · intro α β u v x y; simp only [P3.dot]; ring
    · intro x y
      rw [hop, ht, hs]
      exact simple_real _ _
  · intro hop i j
    refine rt_entry c tri hv k e m hm A B C htri ht hs L h1 h2 (fun a b => a.dot (b.cross n))
      (fun a b ha hb => dot_le a _ _ ha (cross_le b n _ hn.unit hb)) ?_ ?_ i j ?_
    · intro z a b; simp only [P3.smul, P3.dot, P3.cross]; ring
    · intro α β u v x y; simp only [P3.dot, P3.cross]; ring
    · intro x y
      rw [hop, ht, hs, hnN]
      exact maxwell_real _ _ _

/-- **C76 (symmetry)** With the same transformation and, on the element, the same shapeset on both sides, the matrix of the identity
and that of the Laplace-Beltrami operator are exactly symmetric, that of the Maxwell identity exactly antisymmetric. -/
theorem C76_symmetry {addr : Type} [DecidableEq addr] (c : Call addr) (tri : Nat → P3 ℝ × P3 ℝ × P3 ℝ) (hv : c.Valid tri)
    (hT : c.op.test = c.op.trial) (k e : Nat) (m : Mx ℝ) (hm : c.Returns k e m) (hs : c.test e = c.trial e) (i j : Nat) :
    (c.op.functor = simpleFunctor → m.e i j = m.e j i) ∧ (c.op.functor = maxwellFunctor → m.e i j = -m.e j i) := by
  obtain ⟨rule, hrule, hrun⟩ := run_eq hv
  obtain ⟨hk, result, hres, hm⟩ := hm
  rw [hrun] at hres
  cases hres
  rw [List.getElem?_map, hk] at hm
  cases hm
  dsimp only
  constructor
  · intro hf
    congr 2
    funext x y
    unfold Operator.integrand
    rw [hf, hs, hT]
    show simpleIntegrand _ _ _ = simpleIntegrand _ _ _
    rw [simpleIntegrand_eq, simpleIntegrand_eq]
    exact Finset.sum_congr rfl fun d _ => by simp only [star_trivial]; ring
  · intro hf
    rw [← mul_neg]
    congr 1
    have : quadSum (rule e) (c.op.integrand (c.test e) (c.trial e) (tri e).1 (tri e).2.1 (tri e).2.2 j i) =
        (-1) * quadSum (rule e) (c.op.integrand (c.test e) (c.trial e) (tri e).1 (tri e).2.1 (tri e).2.2 i j) := by
      unfold quadSum
      rw [← List.sum_map_mul_left]
      congr 2
      funext q
      unfold Operator.integrand
      rw [hf, hs, hT]
      simp only [maxwellFunctor, maxwellIntegrand, star_trivial]
      ring
    rw [this]
    ring

/-- A call that meets the hypotheses: three positions, two elements, piecewise linear test and trial functions, Laplace-Beltrami. -/
noncomputable def exampleCall (op : Operator) (s : Shapeset) : Call Nat where
  op := op
  mesh := ⟨fun _ => 3, fun e _ => getData ⟨0, 0, (e : ℝ)⟩ ⟨1, 0, (e : ℝ)⟩ ⟨0, 1, (e : ℝ)⟩⟩
  shapeset := fun _ => s
  testAt := fun e => e
  trialAt := fun _ => 0
  elements := [0, 1, 0]
  order := [(⟨3, s.order + s.order⟩, 1, 0), (⟨3, s.order + s.order⟩, 0, 0)]
  old := List.replicate 3 ⟨0, 0, fun _ _ => 0⟩
  blank := fun _ => fullData ⟨0, 0, 0⟩ ⟨0, 0, 0⟩ ⟨0, 0, 0⟩

theorem exampleCall_valid (op : Operator) (s : Shapeset) (h1 : IsTransformation op.test) (h2 : IsTransformation op.trial)
    (h3 : op.functor = simpleFunctor ∨ op.functor = maxwellFunctor ∨ ∃ a b, op.functor = singleComponentFunctor a b) (h4 : s.order ≤ 10) :
    (exampleCall op s).Valid fun e => (⟨0, 0, (e : ℝ)⟩, ⟨1, 0, (e : ℝ)⟩, ⟨0, 1, (e : ℝ)⟩) where
  test := h1
  trial := h2
  functor := h3
  triangles := fun e _ => ⟨rfl, rfl, by
    intro h
    have := congrArg P3.z h
    simp [areaVector, P3.sub, P3.cross] at this⟩
  orders := fun e _ => by
    show s.order + s.order ≤ 20
    omega
  nodup := by simp [exampleCall]
  complete := by
    intro v
    simp only [exampleCall, Call.test, Call.trial, List.mem_cons, List.not_mem_nil, or_false, exists_eq_or_imp, exists_eq_left]
    tauto
  old := by simp [exampleCall]

example : (exampleCall laplaceBeltramiOperator linearShapeset).Valid fun e => (⟨0, 0, (e : ℝ)⟩, ⟨1, 0, (e : ℝ)⟩, ⟨0, 1, (e : ℝ)⟩) :=
  exampleCall_valid _ _ (by unfold IsTransformation; tauto) (by unfold IsTransformation; tauto) (Or.inl rfl) (by decide)

example : (exampleCall (maxwellIdentityOperator hdivT hdivT) raviartThomasShapeset).Valid
    fun e => (⟨0, 0, (e : ℝ)⟩, ⟨1, 0, (e : ℝ)⟩, ⟨0, 1, (e : ℝ)⟩) :=
  exampleCall_valid _ _ (by unfold IsTransformation; tauto) (by unfold IsTransformation; tauto) (Or.inr (Or.inl rfl)) (by decide)

end Verif.LocalOps
