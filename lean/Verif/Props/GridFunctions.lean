import Verif.Lemmas.GridFunctions
/-
Property C77: projections of functions.
-/
namespace Verif.GridFun
open Verif.Grid Verif.Shape Verif.SingleQuad Verif.Space Verif.HMat Verif.LocalOps Verif.Assembly MvPolynomial

theorem test_ok {T : Transformation} (h : IsTransformation T) : T.Honest := by
  rcases h with rfl | rfl | rfl | rfl | rfl | rfl | rfl | rfl
  · exact scalarValueT_honest
  · exact hdivT_honest
  · exact hcurlT_honest
  · exact surfaceGradT_honest
  · exact surfaceDivT_honest
  · exact surfaceCurlT_honest
  · exact hcurlSurfaceCurlT_honest
  · exact valueTimesNormalT_honest

theorem desc_eq {addr : Type} {c : Call addr} {tri : Nat → P3 ℝ × P3 ℝ × P3 ℝ} (hv : c.Valid tri) (e : Nat) (he : e ∈ c.elements) :
    quadratureDescriptor c.mesh c.options (fun e => c.shapeset (c.testAt e)) e = ⟨3, c.accuracy e⟩ := by
  unfold quadratureDescriptor
  rw [(hv.triangles e he).1]
  rfl

theorem points_eq {addr : Type} {c : Call addr} {tri : Nat → P3 ℝ × P3 ℝ × P3 ℝ} (hv : c.Valid tri) (e : Nat) (he : e ∈ c.elements) :
    fillSingle 3 (c.accuracy e) = .ok (rulePoints ⟨3, c.accuracy e⟩) ∧ (rulePoints ⟨3, c.accuracy e⟩).length ≠ 0 := by
  obtain ⟨r, hr, hx⟩ := rule_nonempty _ (hv.orders e he)
  have : rulePoints ⟨3, c.accuracy e⟩ = r := by simp only [rulePoints, hr]
  rw [this]
  exact ⟨hr, hx⟩

theorem integrators_valid {addr : Type} {c : Call addr} {tri : Nat → P3 ℝ × P3 ℝ × P3 ℝ} (hv : c.Valid tri) :
    LocalOps.evaluateLocalWeakForms.integrators (quadratureDescriptor c.mesh c.options fun e => c.shapeset (c.testAt e)) c.elements =
      .ok () := by
  refine integrators_ok _ _ fun e he => ?_
  rw [desc_eq hv e he]
  exact ⟨_, (points_eq hv e he).1⟩

theorem run_eq {addr : Type} [DecidableEq addr] {c : Call addr} {tri : Nat → P3 ℝ × P3 ℝ × P3 ℝ} (hv : c.Valid tri)
    {f : P3 ℝ → P3 ℝ → Int → Nat → ℂ} (hF : FunctionClass c.test.dim c.function f) :
    c.run = .ok (c.elements.map fun e => ⟨(c.shapes e).size, fun i =>
      ((fullData (tri e).1 (tri e).2.1 (tri e).2.2).integrationElement : ℂ) *
        quadSumC (rulePoints ⟨3, c.accuracy e⟩) (c.integrand tri f e i)⟩) := by
  unfold Call.run evaluateLocalWeakForms
  dsimp only
  rw [integrators_valid hv]
  dsimp only
  let g : (Descriptor × addr) → Nat → Column := fun v e => ⟨(c.shapeset v.2).size, fun i =>
      ((fullData (tri e).1 (tri e).2.1 (tri e).2.2).integrationElement : ℂ) *
        quadSumC (rulePoints v.1) fun x y => ∑ d ∈ Finset.range c.test.dim,
          ((c.test.evaluate ((c.shapeset v.2).shape i (x, y)) (fullData (tri e).1 (tri e).2.1 (tri e).2.2) d : ℝ) : ℂ) *
          f (refMap (tri e).1 (tri e).2.1 (tri e).2.2 (x, y)) (unitNormal (tri e).1 (tri e).2.1 (tri e).2.2) (c.mesh.domainIndex e) d⟩
  have hmem : ∀ (v : Descriptor × addr) (vs : List (Descriptor × addr)) (l : List Nat),
      l = ((c.elements.zip vs).filter fun p => decide (p.2 = v)).map Prod.fst → ∀ e ∈ l, e ∈ c.elements := by
    intro v vs l hl e he
    rw [hl, List.mem_map] at he
    obtain ⟨p, hp, rfl⟩ := he
    exact (List.of_mem_zip (List.mem_filter.mp hp).1).1
  rw [loop_ok _ (fun v es => es.map (g v)) _ _ _ (by
    intro v hvo l hl
    obtain ⟨e, he, rfl⟩ := (hv.complete v).mp hvo
    unfold integrate
    by_cases hz : l.length = 0
    · rw [List.length_eq_zero_iff] at hz
      subst hz
      simp
    · rw [if_neg (by have := (points_eq hv e he).2; tauto), if_neg (by rw [function_dim hF]; simp),
        elementLoop_eq (test_ok hv.test) hF c.mesh tri _ _ _ (fun e he => hv.triangles e (hmem _ _ _ hl e he))
          (fun e he => hv.positions e (hmem _ _ _ hl e he))])]
  rw [variantLoop_eq _ g _ _ (by simp) _ (fun _ _ _ _ => rfl) _ hv.old]
  refine congrArg Outcome.ok ?_
  apply List.ext_getElem
  · simp [hv.old]
  · intro n a b
    have hn : n < c.elements.length := by simpa using b
    have he := List.getElem_mem hn
    simp only [List.getElem_zipWith, List.getElem_zip, List.getElem_map]
    rw [desc_eq hv _ he, if_pos ((hv.complete _).mpr ⟨_, he, rfl⟩)]
    rfl

theorem returns_eq {addr : Type} [DecidableEq addr] {c : Call addr} {tri : Nat → P3 ℝ × P3 ℝ × P3 ℝ} (hv : c.Valid tri)
    {f : P3 ℝ → P3 ℝ → Int → Nat → ℂ} (hF : FunctionClass c.test.dim c.function f) {k e : Nat} {v : Column} (h : c.Returns k e v) :
    e ∈ c.elements ∧ v = ⟨(c.shapes e).size, fun i =>
      ((2 * area (tri e).1 (tri e).2.1 (tri e).2.2 : ℝ) : ℂ) * quadSumC (rulePoints ⟨3, c.accuracy e⟩) (c.integrand tri f e i)⟩ := by
  obtain ⟨hk, result, hres, hm⟩ := h
  rw [run_eq hv hF] at hres
  cases hres
  rw [List.getElem?_map, hk] at hm
  cases hm
  refine ⟨List.mem_of_getElem? hk, ?_⟩
  simp only [ie_eq]

/-- **C77 (every element)** Whatever the list of elements (with repetitions and different shapesets) and the order of the variants, the
call returns a column for each position of the list, with one row for each function of the shapeset of the element at that position; if
the integrand on the reference triangle is a polynomial of degree at most the accuracy order (by default twice the order of the
shapeset plus one), the row is the integral of test function times function over the element - at its points, with its unit normal and
its domain index - up to 5e-15 times twice the area times the sum of the absolute values of the coefficients. -/
theorem C77_elements {addr : Type} [DecidableEq addr] (c : Call addr) (tri : Nat → P3 ℝ × P3 ℝ × P3 ℝ) (hv : c.Valid tri)
    (f : P3 ℝ → P3 ℝ → Int → Nat → ℂ) (hF : FunctionClass c.test.dim c.function f) :
    (∃ result, c.run = .ok result ∧ result.length = c.elements.length) ∧
    ∀ k e v, c.Returns k e v → v.size = (c.shapes e).size ∧
      ∀ i P Q, c.Polynomial tri f e i P Q →
        ‖v.e i - c.exact tri f e i‖ ≤ 5 / 10 ^ 15 * (2 * area (tri e).1 (tri e).2.1 (tri e).2.2 * (coeffNorm P + coeffNorm Q)) := by
  refine ⟨⟨_, run_eq hv hF, by simp⟩, ?_⟩
  intro k e v h
  obtain ⟨he, rfl⟩ := returns_eq hv hF h
  refine ⟨rfl, ?_⟩
  rintro i P Q ⟨hP, hQ, hdP, hdQ⟩
  have hpos := area_pos _ _ _ (hv.triangles e he).2.2
  obtain ⟨r, hr, hx⟩ := C75_triangle _ (hv.orders e he)
  rw [(points_eq hv e he).1] at hr
  cases hr
  have e1 : value P = fun x y => (c.integrand tri f e i x y).re := by funext x y; exact hP x y
  have e2 : value Q = fun x y => (c.integrand tri f e i x y).im := by funext x y; exact hQ x y
  have b1 := hx P hdP
  have b2 := hx Q hdQ
  rw [e1] at b1
  rw [e2] at b2
  dsimp only
  generalize hz : quadSumC (rulePoints ⟨3, c.accuracy e⟩) (c.integrand tri f e i) = z
  have z1 := quadSumC_re (rulePoints ⟨3, c.accuracy e⟩) (c.integrand tri f e i)
  have z2 := quadSumC_im (rulePoints ⟨3, c.accuracy e⟩) (c.integrand tri f e i)
  rw [hz] at z1 z2
  rw [← z1] at b1
  rw [← z2] at b2
  refine (Complex.norm_le_abs_re_add_abs_im _).trans ?_
  unfold Call.exact
  rw [Complex.sub_re, Complex.sub_im, Complex.re_ofReal_mul, Complex.im_ofReal_mul]
  dsimp only
  rw [← mul_sub, ← mul_sub, abs_mul (2 * area (tri e).1 (tri e).2.1 (tri e).2.2), abs_mul (2 * area (tri e).1 (tri e).2.1 (tri e).2.2),
    abs_of_pos (by linarith : (0 : ℝ) < 2 * area (tri e).1 (tri e).2.1 (tri e).2.2), ← mul_add]
  have := mul_le_mul_of_nonneg_left (add_le_add b1 b2) (by linarith : (0 : ℝ) ≤ 2 * area (tri e).1 (tri e).2.1 (tri e).2.2)
  linarith

/-- **C77 (scalar functions)** For scalar test functions `φ` on the triangle, the integral in `C77_elements` is the surface integral of
`φ` times the function. -/
theorem C77_scalar {addr : Type} (c : Call addr) (tri : Nat → P3 ℝ × P3 ℝ × P3 ℝ) (f : P3 ℝ → P3 ℝ → Int → Nat → ℂ)
    (ht : c.test = scalarValueT) (e i : Nat) (A B C : P3 ℝ) (htri : tri e = (A, B, C)) (φ : P3 ℝ → ℝ)
    (hφ : ∀ x y, ((c.shapes e).shape i (x, y)).v0 = φ (refMap A B C (x, y))) :
    c.exact tri f e i = surfaceIntegralC A B C fun X => (φ X : ℂ) * f X (unitNormal A B C) (c.mesh.domainIndex e) 0 := by
  have key : ∀ x y, c.integrand tri f e i x y =
      (φ (refMap A B C (x, y)) : ℂ) * f (refMap A B C (x, y)) (unitNormal A B C) (c.mesh.domainIndex e) 0 := by
    intro x y
    unfold Call.integrand
    rw [ht, htri]
    show ∑ d ∈ Finset.range 1, _ = _
    rw [Finset.sum_range_one, ← hφ]
    rfl
  unfold Call.exact surfaceIntegralC surfaceIntegral
  simp only [key, htri]

/-- **C77 (vector functions)** For vector-valued test functions `φ` on the triangle, it is the surface integral of their inner product
with the function. -/
theorem C77_vector {addr : Type} (c : Call addr) (tri : Nat → P3 ℝ × P3 ℝ × P3 ℝ) (f : P3 ℝ → P3 ℝ → Int → Nat → ℂ)
    (e i : Nat) (A B C : P3 ℝ) (htri : tri e = (A, B, C)) (φ : P3 ℝ → P3 ℝ)
    (hφ : (c.test = hdivT ∧ ∀ x y, hdivValue ((c.shapes e).shape i (x, y)) (fullData A B C) = φ (refMap A B C (x, y))) ∨
      (c.test = hcurlT ∧ ∀ x y, hcurlValue ((c.shapes e).shape i (x, y)) (fullData A B C) = φ (refMap A B C (x, y)))) :
    c.exact tri f e i = surfaceIntegralC A B C fun X =>
      ((φ X).x : ℂ) * f X (unitNormal A B C) (c.mesh.domainIndex e) 0 + ((φ X).y : ℂ) * f X (unitNormal A B C) (c.mesh.domainIndex e) 1 +
        ((φ X).z : ℂ) * f X (unitNormal A B C) (c.mesh.domainIndex e) 2 := by
  have key : ∀ x y, c.integrand tri f e i x y =
      ((φ (refMap A B C (x, y))).x : ℂ) * f (refMap A B C (x, y)) (unitNormal A B C) (c.mesh.domainIndex e) 0 +
      ((φ (refMap A B C (x, y))).y : ℂ) * f (refMap A B C (x, y)) (unitNormal A B C) (c.mesh.domainIndex e) 1 +
      ((φ (refMap A B C (x, y))).z : ℂ) * f (refMap A B C (x, y)) (unitNormal A B C) (c.mesh.domainIndex e) 2 := by
    intro x y
    unfold Call.integrand
    rw [htri]
    rcases hφ with ⟨ht, h⟩ | ⟨ht, h⟩
    all_goals
      rw [ht]
      show ∑ d ∈ Finset.range 3, _ = _
      rw [Finset.sum_range_succ, Finset.sum_range_succ, Finset.sum_range_one, ← h]
      rfl
  unfold Call.exact surfaceIntegralC surfaceIntegral
  simp only [key, htri]

/-- **C77 (dimensions)** A function with another number of components than the test functions is refused (unless the list of elements
is empty), whatever the class of the function. -/
theorem C77_dimension {addr : Type} [DecidableEq addr] (c : Call addr) (tri : Nat → P3 ℝ × P3 ℝ × P3 ℝ) (hv : c.Valid tri)
    (dim : Nat) (f : P3 ℝ → P3 ℝ → Int → Nat → ℂ) (hF : FunctionClass dim c.function f) (hd : dim ≠ c.test.dim) (hne : c.elements ≠ []) :
    ∃ m, c.run = .throws m := by
  have hone : c.order ≠ [] := by
    obtain ⟨e, he⟩ := List.exists_mem_of_ne_nil _ hne
    have := (hv.complete _).mpr ⟨e, he, rfl⟩
    exact List.ne_nil_of_mem this
  obtain ⟨v, rest, ho⟩ := List.exists_cons_of_ne_nil hone
  have hvm : v ∈ c.order := by rw [ho]; simp
  obtain ⟨e, he, rfl⟩ := (hv.complete v).mp hvm
  refine ⟨"test functions and the \"arbitrary\" function must have the same number of components", ?_⟩
  unfold Call.run evaluateLocalWeakForms
  dsimp only
  rw [integrators_valid hv]
  dsimp only
  rw [ho]
  refine loop_throws _ _ _ _ _ _ _ ?_
  unfold integrate
  have hmem : e ∈ List.map Prod.fst (List.filter (fun p => decide (p.2 = (⟨3, c.accuracy e⟩, c.testAt e)))
      (c.elements.zip (c.elements.map fun e => (quadratureDescriptor c.mesh c.options (fun e => c.shapeset (c.testAt e)) e, c.testAt e)))) := by
    rw [List.mem_map]
    refine ⟨(e, (⟨3, c.accuracy e⟩, c.testAt e)), List.mem_filter.mpr ⟨?_, by simp⟩, rfl⟩
    obtain ⟨n, hn, rfl⟩ := List.getElem_of_mem he
    rw [List.mem_iff_getElem]
    refine ⟨n, by simpa using hn, ?_⟩
    simp only [List.getElem_zip, List.getElem_map]
    rw [desc_eq hv _ he]
  rw [if_neg (by
    rintro (h | h)
    · exact (points_eq hv e he).2 h
    · exact List.ne_nil_of_mem hmem (List.length_eq_zero_iff.mp h)), if_pos (by rw [function_dim hF]; exact hd)]

/-- **C77 (linearity)** The columns depend linearly on the function. -/
theorem C77_linear {addr : Type} [DecidableEq addr] (c : Call addr) (tri : Nat → P3 ℝ × P3 ℝ × P3 ℝ) (hv : c.Valid tri)
    (f g : P3 ℝ → P3 ℝ → Int → Nat → ℂ) (a b : ℂ) (k e : Nat) (vf vg vh : Column)
    (hf : ({ c with function := normalAndDomainIndexDependent c.test.dim f }).Returns k e vf)
    (hg : ({ c with function := normalAndDomainIndexDependent c.test.dim g }).Returns k e vg)
    (hh : ({ c with function := normalAndDomainIndexDependent c.test.dim fun X n d i => a * f X n d i + b * g X n d i }).Returns k e vh)
    (i : Nat) : vh.e i = a * vf.e i + b * vg.e i := by
  have valid : ∀ F, ({ c with function := F } : Call addr).Valid tri := fun F =>
    ⟨hv.test, hv.triangles, hv.positions, hv.orders, hv.nodup, hv.complete, hv.old⟩
  obtain ⟨-, rfl⟩ := returns_eq (valid _) (.both f) hf
  obtain ⟨-, rfl⟩ := returns_eq (valid _) (.both g) hg
  obtain ⟨-, rfl⟩ := returns_eq (valid _) (.both fun X n d i => a * f X n d i + b * g X n d i) hh
  have : Call.integrand c tri (fun X n d i => a * f X n d i + b * g X n d i) e i =
      fun x y => a * Call.integrand c tri f e i x y + b * Call.integrand c tri g e i x y := by
    funext x y
    unfold Call.integrand
    rw [Finset.mul_sum, Finset.mul_sum, ← Finset.sum_add_distrib]
    exact Finset.sum_congr rfl fun d _ => by ring
  have h2 := congrArg (fun F => ((2 * area (tri e).1 (tri e).2.1 (tri e).2.2 : ℝ) : ℂ) * quadSumC (rulePoints ⟨3, c.accuracy e⟩) F) this
  simp only [quadSumC_add] at h2
  refine Eq.trans h2 ?_
  rw [mul_add, mul_left_comm, mul_left_comm _ b]
  rfl

theorem quadSumC_sum (rule : List QPoint) (n : Nat) (a : Nat → ℂ) (g : Nat → ℝ → ℝ → ℝ) :
    quadSumC rule (fun x y => ∑ j ∈ Finset.range n, a j * (g j x y : ℂ)) = ∑ j ∈ Finset.range n, a j * (quadSum rule (g j) : ℂ) := by
  unfold quadSumC quadSum
  induction rule with
  | nil => simp
  | cons q l ih =>
    simp only [List.map_cons, List.sum_cons, ih]
    rw [Finset.mul_sum, ← Finset.sum_add_distrib]
    refine Finset.sum_congr rfl fun j _ => ?_
    push_cast
    ring

/-- **C77 (mass matrix)** Projecting a function of a space is multiplying its coefficients by the mass matrix: if on the element the
function is the combination `∑ a j q j` of the scalar functions `q j` of a shapeset, then the column that the projection returns is the
product of the matrix that the identity operator returns (C76) with the coefficients, up to 1e-14 times twice the area times the sum of
`|a j|` times the sum of the absolute values of the coefficients of `p (q j)`, where `p` is the test function - provided that the
accuracy order is at least the sum of the orders of the shapesets. -/
theorem C77_mass {addr : Type} [DecidableEq addr] (c : Call addr) (b : LocalOps.Call addr) (tri : Nat → P3 ℝ × P3 ℝ × P3 ℝ)
    (hv : c.Valid tri) (hb : b.Valid tri) (f : P3 ℝ → P3 ℝ → Int → Nat → ℂ) (ht : c.test = scalarValueT)
    (hF : FunctionClass 1 c.function f) (hop : b.op = identityOperator scalarValueT scalarValueT) (k l e : Nat) (v : Column) (m : Mx ℝ)
    (hvr : c.Returns k e v) (hm : b.Returns l e m) (htest : b.test e = c.shapes e)
    (hacc : (b.test e).order + (b.trial e).order ≤ c.accuracy e) (A B C : P3 ℝ) (htri : tri e = (A, B, C)) (i n : Nat) (a : Nat → ℂ)
    (p : MvPolynomial (Fin 2) ℝ) (q : Nat → MvPolynomial (Fin 2) ℝ)
    (hp : (p.totalDegree : ℤ) ≤ (b.test e).order) (hq : ∀ j < n, ((q j).totalDegree : ℤ) ≤ (b.trial e).order)
    (hpv : ∀ x y, ((b.test e).shape i (x, y)).v0 = value p x y)
    (hqv : ∀ j < n, ∀ x y, ((b.trial e).shape j (x, y)).v0 = value (q j) x y)
    (hf : ∀ x y, f (refMap A B C (x, y)) (unitNormal A B C) (c.mesh.domainIndex e) 0 = ∑ j ∈ Finset.range n, a j * (value (q j) x y : ℂ)) :
    ‖v.e i - ∑ j ∈ Finset.range n, a j * (m.e i j : ℂ)‖ ≤
      1 / 10 ^ 14 * (2 * area A B C * ∑ j ∈ Finset.range n, ‖a j‖ * coeffNorm (p * q j)) := by
  have hF' : FunctionClass c.test.dim c.function f := by rw [ht]; exact hF
  obtain ⟨he, rfl⟩ := returns_eq hv hF' hvr
  obtain ⟨r, hr, hx⟩ := C75_triangle _ (hv.orders e he)
  rw [(points_eq hv e he).1] at hr
  cases hr
  have hpos := area_pos _ _ _ (hv.triangles e he).2.2
  have key : c.integrand tri f e i = fun x y => ∑ j ∈ Finset.range n, a j * (value (p * q j) x y : ℂ) := by
    funext x y
    unfold Call.integrand
    rw [ht, htri]
    show ∑ d ∈ Finset.range 1, _ = _
    rw [Finset.sum_range_one]
    show ((((c.shapes e).shape i (x, y)).v0 : ℝ) : ℂ) * f (refMap A B C (x, y)) (unitNormal A B C) _ 0 = _
    rw [← htest, hpv, hf, Finset.mul_sum]
    refine Finset.sum_congr rfl fun j _ => ?_
    rw [value_mul]
    push_cast
    ring
  dsimp only
  rw [key, quadSumC_sum, Finset.mul_sum, ← Finset.sum_sub_distrib, htri]
  refine (norm_sum_le _ _).trans ?_
  rw [Finset.mul_sum, Finset.mul_sum]
  refine Finset.sum_le_sum fun j hj => ?_
  have hj' := Finset.mem_range.mp hj
  have hdeg := totalDegree_mul p (q j)
  have h1 := hx (p * q j) (by
    have := hq j hj'
    have := le_max_left (c.accuracy e) 1
    omega)
  have h2 := ((C76_elements b tri hb).2 l e m hm).2.2 i j (p * q j) (by have := hq j hj'; omega) (by
      intro x y
      rw [value_mul, ← hpv, ← hqv j hj', hop]
      show _ = simpleIntegrand 1 _ _
      rw [simpleIntegrand_eq, Finset.sum_range_one]
      rfl)
  rw [htri] at h2 hpos
  dsimp only at h2 hpos
  generalize quadSum (rulePoints ⟨3, c.accuracy e⟩) (value (p * q j)) = s at h1
  generalize triangleIntegral (value (p * q j)) = t at h1 h2
  generalize coeffNorm (p * q j) = N at h1 h2
  have e1 : ((2 * area A B C : ℝ) : ℂ) * (a j * (s : ℂ)) - a j * (m.e i j : ℂ) = a j * ((2 * area A B C * s - m.e i j : ℝ) : ℂ) := by
    push_cast; ring
  rw [e1, norm_mul, Complex.norm_real, Real.norm_eq_abs]
  have h3 : |2 * area A B C * s - m.e i j| ≤ 1 / 10 ^ 14 * (2 * area A B C * N) := by
    have h4 : |2 * area A B C * s - 2 * area A B C * t| ≤ 2 * area A B C * (5 / 10 ^ 15 * N) := by
      rw [← mul_sub, abs_mul, abs_of_pos (by linarith : (0 : ℝ) < 2 * area A B C)]
      exact mul_le_mul_of_nonneg_left h1 (by linarith)
    have h5 := abs_sub_le (2 * area A B C * s) (2 * area A B C * t) (m.e i j)
    rw [abs_sub_comm (2 * area A B C * t)] at h5
    have e2 : (1 : ℝ) / 10 ^ 14 = 5 / 10 ^ 15 + 5 / 10 ^ 15 := by norm_num
    rw [e2]
    linarith
  have := mul_le_mul_of_nonneg_left h3 (norm_nonneg (a j))
  linarith

/-- **C77 (projection)** If the shapeset of every element of the space has as many functions as the element has dofs, the projection is a
vector with one entry for each global dof, equal to the sum over the local dofs of that global dof of the conjugate of the weight times
the corresponding row of the column of the element; nothing outside the vector is written, and constrained dofs contribute nothing. -/
theorem C77_projection {addr : Type} [DecidableEq addr] (sp : ASpace ℂ) (hsp : sp.Valid) (c : Call addr)
    (tri : Nat → P3 ℝ × P3 ℝ × P3 ℝ) (hv : c.Valid tri) (hall : c.elements = List.range sp.elementCount)
    (f : P3 ℝ → P3 ℝ → Int → Nat → ℂ) (hF : FunctionClass c.test.dim c.function f)
    (hsize : ∀ e < sp.elementCount, (c.shapes e).size = (sp.gdofs e).length) :
    ∃ m, calculateProjections sp (fun es => ({ c with elements := es } : Call addr).run) = .ok m ∧ m.rows = sp.globalDofCount ∧ m.cols = 1 ∧
      ∃ col : Nat → Column, (∀ e < sp.elementCount, c.Returns e e (col e)) ∧
        ∀ i, m.e i 0 = projectionEntry sp (fun e a => (col e).e a) i := by
  have hrun := run_eq hv hF
  have hc : ({ c with elements := List.range sp.elementCount } : Call addr) = c := by rw [← hall]
  unfold calculateProjections
  dsimp only
  rw [hc, hrun]
  dsimp only
  rw [hall]
  rw [if_pos (by
    intro e he a ha _
    rw [List.getD_eq_getElem?_getD, List.getElem?_map, List.getElem?_map, List.getElem?_range he]
    show a < (c.shapes e).size
    rw [hsize e he]
    exact ha)]
  generalize hform : (fun e a => (List.map Column.e (List.map (fun e => (⟨(c.shapes e).size, fun i =>
      ((fullData (tri e).1 (tri e).2.1 (tri e).2.2).integrationElement : ℂ) *
        quadSumC (rulePoints ⟨3, c.accuracy e⟩) (c.integrand tri f e i)⟩ : Column)) (List.range sp.elementCount))).getD e (fun _ => 0) a) = form
  obtain ⟨m, h1, h2, h3, h4⟩ := addAll_ok (projectionUpdates sp form) (Mx.zero sp.globalDofCount 1) (by
    intro u hu
    unfold projectionUpdates at hu
    rw [List.mem_flatMap] at hu
    obtain ⟨e, -, hu⟩ := hu
    rw [List.mem_flatMap] at hu
    obtain ⟨p, hp, hu⟩ := hu
    by_cases h0 : p.1 ≥ 0
    · rw [if_pos h0, List.mem_singleton] at hu
      subst hu
      have hmem : p.1 ∈ sp.gdofs e := by
        have hx := List.fst_mem_of_mem_zipIdx hp
        exact hx
      exact ⟨h0, (ASpace.mem_range sp hsp hmem h0), le_refl _, by show (0 : Int) < ((1 : Nat) : Int); decide⟩
    · rw [if_neg h0] at hu
      simp at hu)
  rw [h1]
  refine ⟨m, rfl, h2, h3, ?_⟩
  refine ⟨fun e => ⟨(c.shapes e).size, fun i =>
      ((fullData (tri e).1 (tri e).2.1 (tri e).2.2).integrationElement : ℂ) *
        quadSumC (rulePoints ⟨3, c.accuracy e⟩) (c.integrand tri f e i)⟩, ?_, ?_⟩
  · intro e he
    refine ⟨by rw [hall, List.getElem?_range he], _, hrun, ?_⟩
    rw [hall, List.getElem?_map, List.getElem?_range he]
    rfl
  · intro i
    have h5 := h4 i 0
    rw [show (((0 : Nat) : Int)) = 0 from rfl, contrib_projectionUpdates] at h5
    rw [h5]
    have e0 : (Mx.zero sp.globalDofCount 1 : Mx ℂ).e i 0 = 0 := rfl
    rw [e0, zero_add]
    unfold projectionEntry
    refine Finset.sum_congr rfl fun e he => Finset.sum_congr rfl fun a _ => ?_
    have : form e a = ((fullData (tri e).1 (tri e).2.1 (tri e).2.2).integrationElement : ℂ) *
        quadSumC (rulePoints ⟨3, c.accuracy e⟩) (c.integrand tri f e a) := by
      rw [← hform]
      simp only
      rw [List.getD_eq_getElem?_getD, List.getElem?_map, List.getElem?_map, List.getElem?_range (Finset.mem_range.mp he)]
      rfl
    rw [this]

/-- A call that meets the hypotheses: two elements with a list of three positions, a function of position and domain index. -/
noncomputable def exampleCall (F : UserFunction) : Call Nat where
  test := scalarValueT
  function := F
  mesh := { cornerCount := fun _ => 3, getData := fun e _ => getData ⟨0, 0, (e : ℝ)⟩ ⟨1, 0, (e : ℝ)⟩ ⟨0, 1, (e : ℝ)⟩
            local2global := fun e => refMap ⟨0, 0, (e : ℝ)⟩ ⟨1, 0, (e : ℝ)⟩ ⟨0, 1, (e : ℝ)⟩, domainIndex := fun e => e }
  options := {}
  shapeset := fun a => if a = 0 then constantShapeset else linearShapeset
  testAt := fun e => e
  elements := [1, 0, 1]
  order := [(⟨3, 1⟩, 0), (⟨3, 3⟩, 1)]
  old := List.replicate 3 ⟨0, fun _ => 0⟩
  blank := fun _ => ⟨fullData ⟨0, 0, 0⟩ ⟨0, 0, 0⟩ ⟨0, 0, 0⟩, ⟨0, 0, 0⟩, 0⟩

theorem exampleCall_valid (F : UserFunction) :
    (exampleCall F).Valid fun e => (⟨0, 0, (e : ℝ)⟩, ⟨1, 0, (e : ℝ)⟩, ⟨0, 1, (e : ℝ)⟩) where
  test := Or.inl rfl
  triangles := fun e _ => ⟨rfl, rfl, by
    intro h
    have := congrArg P3.z h
    simp [areaVector, P3.sub, P3.cross] at this⟩
  positions := fun _ _ _ => rfl
  orders := by
    intro e he
    have : e = 1 ∨ e = 0 := by
      have h : e = 1 ∨ e = 0 ∨ e = 1 := by simpa [exampleCall] using he
      tauto
    rcases this with rfl | rfl
    · show (3 : Int) + 0 ≤ 20
      decide
    · show (1 : Int) + 0 ≤ 20
      decide
  nodup := by simp [exampleCall]
  complete := by
    intro v
    simp only [exampleCall, Call.accuracy, Call.shapes, List.mem_cons, List.not_mem_nil, or_false, exists_eq_or_imp, exists_eq_left]
    simp [constantShapeset, linearShapeset]
    tauto
  old := by simp [exampleCall]

/-- On element 1 the function that is `1` in domain 0 and `i` in domain 1 has projections with zero real part and imaginary part close
to a sixth, and integrands that are polynomials. -/
example : ∃ v, (exampleCall (domainIndexDependent 1 fun _ d _ => if d = 0 then 1 else Complex.I)).Returns 2 1 v ∧ v.size = 3 ∧
    ∀ j < 3, ∃ P Q, (exampleCall (domainIndexDependent 1 fun _ d _ => if d = 0 then 1 else Complex.I)).Polynomial
      (fun e => (⟨0, 0, (e : ℝ)⟩, ⟨1, 0, (e : ℝ)⟩, ⟨0, 1, (e : ℝ)⟩)) (fun _ _ d _ => if d = 0 then 1 else Complex.I) 1 j P Q := by
  have hr := run_eq (exampleCall_valid (domainIndexDependent 1 fun _ d _ => if d = 0 then 1 else Complex.I))
    (.domain fun _ d _ => if d = 0 then 1 else Complex.I)
  refine ⟨_, ⟨rfl, _, hr, rfl⟩, rfl, ?_⟩
  intro j hj
  have key : ∀ x y, (exampleCall (domainIndexDependent 1 fun _ d _ => if d = 0 then 1 else Complex.I)).integrand
      (fun e => (⟨0, 0, (e : ℝ)⟩, ⟨1, 0, (e : ℝ)⟩, ⟨0, 1, (e : ℝ)⟩)) (fun _ _ d _ => if d = 0 then 1 else Complex.I) 1 j x y =
      ((linearShapeset.shape j (x, y)).v0 : ℂ) * Complex.I := by
    intro x y
    unfold Call.integrand
    show ∑ d ∈ Finset.range 1, _ = _
    rw [Finset.sum_range_one]
    show _ * (if ((1 : Nat) : Int) = 0 then (1 : ℂ) else Complex.I) = _
    rw [if_neg (by decide)]
    rfl
  refine ⟨0, quadratic (if j = 0 then 1 else 0) (if j = 0 then -1 else if j = 1 then 1 else 0)
      (if j = 0 then -1 else if j = 1 then 0 else 1) 0 0 0, ⟨?_, ?_, ?_, ?_⟩⟩
  · intro x y
    rw [key]
    simp [value]
  · intro x y
    rw [key, quadratic_value]
    simp only [linearShapeset]
    interval_cases j <;> simp <;> ring
  · simp
  · have h := quadratic_degree (if j = 0 then 1 else 0) (if j = 0 then -1 else if j = 1 then 1 else 0)
      (if j = 0 then -1 else if j = 1 then 0 else 1) 0 0 0 1 (Or.inr le_rfl) (Or.inl ⟨rfl, rfl, rfl⟩)
    have := le_max_right ((exampleCall (domainIndexDependent 1 fun _ d _ => if d = 0 then 1 else Complex.I)).accuracy 1) 1
    omega

end Verif.GridFun
