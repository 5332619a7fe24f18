import Verif.Model.PySparse
import Verif.Props.LocalOperators
/-
Property C117: sparse operators made from functors.
-/
namespace Verif.LocalOps
open Verif.Grid Verif.Shape Verif.SingleQuad Verif.Space Verif.HMat MvPolynomial

theorem container_isTransformation (f : FunctorName) : IsTransformation f.container := by
  cases f <;> simp [FunctorName.container, IsTransformation]

theorem container_functor (f : IntegrandName) : f.container = simpleFunctor ∨ f.container = maxwellFunctor ∨
    ∃ a b, f.container = singleComponentFunctor a b := by
  cases f with
  | simple_test_trial_integrand_functor => exact Or.inl rfl
  | single_component_test_trial_integrand_functor a b => exact Or.inr (Or.inr ⟨a, b, rfl⟩)
  | maxwell_test_trial_integrand_functor => exact Or.inr (Or.inl rfl)

theorem surfaceCurl_eq (A B C : P3 ℝ) (h : areaVector A B C ≠ ⟨0, 0, 0⟩) (b : BasisAt) :
    surfaceCurl b (fullData A B C) =
      ⟨(b.d00 * (C.sub A).x - b.d01 * (B.sub A).x) / (2 * area A B C), (b.d00 * (C.sub A).y - b.d01 * (B.sub A).y) / (2 * area A B C),
        (b.d00 * (C.sub A).z - b.d01 * (B.sub A).z) / (2 * area A B C)⟩ := by
  have hg := (gram_pos A B C h).ne'
  have hi := (ie_pos A B C h).ne'
  have hn := normal_eq A B C h
  rw [← ie_eq]
  unfold surfaceCurl
  rw [hn, areaVector_eq]
  generalize (fullData A B C).integrationElement = i at *
  simp only [fullData, jacobianTransposed, jacobianInverseTransposed]
  generalize B.sub A = u at *
  generalize C.sub A = v at *
  have hdef : gram u v = u.dot u * v.dot v - u.dot v * u.dot v := rfl
  rw [← hdef]
  simp only [P3.cross, P3.mk.injEq]
  generalize hD : gram u v = D at *
  refine ⟨?_, ?_, ?_⟩ <;> field_simp <;> rw [hdef] <;> simp only [P3.dot] <;> ring

theorem curl_component (A B C : P3 ℝ) (h : areaVector A B C ≠ ⟨0, 0, 0⟩) (j : Nat) (hj : j < 3) (p : ℝ × ℝ) (a : Nat) :
    comp (surfaceCurl (linearShapeset.shape j p) (fullData A B C)) a = -comp (oppositeEdge A B C j) a / (2 * area A B C) := by
  rw [surfaceCurl_eq A B C h]
  have : 2 * area A B C ≠ 0 := by have := area_pos A B C h; linarith
  generalize 2 * area A B C = D at *
  unfold comp
  interval_cases j <;> simp only [linearShapeset, oppositeEdge, P3.sub] <;> norm_num <;> split_ifs <;> ring

/-- Auxiliary: an integrand that is a multiple of the product of two scalar functions. -/
theorem product_entry {addr : Type} [DecidableEq addr] (c : Call addr) (tri : Nat → P3 ℝ × P3 ℝ × P3 ℝ) (hv : c.Valid tri)
    (k e : Nat) (m : Mx ℝ) (hm : c.Returns k e m) (A B C : P3 ℝ) (htri : tri e = (A, B, C)) (κ : ℝ) (i j : Nat)
    (hval : ∀ x y, c.op.integrand (c.test e) (c.trial e) A B C i j x y =
      κ * (((c.test e).shape i (x, y)).v0 * ((c.trial e).shape j (x, y)).v0)) :
    (c.test e = constantShapeset → c.trial e = constantShapeset → |m.e i j - κ * area A B C| ≤ 1 / 10 ^ 13 * (|κ| * area A B C)) ∧
    (c.test e = constantShapeset → c.trial e = linearShapeset → j < 3 →
      |m.e i j - κ * area A B C / 3| ≤ 1 / 10 ^ 13 * (|κ| * area A B C)) ∧
    (c.test e = linearShapeset → c.trial e = constantShapeset → i < 3 →
      |m.e i j - κ * area A B C / 3| ≤ 1 / 10 ^ 13 * (|κ| * area A B C)) ∧
    (c.test e = linearShapeset → c.trial e = linearShapeset → i < 3 → j < 3 →
      |m.e i j - κ * area A B C / (if i = j then 6 else 12)| ≤ 1 / 10 ^ 13 * (|κ| * area A B C)) := by
  have hpos : 0 < area A B C := by
    have := area_pos _ _ _ (hv.triangles e (List.mem_of_getElem? hm.1)).2.2
    rwa [htri] at this
  have big : 5 / 10 ^ 15 * (2 * area A B C * (9 * |κ|)) ≤ 1 / 10 ^ 13 * (|κ| * area A B C) := by
    have := mul_nonneg (abs_nonneg κ) hpos.le
    linarith
  have o0 : constantShapeset.order = 0 := rfl
  have o1 : linearShapeset.order = 1 := rfl
  have key : ∀ (f : ℝ), |κ * f| = |κ| * |f| := fun f => abs_mul κ f
  have hκ := abs_nonneg κ
  obtain ⟨a0, ha0⟩ : ∃ f : Nat → ℝ, f = fun k => if k = 0 then 1 else 0 := ⟨_, rfl⟩
  obtain ⟨a1, ha1⟩ : ∃ f : Nat → ℝ, f = fun k => if k = 0 then -1 else if k = 1 then 1 else 0 := ⟨_, rfl⟩
  obtain ⟨a2, ha2⟩ : ∃ f : Nat → ℝ, f = fun k => if k = 0 then -1 else if k = 1 then 0 else 1 := ⟨_, rfl⟩
  have hl : ∀ k < 3, ∀ x y : ℝ, (linearShapeset.shape k (x, y)).v0 = a0 k + a1 k * x + a2 k * y := by
    intro k hk x y
    rw [ha0, ha1, ha2]
    simp only [linearShapeset]
    interval_cases k <;> norm_num <;> ring
  have hbound : ∀ k < 3, |a0 k| + |a1 k| + |a2 k| ≤ 3 := by
    intro k hk
    rw [ha0, ha1, ha2]
    interval_cases k <;> norm_num
  refine ⟨?_, ?_, ?_, ?_⟩
  · intro ht hs
    have h := quadratic_entry c tri hv k e m hm i j A B C htri κ 0 0 0 0 0 (9 * |κ|) (by simp) (by simp)
      (by rw [ht, hs, o0]; norm_num) (by simp only [abs_zero]; linarith) (by
      intro x y; rw [hval, ht, hs]; simp only [constantShapeset]; ring)
    refine le_trans (le_of_eq ?_) (h.trans big)
    congr 1
    ring
  · intro ht hs hj
    have h := quadratic_entry c tri hv k e m hm i j A B C htri (κ * a0 j) (κ * a1 j) (κ * a2 j) 0 0 0 (9 * |κ|)
      (by rw [ht, hs, o0, o1]; norm_num) (by simp) (by rw [ht, hs, o0, o1]; norm_num) (by
        have := mul_le_mul_of_nonneg_left (hbound j hj) hκ
        simp only [key, abs_zero]
        linarith) (by
      intro x y; rw [hval, ht, hs, hl j hj]; simp only [constantShapeset]; ring)
    refine le_trans (le_of_eq ?_) (h.trans big)
    congr 1
    rw [ha0, ha1, ha2]
    interval_cases j <;> norm_num <;> ring
  · intro ht hs hi
    have h := quadratic_entry c tri hv k e m hm i j A B C htri (κ * a0 i) (κ * a1 i) (κ * a2 i) 0 0 0 (9 * |κ|)
      (by rw [ht, hs, o0, o1]; norm_num) (by simp) (by rw [ht, hs, o0, o1]; norm_num) (by
        have := mul_le_mul_of_nonneg_left (hbound i hi) hκ
        simp only [key, abs_zero]
        linarith) (by
      intro x y; rw [hval, ht, hs, hl i hi]; simp only [constantShapeset]; ring)
    refine le_trans (le_of_eq ?_) (h.trans big)
    congr 1
    rw [ha0, ha1, ha2]
    interval_cases i <;> norm_num <;> ring
  · intro ht hs hi hj
    have h := quadratic_entry c tri hv k e m hm i j A B C htri (κ * (a0 i * a0 j)) (κ * (a0 i * a1 j + a1 i * a0 j))
      (κ * (a0 i * a2 j + a2 i * a0 j)) (κ * (a1 i * a1 j)) (κ * (a1 i * a2 j + a2 i * a1 j)) (κ * (a2 i * a2 j)) (9 * |κ|)
      (by rw [ht, hs, o1]; norm_num) (by rw [ht, hs, o1]; norm_num) (by rw [ht, hs, o1]; norm_num) (by
        have : |a0 i * a0 j| + |a0 i * a1 j + a1 i * a0 j| + |a0 i * a2 j + a2 i * a0 j| + |a1 i * a1 j| +
            |a1 i * a2 j + a2 i * a1 j| + |a2 i * a2 j| ≤ 9 := by
          rw [ha0, ha1, ha2]; interval_cases i <;> interval_cases j <;> norm_num
        have := mul_le_mul_of_nonneg_left this hκ
        simp only [key]
        linarith) (by
      intro x y; rw [hval, ht, hs, hl i hi, hl j hj]; ring)
    refine le_trans (le_of_eq ?_) (h.trans big)
    congr 1
    rw [ha0, ha1, ha2]
    interval_cases i <;> interval_cases j <;> norm_num <;> ring

/-- Auxiliary: an integrand that is a multiple of the test function. -/
theorem test_entry {addr : Type} [DecidableEq addr] (c : Call addr) (tri : Nat → P3 ℝ × P3 ℝ × P3 ℝ) (hv : c.Valid tri)
    (k e : Nat) (m : Mx ℝ) (hm : c.Returns k e m) (A B C : P3 ℝ) (htri : tri e = (A, B, C)) (κ : ℝ) (i j : Nat)
    (ho : 0 ≤ (c.trial e).order)
    (hval : ∀ x y, c.op.integrand (c.test e) (c.trial e) A B C i j x y = κ * ((c.test e).shape i (x, y)).v0) :
    (c.test e = constantShapeset → |m.e i j - κ * area A B C| ≤ 1 / 10 ^ 13 * (|κ| * area A B C)) ∧
    (c.test e = linearShapeset → i < 3 → |m.e i j - κ * area A B C / 3| ≤ 1 / 10 ^ 13 * (|κ| * area A B C)) := by
  have hpos : 0 < area A B C := by
    have := area_pos _ _ _ (hv.triangles e (List.mem_of_getElem? hm.1)).2.2
    rwa [htri] at this
  have big : 5 / 10 ^ 15 * (2 * area A B C * (9 * |κ|)) ≤ 1 / 10 ^ 13 * (|κ| * area A B C) := by
    have := mul_nonneg (abs_nonneg κ) hpos.le
    linarith
  have o0 : constantShapeset.order = 0 := rfl
  have o1 : linearShapeset.order = 1 := rfl
  have hκ := abs_nonneg κ
  constructor
  · intro ht
    have h := quadratic_entry c tri hv k e m hm i j A B C htri κ 0 0 0 0 0 (9 * |κ|) (by simp) (by simp)
      (by rw [ht, o0]; omega) (by simp only [abs_zero]; linarith) (by
      intro x y; rw [hval, ht]; simp only [constantShapeset]; ring)
    refine le_trans (le_of_eq ?_) (h.trans big)
    congr 1
    ring
  · intro ht hi
    have h := quadratic_entry c tri hv k e m hm i j A B C htri (if i = 0 then κ else 0) (if i = 0 then -κ else if i = 1 then κ else 0)
      (if i = 0 then -κ else if i = 1 then 0 else κ) 0 0 0 (9 * |κ|) (by rw [ht, o1]; right; omega) (by simp) (by rw [ht, o1]; omega)
      (by interval_cases i <;> norm_num <;> linarith) (by
      intro x y; rw [hval, ht]; simp only [linearShapeset]; interval_cases i <;> norm_num <;> ring)
    refine le_trans (le_of_eq ?_) (h.trans big)
    congr 1
    interval_cases i <;> norm_num <;> ring

/-- What the integrands mean: for `dim` components of the test function `f` and the trial function `h` at a point with normal `n`, the
inner product, the product of two components, or `f · (h × n)`. -/
noncomputable def combined (integrand : IntegrandName) (dim : Nat) (n : P3 ℝ) (f h : Nat → ℝ) : ℝ :=
  match integrand with
  | .simple_test_trial_integrand_functor => ∑ d ∈ Finset.range dim, f d * h d
  | .single_component_test_trial_integrand_functor a b => f a * h b
  | .maxwell_test_trial_integrand_functor => P3.dot ⟨f 0, f 1, f 2⟩ (P3.cross ⟨h 0, h 1, h 2⟩ n)

theorem maxwell_combined (dim : Nat) (n : P3 ℝ) (f h : Nat → ℝ) :
    maxwellIntegrand (comp n) f h = combined .maxwell_test_trial_integrand_functor dim n f h := by
  have h0 : comp n 0 = n.x := by simp [comp]
  have h1 : comp n 1 = n.y := by simp [comp]
  have h2 : comp n 2 = n.z := by simp [comp]
  simp only [combined, maxwellIntegrand, star_trivial, h0, h1, h2, P3.dot, P3.cross]
  ring

/-- **C117 (any functors)** Whatever functors an operator is made from (components must exist): on triangles, with shapesets whose orders add up to at most 20,
for any list of elements and any order of traversal, the assembly succeeds with one matrix per position, and each entry whose integrand
is a polynomial of degree at most the sum of the orders is the integral of the integrand functor applied to the test functor of the test
function and the trial functor of the trial function. -/
theorem C117_any {addr : Type} [DecidableEq addr] (c : Call addr) (tri : Nat → P3 ℝ × P3 ℝ × P3 ℝ) (test trial : FunctorName)
    (integrand : IntegrandName) (hop : c.op = operator_from_functors test trial integrand)
    (_inside : ∀ a b, integrand = .single_component_test_trial_integrand_functor a b →
      a < test.container.dim ∧ b < trial.container.dim)
    (triangles : ∀ e ∈ c.elements, IsTriangle c.mesh e (tri e).1 (tri e).2.1 (tri e).2.2)
    (orders : ∀ e ∈ c.elements, (c.test e).order + (c.trial e).order ≤ 20)
    (nodup : c.order.Nodup)
    (complete : ∀ v, v ∈ c.order ↔ ∃ e ∈ c.elements, v = (⟨3, (c.test e).order + (c.trial e).order⟩, c.testAt e, c.trialAt e))
    (old : c.old.length = c.elements.length) :
    c.Valid tri ∧ (∃ result, c.run = .ok result ∧ result.length = c.elements.length) ∧
    ∀ k e m, c.Returns k e m → m.rows = (c.test e).size ∧ m.cols = (c.trial e).size ∧
      ∀ i j (P : MvPolynomial (Fin 2) ℝ), (P.totalDegree : ℤ) ≤ (c.test e).order + (c.trial e).order →
        (∀ x y, value P x y =
          let g := fullData (tri e).1 (tri e).2.1 (tri e).2.2
          let f := test.container.evaluate ((c.test e).shape i (x, y)) g
          let h := trial.container.evaluate ((c.trial e).shape j (x, y)) g
          combined integrand test.container.dim g.normal f h) →
        |m.e i j - 2 * area (tri e).1 (tri e).2.1 (tri e).2.2 * triangleIntegral (value P)| ≤
          5 / 10 ^ 15 * (2 * area (tri e).1 (tri e).2.1 (tri e).2.2 * coeffNorm P) := by
  have hv : c.Valid tri := {
    test := by rw [hop]; exact container_isTransformation test
    trial := by rw [hop]; exact container_isTransformation trial
    functor := by rw [hop]; exact container_functor integrand
    triangles := triangles, orders := orders, nodup := nodup, complete := complete, old := old }
  obtain ⟨h1, h2⟩ := C76_elements c tri hv
  refine ⟨hv, h1, fun k e m hm => ⟨(h2 k e m hm).1, (h2 k e m hm).2.1, fun i j P hd hP => (h2 k e m hm).2.2 i j P hd ?_⟩⟩
  intro x y
  rw [hP x y, hop]
  cases integrand with
  | simple_test_trial_integrand_functor =>
    show _ = simpleIntegrand _ _ _
    rw [simpleIntegrand_eq]
    rfl
  | single_component_test_trial_integrand_functor a b => rfl
  | maxwell_test_trial_integrand_functor =>
    show _ = maxwellIntegrand (comp (fullData (tri e).1 (tri e).2.1 (tri e).2.2).normal)
      (test.container.evaluate ((c.test e).shape i (x, y)) (fullData (tri e).1 (tri e).2.1 (tri e).2.2))
      (trial.container.evaluate ((c.trial e).shape j (x, y)) (fullData (tri e).1 (tri e).2.1 (tri e).2.2))
    rw [maxwell_combined test.container.dim]

/-- **C117 (surface curl)** The operator `CURL_OP[a]` with piecewise linear trial functions: minus component `a` of the edge opposite to
the vertex of the trial function, a half of it for a constant and a sixth of it for a linear test function, up to 1e-13 of it. -/
theorem C117_curl {addr : Type} [DecidableEq addr] (c : Call addr) (tri : Nat → P3 ℝ × P3 ℝ × P3 ℝ) (hv : c.Valid tri)
    (a : Nat) (_ha : a < 3) (hop : c.op = curl_value_op a) (k e : Nat) (m : Mx ℝ) (hm : c.Returns k e m)
    (A B C : P3 ℝ) (htri : tri e = (A, B, C)) (hs : c.trial e = linearShapeset) :
    (c.test e = constantShapeset → m.rows = 1 ∧ m.cols = 3 ∧ ∀ j < 3,
      |m.e 0 j + comp (oppositeEdge A B C j) a / 2| ≤ 1 / 10 ^ 13 * |comp (oppositeEdge A B C j) a|) ∧
    (c.test e = linearShapeset → m.rows = 3 ∧ m.cols = 3 ∧ ∀ i < 3, ∀ j < 3,
      |m.e i j + comp (oppositeEdge A B C j) a / 6| ≤ 1 / 10 ^ 13 * |comp (oppositeEdge A B C j) a|) := by
  have hne : areaVector A B C ≠ ⟨0, 0, 0⟩ := by
    have := (hv.triangles e (List.mem_of_getElem? hm.1)).2.2
    rwa [htri] at this
  have hpos := area_pos A B C hne
  obtain ⟨hr, hc, -⟩ := (C76_elements c tri hv).2 k e m hm
  have hval : ∀ j < 3, ∀ i x y, c.op.integrand (c.test e) (c.trial e) A B C i j x y =
      -comp (oppositeEdge A B C j) a / (2 * area A B C) * ((c.test e).shape i (x, y)).v0 := by
    intro j hj i x y
    rw [hop, hs, ← curl_component A B C hne j hj (x, y) a, mul_comm]
    rfl
  have e1 : ∀ j, -comp (oppositeEdge A B C j) a / (2 * area A B C) * area A B C = -(comp (oppositeEdge A B C j) a / 2) := by
    intro j
    have := hpos.ne'
    field_simp
  have e2 : ∀ j, |-comp (oppositeEdge A B C j) a / (2 * area A B C)| * area A B C = |comp (oppositeEdge A B C j) a| / 2 := by
    intro j
    rw [abs_div, abs_neg, abs_of_pos (by linarith : 0 < 2 * area A B C)]
    have := hpos.ne'
    field_simp
  constructor
  · intro ht
    refine ⟨by rw [hr, ht]; rfl, by rw [hc, hs]; rfl, fun j hj => ?_⟩
    have h := (test_entry c tri hv k e m hm A B C htri _ 0 j (by rw [hs]; decide) (hval j hj 0)).1 ht
    rw [e1, e2] at h
    rw [sub_neg_eq_add] at h
    have := abs_nonneg (comp (oppositeEdge A B C j) a)
    linarith
  · intro ht
    refine ⟨by rw [hr, ht]; rfl, by rw [hc, hs]; rfl, fun i hi j hj => ?_⟩
    have h := (test_entry c tri hv k e m hm A B C htri _ i j (by rw [hs]; decide) (hval j hj i)).2 ht hi
    rw [e1, e2] at h
    have e3 : m.e i j - -(comp (oppositeEdge A B C j) a / 2) / 3 = m.e i j + comp (oppositeEdge A B C j) a / 6 := by ring
    rw [e3] at h
    have := abs_nonneg (comp (oppositeEdge A B C j) a)
    linarith

/-- **C117 (values times normals)** The operator `VALUE_TIMES_NORMAL[a]` is component `a` of the unit normal (that sees the corners
counterclockwise) times the mass matrix, up to 1e-13 of the area. -/
theorem C117_normal {addr : Type} [DecidableEq addr] (c : Call addr) (tri : Nat → P3 ℝ × P3 ℝ × P3 ℝ) (hv : c.Valid tri)
    (a : Nat) (_ha : a < 3) (hop : c.op = normal_op a) (k e : Nat) (m : Mx ℝ) (hm : c.Returns k e m) (A B C : P3 ℝ) (htri : tri e = (A, B, C)) :
    ∃ n, IsNormal A B C n ∧
    (c.test e = constantShapeset → c.trial e = constantShapeset →
      m.rows = 1 ∧ m.cols = 1 ∧ |m.e 0 0 - comp n a * area A B C| ≤ 1 / 10 ^ 13 * (|comp n a| * area A B C)) ∧
    (c.test e = constantShapeset → c.trial e = linearShapeset → m.rows = 1 ∧ m.cols = 3 ∧ ∀ j < 3,
      |m.e 0 j - comp n a * area A B C / 3| ≤ 1 / 10 ^ 13 * (|comp n a| * area A B C)) ∧
    (c.test e = linearShapeset → c.trial e = constantShapeset → m.rows = 3 ∧ m.cols = 1 ∧ ∀ i < 3,
      |m.e i 0 - comp n a * area A B C / 3| ≤ 1 / 10 ^ 13 * (|comp n a| * area A B C)) ∧
    (c.test e = linearShapeset → c.trial e = linearShapeset → m.rows = 3 ∧ m.cols = 3 ∧ ∀ i < 3, ∀ j < 3,
      |m.e i j - comp n a * area A B C / (if i = j then 6 else 12)| ≤ 1 / 10 ^ 13 * (|comp n a| * area A B C)) := by
  have hne : areaVector A B C ≠ ⟨0, 0, 0⟩ := by
    have := (hv.triangles e (List.mem_of_getElem? hm.1)).2.2
    rwa [htri] at this
  obtain ⟨hr, hc, -⟩ := (C76_elements c tri hv).2 k e m hm
  refine ⟨_, C71_normal A B C hne, ?_⟩
  have hval : ∀ i j x y, c.op.integrand (c.test e) (c.trial e) A B C i j x y =
      comp (fullData A B C).normal a * (((c.test e).shape i (x, y)).v0 * ((c.trial e).shape j (x, y)).v0) := by
    intro i j x y
    rw [hop]
    show ((c.test e).shape i (x, y)).v0 * comp (valueTimesNormal ((c.trial e).shape j (x, y)) (fullData A B C)) a = _
    unfold comp valueTimesNormal
    split_ifs <;> ring
  have P := fun i j => product_entry c tri hv k e m hm A B C htri (comp (fullData A B C).normal a) i j (hval i j)
  refine ⟨fun ht hs => ?_, fun ht hs => ?_, fun ht hs => ?_, fun ht hs => ?_⟩
  · exact ⟨by rw [hr, ht]; rfl, by rw [hc, hs]; rfl, (P 0 0).1 ht hs⟩
  · exact ⟨by rw [hr, ht]; rfl, by rw [hc, hs]; rfl, fun j hj => (P 0 j).2.1 ht hs hj⟩
  · exact ⟨by rw [hr, ht]; rfl, by rw [hc, hs]; rfl, fun i hi => (P i 0).2.2.1 ht hs hi⟩
  · exact ⟨by rw [hr, ht]; rfl, by rw [hc, hs]; rfl, fun i hi j hj => (P i j).2.2.2 ht hs hi hj⟩

/-- **C117 (projections are exact)** Take the mass matrix that the identity assembles between discontinuous linear functions on the
element, and the matrices of `CURL_OP[a]` and `VALUE_TIMES_NORMAL[a]`: the mass matrix applied to the constant function with the value
of component `a` of the curl (`-edge/(2 area)`) gives the column of `CURL_OP[a]`, and applied to the trial function times component `a`
of the normal it gives that of `VALUE_TIMES_NORMAL[a]`, up to 3e-13 of the edge and of the area.  So multiplying with the inverse of
the mass matrix, as the product of operators does, gives the curl and the normal component themselves. -/
theorem C117_projection {addr : Type} [DecidableEq addr] (c c' : Call addr) (tri : Nat → P3 ℝ × P3 ℝ × P3 ℝ) (hv : c.Valid tri)
    (hv' : c'.Valid tri) (hop' : c'.op = identity .scalar .scalar) (k k' e : Nat) (m m' : Mx ℝ) (hm : c.Returns k e m)
    (hm' : c'.Returns k' e m') (A B C : P3 ℝ) (htri : tri e = (A, B, C)) (ht : c.test e = linearShapeset)
    (hs : c.trial e = linearShapeset) (ht' : c'.test e = linearShapeset) (hs' : c'.trial e = linearShapeset) (a : Nat)
    (ha : a < 3) :
    (c.op = curl_value_op a → ∀ i < 3, ∀ j < 3,
      |m.e i j - ∑ l ∈ Finset.range 3, m'.e i l * (-comp (oppositeEdge A B C j) a / (2 * area A B C))| ≤
        3 / 10 ^ 13 * |comp (oppositeEdge A B C j) a|) ∧
    (c.op = normal_op a → ∃ n, IsNormal A B C n ∧ ∀ i < 3, ∀ j < 3,
      |m.e i j - ∑ l ∈ Finset.range 3, m'.e i l * (if l = j then comp n a else 0)| ≤
        3 / 10 ^ 13 * (|comp n a| * area A B C)) := by
  have hne : areaVector A B C ≠ ⟨0, 0, 0⟩ := by
    have := (hv.triangles e (List.mem_of_getElem? hm.1)).2.2
    rwa [htri] at this
  have hpos := area_pos A B C hne
  have hM := ((C76_mass c' tri hv' hop' k' e m' hm' A B C htri).2.2.2 ht' hs').2.2
  constructor
  · intro hop i hi j hj
    have h := ((C117_curl c tri hv a ha hop k e m hm A B C htri hs).2 ht).2.2 i hi j hj
    generalize comp (oppositeEdge A B C j) a = E at *
    have h0 := hM i hi 0 (by omega)
    have h1 := hM i hi 1 (by omega)
    have h2 := hM i hi 2 (by omega)
    simp only [Finset.sum_range_succ, Finset.sum_range_zero, zero_add]
    have hsum : |(m'.e i 0 + m'.e i 1 + m'.e i 2) - area A B C / 3| ≤ 3 / 10 ^ 13 * area A B C := by
      rw [abs_le] at h0 h1 h2 ⊢
      interval_cases i <;> norm_num at h0 h1 h2 ⊢ <;> constructor <;> linarith
    have e1 : m.e i j - (m'.e i 0 * (-E / (2 * area A B C)) + m'.e i 1 * (-E / (2 * area A B C)) + m'.e i 2 * (-E / (2 * area A B C))) =
        (m.e i j + E / 6) + (m'.e i 0 + m'.e i 1 + m'.e i 2 - area A B C / 3) * (E / (2 * area A B C)) := by
      have := hpos.ne'
      field_simp
      ring
    rw [e1]
    refine (abs_add_le _ _).trans ?_
    rw [abs_mul]
    have h3 := mul_le_mul_of_nonneg_right hsum (abs_nonneg (E / (2 * area A B C)))
    have e2 : 3 / 10 ^ 13 * area A B C * |E / (2 * area A B C)| = 3 / 2 / 10 ^ 13 * |E| := by
      rw [abs_div, abs_of_pos (by linarith : 0 < 2 * area A B C)]
      have := hpos.ne'
      field_simp
    rw [e2] at h3
    have := abs_nonneg E
    linarith
  · intro hop
    obtain ⟨n, hn, -, -, -, h⟩ := C117_normal c tri hv a ha hop k e m hm A B C htri
    refine ⟨n, hn, fun i hi j hj => ?_⟩
    have h := (h ht hs).2.2 i hi j hj
    have h0 := hM i hi j hj
    have e0 : ∑ l ∈ Finset.range 3, m'.e i l * (if l = j then comp n a else 0) = m'.e i j * comp n a := by
      interval_cases j <;> simp [Finset.sum_range_succ]
    rw [e0]
    generalize comp n a = ν at *
    generalize (if i = j then (6 : ℝ) else 12) = q at *
    have e1 : m.e i j - m'.e i j * ν = (m.e i j - ν * area A B C / q) - (m'.e i j - area A B C / q) * ν := by ring
    rw [e1]
    refine (abs_sub _ _).trans ?_
    rw [abs_mul]
    have h3 := mul_le_mul_of_nonneg_right h0 (abs_nonneg ν)
    have := mul_nonneg (abs_nonneg ν) hpos.le
    linarith

/-- **C117 (divergence and scalar curl)** The surface divergence of a Raviart-Thomas function and the scalar surface curl of a Nedelec
function are one over the area: tested with a constant they give 1, with a linear function a third, with themselves one over the area,
up to 1e-13 of it. -/
theorem C117_div_curl {addr : Type} [DecidableEq addr] (c : Call addr) (tri : Nat → P3 ℝ × P3 ℝ × P3 ℝ) (hv : c.Valid tri)
    (k e : Nat) (m : Mx ℝ) (hm : c.Returns k e m) (A B C : P3 ℝ) (htri : tri e = (A, B, C)) (f : FunctorName) (s : Shapeset)
    (hf : (f = .surface_divergence_functor ∧ s = raviartThomasShapeset) ∨ (f = .scalar_surface_curl_functor ∧ s = nedelecShapeset))
    (hs : c.trial e = s) :
    (c.op = operator_from_functors .scalar_function_value_functor f .simple_test_trial_integrand_functor → c.test e = constantShapeset →
      ∀ j < 3, |m.e 0 j - 1| ≤ 1 / 10 ^ 13) ∧
    (c.op = operator_from_functors .scalar_function_value_functor f .simple_test_trial_integrand_functor → c.test e = linearShapeset →
      ∀ i < 3, ∀ j < 3, |m.e i j - 1 / 3| ≤ 1 / 10 ^ 13) ∧
    (c.op = operator_from_functors f f .simple_test_trial_integrand_functor → c.test e = s →
      ∀ i < 3, ∀ j < 3, |m.e i j - 1 / area A B C| ≤ 1 / 10 ^ 13 * (1 / area A B C)) := by
  have hne : areaVector A B C ≠ ⟨0, 0, 0⟩ := by
    have := (hv.triangles e (List.mem_of_getElem? hm.1)).2.2
    rwa [htri] at this
  have hpos := area_pos A B C hne
  have hdim : f.container.dim = 1 := by rcases hf with ⟨rfl, -⟩ | ⟨rfl, -⟩ <;> rfl
  have hord : s.order = 1 := by rcases hf with ⟨-, rfl⟩ | ⟨-, rfl⟩ <;> rfl
  have hone : ∀ j < 3, ∀ p, f.container.evaluate (s.shape j p) (fullData A B C) 0 = 1 / area A B C := by
    intro j hj p
    have ha := hpos.ne'
    rcases hf with ⟨rfl, rfl⟩ | ⟨rfl, rfl⟩
    · show surfaceDiv (rtShape j p) (fullData A B C) = _
      unfold surfaceDiv rtShape
      rw [ie_eq]
      interval_cases j <;> simp <;> field_simp <;> norm_num
    · show hcurlSurfaceCurl (ncShape j p) (fullData A B C) = _
      rw [hcurlSurfaceCurl_eq A B C hne, ie_eq]
      unfold ncShape rotate rtShape
      interval_cases j <;> simp <;> field_simp <;> norm_num
  have habs : |1 / area A B C| * area A B C = 1 := by
    rw [abs_of_pos (by positivity)]
    have := hpos.ne'
    field_simp
  have hcancel : 1 / area A B C * area A B C = 1 := by
    have := hpos.ne'
    field_simp
  have hval : c.op = operator_from_functors .scalar_function_value_functor f .simple_test_trial_integrand_functor → ∀ j < 3, ∀ i x y,
      c.op.integrand (c.test e) (c.trial e) A B C i j x y = 1 / area A B C * ((c.test e).shape i (x, y)).v0 := by
    intro hop j hj i x y
    rw [hop, hs]
    show simpleIntegrand 1 _ _ = _
    rw [simpleIntegrand_eq, Finset.sum_range_one, star_trivial, mul_comm, ← hone j hj (x, y)]
    rfl
  refine ⟨fun hop ht j hj => ?_, fun hop ht i hi j hj => ?_, fun hop ht i hi j hj => ?_⟩
  · have h := (test_entry c tri hv k e m hm A B C htri _ 0 j (by rw [hs, hord]; decide) (hval hop j hj 0)).1 ht
    rw [habs, hcancel, mul_one] at h
    exact h
  · have h := (test_entry c tri hv k e m hm A B C htri _ i j (by rw [hs, hord]; decide) (hval hop j hj i)).2 ht hi
    rw [habs, hcancel, mul_one] at h
    exact h
  · have h := quadratic_entry c tri hv k e m hm i j A B C htri ((1 / area A B C) ^ 2) 0 0 0 0 0 ((1 / area A B C) ^ 2) (by simp) (by simp)
      (by rw [hs, ht, hord]; decide) (by simp) (by
        intro x y
        rw [hop, hs, ht]
        show simpleIntegrand f.container.dim _ _ = _
        rw [hdim, simpleIntegrand_eq, Finset.sum_range_one, star_trivial]
        have h1 := hone i hi (x, y)
        have h2 := hone j hj (x, y)
        show f.container.evaluate _ _ 0 * f.container.evaluate _ _ 0 = _
        rw [h1, h2]
        ring)
    have e1 : 2 * area A B C * ((1 / area A B C) ^ 2 / 2 + 0 / 6 + 0 / 6 + 0 / 12 + 0 / 24 + 0 / 12) = 1 / area A B C := by
      have := hpos.ne'
      field_simp
      ring
    have e2 : 5 / 10 ^ 15 * (2 * area A B C * (1 / area A B C) ^ 2) = 1 / 10 ^ 14 * (1 / area A B C) := by
      have := hpos.ne'
      field_simp
      norm_num
    rw [e1, e2] at h
    have : 0 < 1 / area A B C := by positivity
    linarith

/-- **C117 (the sparse operators)** `identity`, `_maxwell_identity` and `laplace_beltrami` are, with the dual space on the test and the
domain on the trial side, the operators of the C++ library, for which C76 holds. -/
theorem C117_sparse (domain dual : PySpace.Functor) :
    identity domain dual = identityOperator (evaluation_functor dual).container (evaluation_functor domain).container ∧
    maxwell_identity domain dual = maxwellIdentityOperator (evaluation_functor dual).container (evaluation_functor domain).container ∧
    laplace_beltrami = laplaceBeltramiOperator ∧
    (evaluation_functor .scalar).container = scalarValueT ∧ (evaluation_functor .hdiv).container = hdivT ∧
    (evaluation_functor .hcurl).container = hcurlT := ⟨rfl, rfl, rfl, rfl, rfl, rfl⟩

/-- The hypotheses hold for calls with each of these operators. -/
example (op : Operator) (test trial : FunctorName) (integrand : IntegrandName) (h : op = operator_from_functors test trial integrand) :
    (exampleCall op linearShapeset).Valid (fun e => (⟨0, 0, (e : ℝ)⟩, ⟨1, 0, (e : ℝ)⟩, ⟨0, 1, (e : ℝ)⟩)) ∧
    ∃ m, (exampleCall op linearShapeset).Returns 1 1 m := by
  have hv : (exampleCall op linearShapeset).Valid (fun e => (⟨0, 0, (e : ℝ)⟩, ⟨1, 0, (e : ℝ)⟩, ⟨0, 1, (e : ℝ)⟩)) := by
    refine exampleCall_valid op linearShapeset ?_ ?_ ?_ (by decide)
    · rw [h]; exact container_isTransformation test
    · rw [h]; exact container_isTransformation trial
    · rw [h]; exact container_functor integrand
  obtain ⟨r, hr, hl⟩ := (C76_elements _ _ hv).1
  have : 1 < r.length := by rw [hl]; show 1 < 3; decide
  exact ⟨hv, r[1], rfl, r, hr, List.getElem?_eq_getElem this⟩

/-- On the triangle (0,0,0), (1,0,0), (0,1,0) the curl of the second function is the unit vector in direction y: `CURL_OP[1]`. -/
example (m : Mx ℝ) (h : (exampleCall (curl_value_op 1) linearShapeset).Returns 0 0 m) : |m.e 2 1 - 1 / 6| ≤ 1 / 10 ^ 13 := by
  have hv := exampleCall_valid (curl_value_op 1) linearShapeset
    (container_isTransformation .scalar_function_value_functor) (container_isTransformation .vector_surface_curl_functor)
    (container_functor (.single_component_test_trial_integrand_functor 0 1)) (by decide)
  have := ((C117_curl _ _ hv 1 (by decide) rfl 0 0 m h _ _ _ rfl rfl).2 rfl).2.2 2 (by decide) 1 (by decide)
  simp only [oppositeEdge, comp, P3.sub] at this
  norm_num at this ⊢
  refine le_trans (le_of_eq ?_) this
  congr 1

end Verif.LocalOps
