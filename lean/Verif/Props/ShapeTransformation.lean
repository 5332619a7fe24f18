import Verif.Spec.ShapeTransformation
import Mathlib.Tactic.Ring
import Mathlib.Tactic.FieldSimp
import Mathlib.Tactic.LinearCombination
import Mathlib.Tactic.NormNum
/-
Property C71: the geometrical data and the shape function transformations on a flat triangle mean what their names say.
-/
namespace Verif.Shape
open Verif.Grid

/-- The data that `getData` computes when everything is requested. -/
noncomputable def fullData (A B C : P3 ℝ) : GeomData :=
  let j := jacobianTransposed A B C
  ⟨j.1, j.2, (jacobianInverseTransposed j).1, (jacobianInverseTransposed j).2, integrationElement j, calculateNormals j.1 j.2⟩

/-- Whatever data were in the structure before, requesting everything gives the data of the triangle. -/
theorem getData_all (A B C : P3 ℝ) (old : GeomData) : getData A B C ⟨true, true, true, true⟩ old = fullData A B C := rfl

/-- `|a|²|b|² - (a·b)²`. -/
noncomputable def gram (a b : P3 ℝ) : ℝ := a.dot a * b.dot b - a.dot b * a.dot b

theorem gram_eq (a b : P3 ℝ) : gram a b = (a.cross b).dot (a.cross b) := by
  simp only [gram, P3.dot, P3.cross]; ring

theorem dot_self_nonneg (a : P3 ℝ) : 0 ≤ a.dot a := by
  simp only [P3.dot]; nlinarith [mul_self_nonneg a.x, mul_self_nonneg a.y, mul_self_nonneg a.z]

theorem dot_self_pos (a : P3 ℝ) (h : a ≠ ⟨0, 0, 0⟩) : 0 < a.dot a := by
  rcases lt_or_eq_of_le (dot_self_nonneg a) with h1 | h1
  · exact h1
  · exfalso
    apply h
    simp only [P3.dot] at h1
    have hx : a.x = 0 := by nlinarith [mul_self_nonneg a.x, mul_self_nonneg a.y, mul_self_nonneg a.z]
    have hy : a.y = 0 := by nlinarith [mul_self_nonneg a.x, mul_self_nonneg a.y, mul_self_nonneg a.z]
    have hz : a.z = 0 := by nlinarith [mul_self_nonneg a.x, mul_self_nonneg a.y, mul_self_nonneg a.z]
    cases a
    simp only at hx hy hz
    rw [hx, hy, hz]

theorem areaVector_eq (A B C : P3 ℝ) : areaVector A B C = (B.sub A).cross (C.sub A) := rfl

section
variable (A B C : P3 ℝ) (h : areaVector A B C ≠ ⟨0, 0, 0⟩)
include h

theorem gram_pos : 0 < gram (B.sub A) (C.sub A) := by
  rw [gram_eq, ← areaVector_eq]; exact dot_self_pos _ h

theorem ie_pos : 0 < (fullData A B C).integrationElement := Real.sqrt_pos.mpr (gram_pos A B C h)

theorem ie_sq : (fullData A B C).integrationElement ^ 2 = gram (B.sub A) (C.sub A) :=
  Real.sq_sqrt (gram_pos A B C h).le

theorem normal_eq : (fullData A B C).normal =
    ⟨(areaVector A B C).x / (fullData A B C).integrationElement, (areaVector A B C).y / (fullData A B C).integrationElement,
     (areaVector A B C).z / (fullData A B C).integrationElement⟩ := by
  have e : (fullData A B C).integrationElement = Real.sqrt (0 + (areaVector A B C).x * (areaVector A B C).x +
      (areaVector A B C).y * (areaVector A B C).y + (areaVector A B C).z * (areaVector A B C).z) := by
    show Real.sqrt (gram (B.sub A) (C.sub A)) = _
    rw [gram_eq, ← areaVector_eq, P3.dot, zero_add]
  rw [e]
  simp only [fullData, calculateNormals, jacobianTransposed, areaVector, P3.sub, P3.mk.injEq]
  refine ⟨?_, ?_, ?_⟩ <;> ring

/-- **C71 (integration element)** is the area of the parallelogram spanned by two edges: twice the area of the triangle. -/
theorem C71_integration_element : 0 < (fullData A B C).integrationElement ∧
    (fullData A B C).integrationElement = Real.sqrt ((areaVector A B C).dot (areaVector A B C)) := by
  refine ⟨ie_pos A B C h, ?_⟩
  show Real.sqrt (gram (B.sub A) (C.sub A)) = _
  rw [gram_eq, ← areaVector_eq]

/-- **C71 (normal)** The normal is the unit normal of the triangle, on the side from which its corners are seen
counterclockwise. -/
theorem C71_normal : IsNormal A B C (fullData A B C).normal := by
  have hi := ie_pos A B C h
  have hs := ie_sq A B C h
  rw [gram_eq, ← areaVector_eq] at hs
  rw [normal_eq A B C h]
  generalize (fullData A B C).integrationElement = i at *
  refine ⟨?_, ?_, ?_⟩
  · simp only [P3.dot] at hs ⊢
    field_simp
    linarith
  · intro s t
    simp only [P3.dot, displacement, areaVector]
    field_simp
    ring
  · have : (areaVector A B C).dot ⟨(areaVector A B C).x / i, (areaVector A B C).y / i, (areaVector A B C).z / i⟩ = i := by
      simp only [P3.dot] at hs ⊢
      field_simp
      linarith
    rw [this]; exact hi

/-- The columns of the right inverse are the dual basis of the edges. -/
theorem dual : let d := fullData A B C
    d.jit0.dot d.jt0 = 1 ∧ d.jit0.dot d.jt1 = 0 ∧ d.jit1.dot d.jt0 = 0 ∧ d.jit1.dot d.jt1 = 1 ∧
    d.jit0.dot d.normal = 0 ∧ d.jit1.dot d.normal = 0 := by
  have hg := gram_pos A B C h
  have hi := ie_pos A B C h
  intro d
  have hn : d.normal = _ := normal_eq A B C h
  rw [hn]
  have hi' : d.integrationElement ≠ 0 := hi.ne'
  simp only [d, fullData, jacobianInverseTransposed, jacobianTransposed] at hi' ⊢
  generalize integrationElement (B.sub A, C.sub A) = i at *
  rw [areaVector_eq]
  generalize B.sub A = a at *
  generalize C.sub A = b at *
  simp only [gram] at hg
  have hg' := hg.ne'
  clear hg hn
  generalize hD : a.dot a * b.dot b - a.dot b * a.dot b = D at *
  refine ⟨?_, ?_, ?_, ?_, ?_, ?_⟩ <;> simp only [P3.dot, P3.cross] at hD ⊢ <;> field_simp <;> (try rw [← hD]) <;> ring

/-- `jit0 × jit1 = n / |a × b|`. -/
theorem dual_cross : (fullData A B C).jit0.cross (fullData A B C).jit1 =
    P3.smul (1 / (fullData A B C).integrationElement) (fullData A B C).normal := by
  have hg := (gram_pos A B C h).ne'
  have hs := ie_sq A B C h
  have hi := (ie_pos A B C h).ne'
  rw [normal_eq A B C h]
  generalize (fullData A B C).integrationElement = i at *
  have key : ∀ x : ℝ, 1 / i * (x / i) = x / gram (B.sub A) (C.sub A) := by
    intro x; rw [← hs]; field_simp
  simp only [P3.smul, key]
  simp only [fullData, jacobianInverseTransposed, jacobianTransposed, areaVector_eq]
  generalize B.sub A = a at *
  generalize C.sub A = b at *
  simp only [gram] at hg ⊢
  generalize hD : a.dot a * b.dot b - a.dot b * a.dot b = D at *
  simp only [P3.cross, P3.mk.injEq]
  refine ⟨?_, ?_, ?_⟩ <;> field_simp <;> rw [← hD] <;> ring

/-- A vector orthogonal to both edges and to the normal is zero. -/
theorem eq_of_dots (u w : P3 ℝ) (h0 : u.dot (fullData A B C).jt0 = w.dot (fullData A B C).jt0)
    (h1 : u.dot (fullData A B C).jt1 = w.dot (fullData A B C).jt1)
    (h2 : u.dot (fullData A B C).normal = w.dot (fullData A B C).normal) : u = w := by
  have hi := (ie_pos A B C h).ne'
  have hgr := (gram_pos A B C h).ne'
  rw [normal_eq A B C h] at h2
  have e0 : (fullData A B C).jt0 = B.sub A := rfl
  have e1 : (fullData A B C).jt1 = C.sub A := rfl
  rw [e0] at h0
  rw [e1] at h1
  rw [gram_eq] at hgr
  rw [areaVector_eq] at h2
  generalize (fullData A B C).integrationElement = i at *
  generalize B.sub A = a at *
  generalize C.sub A = b at *
  have h3 : (u.dot (a.cross b)) = w.dot (a.cross b) := by
    simp only [P3.dot] at h2 ⊢
    field_simp at h2
    linarith
  clear h2
  have hx : (u.x - w.x) * (a.cross b).dot (a.cross b) = 0 := by
    simp only [P3.dot, P3.cross] at *
    linear_combination (b.y * (a.x * b.y - a.y * b.x) - b.z * (a.z * b.x - a.x * b.z)) * h0 +
      (a.z * (a.z * b.x - a.x * b.z) - a.y * (a.x * b.y - a.y * b.x)) * h1 + (a.y * b.z - a.z * b.y) * h3
  have hy : (u.y - w.y) * (a.cross b).dot (a.cross b) = 0 := by
    simp only [P3.dot, P3.cross] at *
    linear_combination (b.z * (a.y * b.z - a.z * b.y) - b.x * (a.x * b.y - a.y * b.x)) * h0 +
      (a.x * (a.x * b.y - a.y * b.x) - a.z * (a.y * b.z - a.z * b.y)) * h1 + (a.z * b.x - a.x * b.z) * h3
  have hz : (u.z - w.z) * (a.cross b).dot (a.cross b) = 0 := by
    simp only [P3.dot, P3.cross] at *
    linear_combination (b.x * (a.z * b.x - a.x * b.z) - b.y * (a.y * b.z - a.z * b.y)) * h0 +
      (a.y * (a.y * b.z - a.z * b.y) - a.x * (a.z * b.x - a.x * b.z)) * h1 + (a.x * b.y - a.y * b.x) * h3
  have e : ∀ q : ℝ, q * (a.cross b).dot (a.cross b) = 0 → q = 0 := fun q hq => (mul_eq_zero.mp hq).resolve_right hgr
  have := e _ hx
  have := e _ hy
  have := e _ hz
  cases u; cases w
  simp only [P3.mk.injEq] at *
  refine ⟨?_, ?_, ?_⟩ <;> linarith

omit h in
theorem dot_displacement (w : P3 ℝ) (s t : ℝ) : w.dot (displacement A B C s t) =
    s * w.dot (fullData A B C).jt0 + t * w.dot (fullData A B C).jt1 := by
  simp only [P3.dot, displacement, fullData, jacobianTransposed, P3.sub]; ring

omit h in
theorem dots_of_displacement (w : P3 ℝ) (p q : ℝ) (hw : ∀ s t, w.dot (displacement A B C s t) = p * s + q * t) :
    w.dot (fullData A B C).jt0 = p ∧ w.dot (fullData A B C).jt1 = q := by
  have h1 := hw 1 0
  have h2 := hw 0 1
  rw [dot_displacement] at h1 h2
  constructor <;> linarith

/-- **C71 (surface gradient)** The surface gradient of a function with reference derivatives `d00, d01` is the only vector
whose product with every displacement in the triangle is the first-order change of the function, and that is tangential. -/
theorem C71_surface_grad (b : BasisAt) (G : P3 ℝ) : surfaceGrad b (fullData A B C) = G ↔
    (∀ s t, G.dot (displacement A B C s t) = b.d00 * s + b.d01 * t) ∧ G.dot (fullData A B C).normal = 0 := by
  obtain ⟨d1, d2, d3, d4, d5, d6⟩ := dual A B C h
  have key : (∀ s t, (surfaceGrad b (fullData A B C)).dot (displacement A B C s t) = b.d00 * s + b.d01 * t) ∧
      (surfaceGrad b (fullData A B C)).dot (fullData A B C).normal = 0 := by
    constructor
    · intro s t
      rw [dot_displacement]
      simp only [P3.dot, surfaceGrad] at *
      linear_combination s * b.d00 * d1 + s * b.d01 * d3 + t * b.d00 * d2 + t * b.d01 * d4
    · simp only [P3.dot, surfaceGrad] at *
      linear_combination b.d00 * d5 + b.d01 * d6
  constructor
  · rintro rfl; exact key
  · rintro ⟨k1, k2⟩
    obtain ⟨p1, p2⟩ := dots_of_displacement A B C _ _ _ k1
    obtain ⟨q1, q2⟩ := dots_of_displacement A B C _ _ _ key.1
    exact eq_of_dots A B C h _ _ (q1.trans p1.symm) (q2.trans p2.symm) (key.2.trans k2.symm)

/-- **C71 (H(curl) values)** The value of an H(curl) function is the only tangential vector whose circulation along every
displacement is that of the reference function. -/
theorem C71_hcurl_value (b : BasisAt) (U : P3 ℝ) : hcurlValue b (fullData A B C) = U ↔
    (∀ s t, U.dot (displacement A B C s t) = b.v0 * s + b.v1 * t) ∧ U.dot (fullData A B C).normal = 0 := by
  have := C71_surface_grad A B C h ⟨0, 0, b.v0, b.v1, 0, 0⟩ U
  have e : hcurlValue b (fullData A B C) = surfaceGrad ⟨0, 0, b.v0, b.v1, 0, 0⟩ (fullData A B C) := by
    simp only [hcurlValue, surfaceGrad, mul_comm]
  rw [e]
  exact this

omit h in
theorem hdiv_tangential (b : BasisAt) : (hdivValue b (fullData A B C)) =
    displacement A B C (b.v0 / (fullData A B C).integrationElement) (b.v1 / (fullData A B C).integrationElement) := by
  simp only [hdivValue, displacement, P3.mk.injEq, fullData, jacobianTransposed, P3.sub]
  refine ⟨?_, ?_, ?_⟩ <;> ring

/-- **C71 (H(div) values)** The value of an H(div) function is the only tangential vector whose flux across every
displacement `d` in the triangle (to the right of `d` seen from the side of the normal: along `d × n`) is the flux of the
reference function across the reference displacement. -/
theorem C71_hdiv_value (b : BasisAt) (U : P3 ℝ) : hdivValue b (fullData A B C) = U ↔
    (∀ s t, U.dot ((displacement A B C s t).cross (fullData A B C).normal) = b.v0 * t - b.v1 * s) ∧
      U.dot (fullData A B C).normal = 0 := by
  have hn := C71_normal A B C h
  have hi := (ie_pos A B C h).ne'
  have hs := ie_sq A B C h
  have hne := normal_eq A B C h
  -- flux across the edges
  have f0 : ((fullData A B C).jt1.cross (fullData A B C).normal).dot (fullData A B C).jt0 =
      (fullData A B C).integrationElement := by
    rw [hne]
    have e0 : (fullData A B C).jt0 = B.sub A := rfl
    have e1 : (fullData A B C).jt1 = C.sub A := rfl
    rw [e0, e1, areaVector_eq]
    rw [gram_eq] at hs
    generalize (fullData A B C).integrationElement = i at *
    generalize B.sub A = a at *
    generalize C.sub A = b at *
    simp only [P3.dot, P3.cross] at hs ⊢
    field_simp
    rw [hs]; ring
  have anti : ∀ u v n : P3 ℝ, (u.cross n).dot v = -(v.cross n).dot u := by
    intro u v n; simp only [P3.dot, P3.cross]; ring
  have self : ∀ u n : P3 ℝ, (u.cross n).dot u = 0 := by intro u n; simp only [P3.dot, P3.cross]; ring
  have key : (∀ s t, (hdivValue b (fullData A B C)).dot ((displacement A B C s t).cross (fullData A B C).normal) =
      b.v0 * t - b.v1 * s) ∧ (hdivValue b (fullData A B C)).dot (fullData A B C).normal = 0 := by
    constructor
    · intro s t
      have f1 := anti (fullData A B C).jt0 (fullData A B C).jt1 (fullData A B C).normal
      rw [f0] at f1
      have s0 := self (fullData A B C).jt0 (fullData A B C).normal
      have s1 := self (fullData A B C).jt1 (fullData A B C).normal
      have hd : displacement A B C s t = ⟨s * (fullData A B C).jt0.x + t * (fullData A B C).jt1.x,
          s * (fullData A B C).jt0.y + t * (fullData A B C).jt1.y, s * (fullData A B C).jt0.z + t * (fullData A B C).jt1.z⟩ := rfl
      rw [hd]
      simp only [hdivValue]
      generalize (fullData A B C).normal = n at *
      generalize (fullData A B C).jt0 = a at *
      generalize (fullData A B C).jt1 = c at *
      generalize (fullData A B C).integrationElement = i at *
      simp only [P3.dot, P3.cross] at *
      field_simp
      linear_combination (b.v0 * s) * s0 + (b.v0 * t) * f0 + b.v1 * s * f1 + b.v1 * t * s1
    · rw [hdiv_tangential]
      have := hn.orthogonal (b.v0 / (fullData A B C).integrationElement) (b.v1 / (fullData A B C).integrationElement)
      have sym : ∀ u v : P3 ℝ, u.dot v = v.dot u := by intro u v; simp only [P3.dot]; ring
      rw [sym]; exact this
  constructor
  · rintro rfl; exact key
  · rintro ⟨k1, k2⟩
    have o0 := hn.orthogonal 1 0
    have o1 := hn.orthogonal 0 1
    have e10 : displacement A B C 1 0 = (fullData A B C).jt0 := by
      simp [displacement, fullData, jacobianTransposed, P3.sub]
    have e01 : displacement A B C 0 1 = (fullData A B C).jt1 := by
      simp [displacement, fullData, jacobianTransposed, P3.sub]
    have p0 := key.1 1 0
    have p1 := key.1 0 1
    have q0 := k1 1 0
    have q1 := k1 0 1
    rw [e10] at p0 q0 o0
    rw [e01] at p1 q1 o1
    have hu := hn.unit
    -- an edge is a combination of the rotated edges
    have dec : ∀ W W' : P3 ℝ, W.dot ((fullData A B C).jt0.cross (fullData A B C).normal) =
        W'.dot ((fullData A B C).jt0.cross (fullData A B C).normal) →
        W.dot ((fullData A B C).jt1.cross (fullData A B C).normal) =
        W'.dot ((fullData A B C).jt1.cross (fullData A B C).normal) →
        W.dot (fullData A B C).normal = W'.dot (fullData A B C).normal → W = W' := by
      intro W W' w0 w1 w2
      -- rotate by the normal: `n × W` has the products with the edges
      have r0 : ((fullData A B C).normal.cross W).dot (fullData A B C).jt0 =
          ((fullData A B C).normal.cross W').dot (fullData A B C).jt0 := by
        simp only [P3.dot, P3.cross] at w0 ⊢; linear_combination w0
      have r1 : ((fullData A B C).normal.cross W).dot (fullData A B C).jt1 =
          ((fullData A B C).normal.cross W').dot (fullData A B C).jt1 := by
        simp only [P3.dot, P3.cross] at w1 ⊢; linear_combination w1
      have r2 : ((fullData A B C).normal.cross W).dot (fullData A B C).normal =
          ((fullData A B C).normal.cross W').dot (fullData A B C).normal := by
        simp only [P3.dot, P3.cross]; ring
      have r := eq_of_dots A B C h _ _ r0 r1 r2
      generalize (fullData A B C).normal = n at *
      have c := congrArg (fun u : P3 ℝ => u.cross n) r
      -- (n × W) × n = W - (W·n) n
      have triple : ∀ W : P3 ℝ, (n.cross W).cross n =
          ⟨W.x * n.dot n - n.x * W.dot n, W.y * n.dot n - n.y * W.dot n, W.z * n.dot n - n.z * W.dot n⟩ := by
        intro W; simp only [P3.dot, P3.cross, P3.mk.injEq]; refine ⟨?_, ?_, ?_⟩ <;> ring
      simp only [triple, P3.mk.injEq, hu, w2] at c
      cases W; cases W'
      simp only [P3.mk.injEq] at *
      refine ⟨?_, ?_, ?_⟩ <;> linarith [c.1, c.2.1, c.2.2]
    exact dec _ _ (p0.trans q0.symm) (p1.trans q1.symm) (key.2.trans k2.symm)

/-- Rows of a matrix in terms of its products with the edges and the normal. -/
theorem rows (r : P3 ℝ) : r =
    ⟨r.dot (fullData A B C).jt0 * (fullData A B C).jit0.x + r.dot (fullData A B C).jt1 * (fullData A B C).jit1.x +
        r.dot (fullData A B C).normal * (fullData A B C).normal.x,
     r.dot (fullData A B C).jt0 * (fullData A B C).jit0.y + r.dot (fullData A B C).jt1 * (fullData A B C).jit1.y +
        r.dot (fullData A B C).normal * (fullData A B C).normal.y,
     r.dot (fullData A B C).jt0 * (fullData A B C).jit0.z + r.dot (fullData A B C).jt1 * (fullData A B C).jit1.z +
        r.dot (fullData A B C).normal * (fullData A B C).normal.z⟩ := by
  obtain ⟨d1, d2, d3, d4, d5, d6⟩ := dual A B C h
  have hn := C71_normal A B C h
  have o0 := hn.orthogonal 1 0
  have o1 := hn.orthogonal 0 1
  rw [dot_displacement] at o0 o1
  have hu := hn.unit
  refine eq_of_dots A B C h _ _ ?_ ?_ ?_
  all_goals
    generalize (fullData A B C).normal = n at *
    generalize (fullData A B C).jt0 = a at *
    generalize (fullData A B C).jt1 = b at *
    generalize (fullData A B C).jit0 = c0 at *
    generalize (fullData A B C).jit1 = c1 at *
    generalize hra : r.dot a = ra at *
    generalize hrb : r.dot b = rb at *
    generalize hrn : r.dot n = rn at *
    simp only [P3.dot] at *
  · linear_combination -ra * d1 - rb * d3 - rn * o0
  · linear_combination -ra * d2 - rb * d4 - rn * o1
  · linear_combination -ra * d5 - rb * d6 - rn * hu

/-- **C71 (surface divergence)** Let `m` be the Jacobian matrix in space of an H(div) function with reference derivatives
`dij`, extended so that it does not change in the direction of the normal: along a displacement `(s, t)` the function changes
like the Piola transform of the change of the reference function.  Then the surface divergence is the divergence of `m`. -/
theorem C71_surface_div (b : BasisAt) (m : Mat3)
    (htan : ∀ s t, m.mulVec (displacement A B C s t) =
      hdivValue ⟨b.d00 * s + b.d01 * t, b.d10 * s + b.d11 * t, 0, 0, 0, 0⟩ (fullData A B C))
    (hnorm : m.mulVec (fullData A B C).normal = ⟨0, 0, 0⟩) : surfaceDiv b (fullData A B C) = m.div := by
  obtain ⟨d1, d2, d3, d4, d5, d6⟩ := dual A B C h
  have hi := (ie_pos A B C h).ne'
  have e10 : displacement A B C 1 0 = (fullData A B C).jt0 := by
    simp [displacement, fullData, jacobianTransposed, P3.sub]
  have e01 : displacement A B C 0 1 = (fullData A B C).jt1 := by
    simp [displacement, fullData, jacobianTransposed, P3.sub]
  have p0 := htan 1 0
  have p1 := htan 0 1
  rw [e10] at p0
  rw [e01] at p1
  simp only [Mat3.mulVec, hdivValue, P3.mk.injEq, mul_one, mul_zero, add_zero, zero_add] at p0 p1 hnorm
  unfold Mat3.div surfaceDiv
  rw [rows A B C h m.r0, rows A B C h m.r1, rows A B C h m.r2, p0.1, p0.2.1, p0.2.2, p1.1, p1.2.1, p1.2.2,
    hnorm.1, hnorm.2.1, hnorm.2.2]
  simp only [P3.dot] at d1 d2 d3 d4
  field_simp
  linear_combination -b.d00 * d1 - b.d10 * d2 - b.d01 * d3 - b.d11 * d4

theorem hcurlSurfaceCurl_eq (b : BasisAt) :
    hcurlSurfaceCurl b (fullData A B C) = (b.d10 - b.d01) / (fullData A B C).integrationElement := by
  have hc := dual_cross A B C h
  have hu := (C71_normal A B C h).unit
  have hx := congrArg P3.x hc
  have hy := congrArg P3.y hc
  have hz := congrArg P3.z hc
  unfold hcurlSurfaceCurl
  generalize (fullData A B C).normal = n at *
  generalize (fullData A B C).integrationElement = i at *
  simp only [P3.cross, P3.smul, P3.dot] at hx hy hz hu ⊢
  rw [div_eq_mul_one_div]
  linear_combination (b.d10 - b.d01) * (n.x * hx + n.y * hy + n.z * hz) + (b.d10 - b.d01) * (1 / i) * hu

/-- **C71 (surface curl of H(curl) functions)** The same for H(curl) functions: the functor gives the normal component of the
curl of `m`; in terms of reference derivatives it is `(d10 - d01) / integrationElement`. -/
theorem C71_hcurl_surface_curl (b : BasisAt) (m : Mat3)
    (htan : ∀ s t, m.mulVec (displacement A B C s t) =
      hcurlValue ⟨b.d00 * s + b.d01 * t, b.d10 * s + b.d11 * t, 0, 0, 0, 0⟩ (fullData A B C))
    (hnorm : m.mulVec (fullData A B C).normal = ⟨0, 0, 0⟩) :
    hcurlSurfaceCurl b (fullData A B C) = m.curl.dot (fullData A B C).normal ∧
    hcurlSurfaceCurl b (fullData A B C) = (b.d10 - b.d01) / (fullData A B C).integrationElement := by
  have e10 : displacement A B C 1 0 = (fullData A B C).jt0 := by
    simp [displacement, fullData, jacobianTransposed, P3.sub]
  have e01 : displacement A B C 0 1 = (fullData A B C).jt1 := by
    simp [displacement, fullData, jacobianTransposed, P3.sub]
  have p0 := htan 1 0
  have p1 := htan 0 1
  rw [e10] at p0
  rw [e01] at p1
  simp only [Mat3.mulVec, hcurlValue, P3.mk.injEq, mul_one, mul_zero, add_zero, zero_add] at p0 p1 hnorm
  constructor
  · unfold Mat3.curl hcurlSurfaceCurl
    rw [rows A B C h m.r0, rows A B C h m.r1, rows A B C h m.r2, p0.1, p0.2.1, p0.2.2, p1.1, p1.2.1, p1.2.2,
      hnorm.1, hnorm.2.1, hnorm.2.2]
    simp only [P3.dot]
    ring
  · exact hcurlSurfaceCurl_eq A B C h b

/-- **C71 (surface curl of scalar functions)** is the surface gradient rotated by a right angle: `n × grad`. -/
theorem C71_surface_curl (b : BasisAt) :
    surfaceCurl b (fullData A B C) = (fullData A B C).normal.cross (surfaceGrad b (fullData A B C)) ∧
    (∀ s t, (surfaceCurl b (fullData A B C)).dot ((displacement A B C s t).cross (fullData A B C).normal) =
      -(b.d00 * s + b.d01 * t)) := by
  refine ⟨rfl, ?_⟩
  intro s t
  have hg := ((C71_surface_grad A B C h b _).mp rfl)
  have h1 := hg.1 s t
  have h2 := hg.2
  have hn := C71_normal A B C h
  have h3 := hn.orthogonal s t
  have hu := hn.unit
  rw [show surfaceCurl b (fullData A B C) = (fullData A B C).normal.cross (surfaceGrad b (fullData A B C)) from rfl]
  generalize (fullData A B C).normal = n at *
  generalize displacement A B C s t = d at *
  generalize surfaceGrad b (fullData A B C) = G at *
  simp only [P3.dot, P3.cross] at *
  linear_combination (-1 : ℝ) * (n.x * n.x + n.y * n.y + n.z * n.z) * h1 + (-(b.d00 * s + b.d01 * t)) * hu +
    (n.x * d.x + n.y * d.y + n.z * d.z) * h2

/-- **C71 (rotation)** The H(curl) value of the rotated reference function `(-v1, v0)` is the H(div) value of `(v0, v1)`
rotated by a right angle about the normal, and `hdivToHcurl` rotates the other way. -/
theorem C71_rotation (b : BasisAt) :
    hcurlValue ⟨-b.v1, b.v0, 0, 0, 0, 0⟩ (fullData A B C) = (fullData A B C).normal.cross (hdivValue b (fullData A B C)) ∧
    hdivToHcurl b (fullData A B C) = (hdivValue b (fullData A B C)).cross (fullData A B C).normal := by
  refine ⟨?_, rfl⟩
  rw [C71_hcurl_value A B C h]
  constructor
  · intro s t
    have := ((C71_hdiv_value A B C h b _).mp rfl).1 s t
    simp only
    simp only [P3.dot, P3.cross] at this ⊢
    linear_combination this
  · simp only [P3.dot, P3.cross]; ring

end

/-- **C71 (dependencies)** Each functor gives, on data in which only the quantities it asks for were computed (the rest being
whatever an earlier element left), the same value as on the complete data of the triangle, and so does any pair of functors
with combined dependencies. -/
theorem C71_dependencies (A B C : P3 ℝ) (b : BasisAt) (old : GeomData) (more : GeomDeps) :
    hdivValue b (getData A B C (hdivValueDeps.or more) old) = hdivValue b (fullData A B C) ∧
    hcurlValue b (getData A B C (hcurlValueDeps.or more) old) = hcurlValue b (fullData A B C) ∧
    surfaceDiv b (getData A B C (surfaceDivDeps.or more) old) = surfaceDiv b (fullData A B C) ∧
    surfaceGrad b (getData A B C (surfaceGradDeps.or more) old) = surfaceGrad b (fullData A B C) ∧
    surfaceCurl b (getData A B C (surfaceCurlDeps.or more) old) = surfaceCurl b (fullData A B C) ∧
    hcurlSurfaceCurl b (getData A B C (hcurlSurfaceCurlDeps.or more) old) = hcurlSurfaceCurl b (fullData A B C) ∧
    hdivToHcurl b (getData A B C (hdivToHcurlDeps.or more) old) = hdivToHcurl b (fullData A B C) ∧
    valueTimesNormal b (getData A B C (valueTimesNormalDeps.or more) old) = valueTimesNormal b (fullData A B C) := by
  obtain ⟨m1, m2, m3, m4⟩ := more
  cases m1 <;> cases m2 <;> cases m3 <;> cases m4 <;> exact ⟨rfl, rfl, rfl, rfl, rfl, rfl, rfl, rfl⟩

/-- **C71 (value times normal)** The transformed value is the multiple of the unit normal by the value. -/
theorem C71_value_times_normal (A B C : P3 ℝ) (h : areaVector A B C ≠ ⟨0, 0, 0⟩) (b : BasisAt) :
    ∃ n, IsNormal A B C n ∧ valueTimesNormal b (fullData A B C) = P3.smul b.v0 n :=
  ⟨_, C71_normal A B C h, rfl⟩

/-- **Defect** For curves in the plane (`cdim == 2`) the normals are not orthogonal to the curve: the normal of the segment in
direction `(1, 1)` is that direction. -/
theorem C71_counterexample_plane : let n := calculateNormals2 (1, 1)
    n.1 * 1 + n.2 * 1 ≠ 0 ∧ n.1 = n.2 := by
  have : (0 : ℝ) < 1 / Real.sqrt 2 := by positivity
  have e : (0 + 1 * 1 + 1 * 1 : ℝ) = 2 := by norm_num
  simp only [calculateNormals2, e]
  constructor
  · nlinarith
  · trivial

/-- Non-vacuity: the triangle (1,0,0), (0,2,0), (0,0,3). -/
example : areaVector (⟨1, 0, 0⟩ : P3 ℝ) ⟨0, 2, 0⟩ ⟨0, 0, 3⟩ ≠ ⟨0, 0, 0⟩ := by
  simp [areaVector]

end Verif.Shape
