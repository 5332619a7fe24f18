import Verif.Lemmas.Duffy
import Mathlib.Tactic.FinCases
import Mathlib.Tactic.Linarith
import Mathlib.Tactic.FieldSimp
import Mathlib.Tactic.Positivity
import Mathlib.LinearAlgebra.Matrix.Determinant.Basic
/-
The Sauter-Schwab regions tile the product of two reference triangles.
-/
namespace Verif.Quad
open MeasureTheory Set

theorem P4.ext4 {u v : P4} (h0 : u 0 = v 0) (h1 : u 1 = v 1) (h2 : u 2 = v 2) (h3 : u 3 = v 3) : u = v := by
  funext i; fin_cases i <;> assumption

/-- The four coordinates of a sample as a polynomial map. -/
def exMap (s : Sample Ex) : Fin 4 → Ex := ![s.x0, s.x1, s.y0, s.y1]

/-- The product of two copies of the reference triangle with corners (0,0), (1,0), (1,1). -/
def hyenaPairs : Set P4 := {p | 0 < p 1 ∧ p 1 < p 0 ∧ p 0 < 1 ∧ 0 < p 3 ∧ p 3 < p 2 ∧ p 2 < 1}

/-! ## Monomial charts -/

/-- `(ξ, ξη₁, ξη₁η₂, ξη₁η₂η₃)`. -/
def chartA (z : P4) : P4 := ![z 0, z 0 * z 1, z 0 * z 1 * z 2, z 0 * z 1 * z 2 * z 3]
/-- `(ξ, ξη₁, ξη₁η₂, ξη₁η₃)`. -/
def chartB (z : P4) : P4 := ![z 0, z 0 * z 1, z 0 * z 1 * z 2, z 0 * z 1 * z 3]
/-- `(ξ, ξη₁, ξη₂, ξη₂η₃)`. -/
def chartC (z : P4) : P4 := ![z 0, z 0 * z 1, z 0 * z 2, z 0 * z 2 * z 3]

def simplexA : Set P4 := {v | 0 < v 3 ∧ v 3 < v 2 ∧ v 2 < v 1 ∧ v 1 < v 0 ∧ v 0 < 1}
def simplexB : Set P4 := {v | 0 < v 3 ∧ v 3 < v 1 ∧ 0 < v 2 ∧ v 2 < v 1 ∧ v 1 < v 0 ∧ v 0 < 1}
def simplexC : Set P4 := {v | 0 < v 1 ∧ v 1 < v 0 ∧ 0 < v 3 ∧ v 3 < v 2 ∧ v 2 < v 0 ∧ v 0 < 1}

theorem mem_cube {z : P4} : z ∈ cube ↔ (0 < z 0 ∧ z 0 < 1) ∧ (0 < z 1 ∧ z 1 < 1) ∧ (0 < z 2 ∧ z 2 < 1) ∧
    (0 < z 3 ∧ z 3 < 1) := by
  constructor
  · intro h; exact ⟨h 0, h 1, h 2, h 3⟩
  · rintro ⟨h0, h1, h2, h3⟩ i; fin_cases i <;> assumption

theorem mul_lt_self {a b : ℝ} (ha : 0 < a) (hb : b < 1) : a * b < a := by nlinarith

theorem bijOn_chartA : BijOn chartA cube simplexA := by
  refine InvOn.bijOn (f' := fun v => ![v 0, v 1 / v 0, v 2 / v 1, v 3 / v 2]) ⟨?_, ?_⟩ ?_ ?_
  · intro z hz
    obtain ⟨⟨h0, _⟩, ⟨h1, _⟩, ⟨h2, _⟩, h3, _⟩ := mem_cube.mp hz
    apply P4.ext4 <;> simp [chartA] <;> field_simp
  · rintro v ⟨h3, h32, h21, h10, h0⟩
    have : 0 < v 2 := by linarith
    have : 0 < v 1 := by linarith
    have : 0 < v 0 := by linarith
    apply P4.ext4 <;> simp [chartA] <;> field_simp
  · intro z hz
    obtain ⟨⟨h0, h0'⟩, ⟨h1, h1'⟩, ⟨h2, h2'⟩, h3, h3'⟩ := mem_cube.mp hz
    refine ⟨?_, ?_, ?_, ?_, ?_⟩ <;> simp only [chartA, Matrix.cons_val]
    · positivity
    · exact mul_lt_self (by positivity) h3'
    · exact mul_lt_self (by positivity) h2'
    · exact mul_lt_self h0 h1'
    · exact h0'
  · rintro v ⟨h3, h32, h21, h10, h0⟩
    have : 0 < v 2 := by linarith
    have : 0 < v 1 := by linarith
    have : 0 < v 0 := by linarith
    apply mem_cube.mpr
    simp only [Matrix.cons_val]
    refine ⟨⟨by assumption, h0⟩, ⟨by positivity, ?_⟩, ⟨by positivity, ?_⟩, ⟨by positivity, ?_⟩⟩ <;>
      rw [div_lt_one (by assumption)] <;> assumption

theorem bijOn_chartB : BijOn chartB cube simplexB := by
  refine InvOn.bijOn (f' := fun v => ![v 0, v 1 / v 0, v 2 / v 1, v 3 / v 1]) ⟨?_, ?_⟩ ?_ ?_
  · intro z hz
    obtain ⟨⟨h0, _⟩, ⟨h1, _⟩, ⟨h2, _⟩, h3, _⟩ := mem_cube.mp hz
    apply P4.ext4 <;> simp [chartB] <;> field_simp
  · rintro v ⟨h3, h31, h2, h21, h10, h0⟩
    have : 0 < v 1 := by linarith
    have : 0 < v 0 := by linarith
    apply P4.ext4 <;> simp [chartB] <;> field_simp
  · intro z hz
    obtain ⟨⟨h0, h0'⟩, ⟨h1, h1'⟩, ⟨h2, h2'⟩, h3, h3'⟩ := mem_cube.mp hz
    refine ⟨?_, ?_, ?_, ?_, ?_, ?_⟩ <;> simp only [chartB, Matrix.cons_val]
    · positivity
    · exact mul_lt_self (by positivity) h3'
    · positivity
    · exact mul_lt_self (by positivity) h2'
    · exact mul_lt_self h0 h1'
    · exact h0'
  · rintro v ⟨h3, h31, h2, h21, h10, h0⟩
    have : 0 < v 1 := by linarith
    have : 0 < v 0 := by linarith
    apply mem_cube.mpr
    simp only [Matrix.cons_val]
    refine ⟨⟨by assumption, h0⟩, ⟨by positivity, ?_⟩, ⟨by positivity, ?_⟩, ⟨by positivity, ?_⟩⟩ <;>
      rw [div_lt_one (by assumption)] <;> assumption

theorem bijOn_chartC : BijOn chartC cube simplexC := by
  refine InvOn.bijOn (f' := fun v => ![v 0, v 1 / v 0, v 2 / v 0, v 3 / v 2]) ⟨?_, ?_⟩ ?_ ?_
  · intro z hz
    obtain ⟨⟨h0, _⟩, ⟨h1, _⟩, ⟨h2, _⟩, h3, _⟩ := mem_cube.mp hz
    apply P4.ext4 <;> simp [chartC] <;> field_simp
  · rintro v ⟨h1, h10, h3, h32, h20, h0⟩
    have : 0 < v 2 := by linarith
    have : 0 < v 0 := by linarith
    apply P4.ext4 <;> simp [chartC] <;> field_simp
  · intro z hz
    obtain ⟨⟨h0, h0'⟩, ⟨h1, h1'⟩, ⟨h2, h2'⟩, h3, h3'⟩ := mem_cube.mp hz
    refine ⟨?_, ?_, ?_, ?_, ?_, ?_⟩ <;> simp only [chartC, Matrix.cons_val]
    · positivity
    · exact mul_lt_self (by positivity) h1'
    · positivity
    · exact mul_lt_self (by positivity) h3'
    · exact mul_lt_self h0 h2'
    · exact h0'
  · rintro v ⟨h1, h10, h3, h32, h20, h0⟩
    have : 0 < v 2 := by linarith
    have : 0 < v 0 := by linarith
    apply mem_cube.mpr
    simp only [Matrix.cons_val]
    refine ⟨⟨by assumption, h0⟩, ⟨by positivity, ?_⟩, ⟨by positivity, ?_⟩, ⟨by positivity, ?_⟩⟩ <;>
      rw [div_lt_one (by assumption)] <;> assumption

/-- A chart followed by an invertible linear map. -/
theorem bijOn_region (T : Fin 4 → Ex) {D : P4 → P4} {Δ : Set P4} (hD : BijOn D cube Δ) (L g : P4 → P4) (R : Set P4)
    (hT : ∀ z, polyMap T z = L (D z)) (h1 : ∀ v ∈ Δ, L v ∈ R) (h2 : ∀ p ∈ R, g p ∈ Δ) (h3 : ∀ v, g (L v) = v)
    (h4 : ∀ p, L (g p) = p) : BijOn (polyMap T) cube R := by
  have hL : BijOn L Δ R := InvOn.bijOn ⟨fun v _ => h3 v, fun p _ => h4 p⟩ h1 h2
  have := hL.comp hD
  exact this.congr (fun z _ => (hT z).symm)

/-- Coordinates of a polynomial map that comes from a sample. -/
theorem polyMap_exMap (s : Sample Ex) (z : P4) :
    polyMap (exMap s) z = ![s.x0.eval z, s.x1.eval z, s.y0.eval z, s.y1.eval z] := by
  funext i; fin_cases i <;> rfl

/-! ## Coincident triangles -/

/-- The sub-sets of pairs of points that the six regions cover. -/
def regionsCO : Fin 6 → Set P4 := ![
  {p | p ∈ hyenaPairs ∧ p 2 < p 0 ∧ p 0 - p 2 < p 1 - p 3},
  {p | p ∈ hyenaPairs ∧ p 0 < p 2 ∧ p 2 - p 0 < p 3 - p 1},
  {p | p ∈ hyenaPairs ∧ p 3 < p 1 ∧ p 1 - p 3 < p 0 - p 2},
  {p | p ∈ hyenaPairs ∧ p 1 < p 3 ∧ p 3 - p 1 < p 2 - p 0},
  {p | p ∈ hyenaPairs ∧ p 0 < p 2 ∧ p 3 < p 1},
  {p | p ∈ hyenaPairs ∧ p 2 < p 0 ∧ p 1 < p 3}]

/-- The sub-sets that the five regions for a common edge cover. -/
def regionsEA : Fin 5 → Set P4 := ![
  {p | p ∈ hyenaPairs ∧ p 2 < p 0 ∧ p 1 < p 3 + (p 0 - p 2)},
  {p | p ∈ hyenaPairs ∧ p 2 < p 0 ∧ p 3 + (p 0 - p 2) < p 1},
  {p | p ∈ hyenaPairs ∧ p 0 < p 2 ∧ p 3 < p 2 - p 0},
  {p | p ∈ hyenaPairs ∧ p 0 < p 2 ∧ p 1 + (p 2 - p 0) < p 3},
  {p | p ∈ hyenaPairs ∧ p 0 < p 2 ∧ (p 2 - p 0 < p 3 ∧ p 3 < p 1 + (p 2 - p 0))}]

/-- The sub-sets that the two regions for a common vertex cover. -/
def regionsVA : Fin 2 → Set P4 := ![
  {p | p ∈ hyenaPairs ∧ p 2 < p 0}, {p | p ∈ hyenaPairs ∧ p 0 < p 2}]

/-- The samples with the variables as arguments. -/
def exCO : List (Sample Ex) := triangleCoincident (.var 0) (.var 1) (.var 2) (.var 3)
def exEA : List (Sample Ex) := triangleEdgeAdjacent (.var 0) (.var 1) (.var 2) (.var 3)
def exVA : List (Sample Ex) := triangleVertexAdjacent (.var 0) (.var 1) (.var 2) (.var 3)

abbrev mapsCO (r : Fin 6) : Fin 4 → Ex := exMap (exCO[r]'(r.2))
abbrev mapsEA (r : Fin 5) : Fin 4 → Ex := exMap (exEA[r]'(r.2))
abbrev mapsVA (r : Fin 2) : Fin 4 → Ex := exMap (exVA[r]'(r.2))

macro "ands" : tactic => `(tactic| (repeat' apply And.intro) <;> linarith)

syntax "region " term:max term:max term:max : tactic
macro_rules
  | `(tactic| region $c $l $g) => `(tactic|
      (refine bijOn_region _ $c $l $g _ ?_ ?_ ?_ ?_ ?_
       · intro z
         rw [polyMap_exMap]
         apply P4.ext4 <;>
           simp [exCO, exEA, exVA, triangleCoincident, triangleEdgeAdjacent, triangleVertexAdjacent, Ex.eval_one,
             Ex.eval_var, Ex.eval_add, Ex.eval_sub, Ex.eval_mul, chartA, chartB, chartC] <;> ring
       · rintro v hv
         simp only [simplexA, simplexB, simplexC, mem_setOf_eq] at hv
         simp [regionsCO, regionsEA, regionsVA, hyenaPairs]
         ands
       · rintro p hp
         simp [regionsCO, regionsEA, regionsVA, hyenaPairs] at hp
         simp [simplexA, simplexB, simplexC]
         ands
       · intro v
         apply P4.ext4 <;> simp <;> try ring
       · intro p
         apply P4.ext4 <;> simp <;> try ring))

theorem bijOn_CO : ∀ r, BijOn (polyMap (mapsCO r)) cube (regionsCO r) := by
  intro r
  fin_cases r
  · region bijOn_chartA (fun v => ![v 0, v 0 - v 1 + v 2, v 0 - v 3, v 0 - v 1])
      (fun p => ![p 0, p 0 - p 3, p 1 - p 3, p 0 - p 2])
  · region bijOn_chartA (fun v => ![v 0 - v 3, v 0 - v 1, v 0, v 0 - v 1 + v 2])
      (fun p => ![p 2, p 2 - p 1, p 3 - p 1, p 2 - p 0])
  · region bijOn_chartA (fun v => ![v 0, v 1 - v 2 + v 3, v 0 - v 2, v 1 - v 2])
      (fun p => ![p 0, p 3 + (p 0 - p 2), p 0 - p 2, p 1 - p 3])
  · region bijOn_chartA (fun v => ![v 0 - v 2, v 1 - v 2, v 0, v 1 - v 2 + v 3])
      (fun p => ![p 2, p 1 + (p 2 - p 0), p 2 - p 0, p 3 - p 1])
  · region bijOn_chartA (fun v => ![v 0 - v 3, v 1 - v 3, v 0, v 1 - v 2])
      (fun p => ![p 2, p 1 + (p 2 - p 0), p 1 + (p 2 - p 0) - p 3, p 2 - p 0])
  · region bijOn_chartA (fun v => ![v 0, v 1 - v 2, v 0 - v 3, v 1 - v 3])
      (fun p => ![p 0, p 3 + (p 0 - p 2), p 3 + (p 0 - p 2) - p 1, p 0 - p 2])

theorem bijOn_EA : ∀ r, BijOn (polyMap (mapsEA r)) cube (regionsEA r) := by
  intro r
  fin_cases r
  · region bijOn_chartB (fun v => ![v 0, v 3, v 0 - v 2, v 1 - v 2])
      (fun p => ![p 0, p 3 + (p 0 - p 2), p 0 - p 2, p 1])
  · region bijOn_chartA (fun v => ![v 0, v 1, v 0 - v 3, v 2 - v 3])
      (fun p => ![p 0, p 1, p 3 + (p 0 - p 2), p 0 - p 2])
  · region bijOn_chartA (fun v => ![v 0 - v 2, v 1 - v 2, v 0, v 3])
      (fun p => ![p 2, p 1 + (p 2 - p 0), p 2 - p 0, p 3])
  · region bijOn_chartA (fun v => ![v 0 - v 3, v 2 - v 3, v 0, v 1])
      (fun p => ![p 2, p 3, p 1 + (p 2 - p 0), p 2 - p 0])
  · region bijOn_chartA (fun v => ![v 0 - v 3, v 1 - v 3, v 0, v 2])
      (fun p => ![p 2, p 1 + (p 2 - p 0), p 3, p 2 - p 0])

theorem bijOn_VA : ∀ r, BijOn (polyMap (mapsVA r)) cube (regionsVA r) := by
  intro r
  fin_cases r
  · region bijOn_chartC (fun v => ![v 0, v 1, v 2, v 3]) (fun p => ![p 0, p 1, p 2, p 3])
  · region bijOn_chartC (fun v => ![v 2, v 3, v 0, v 1]) (fun p => ![p 2, p 3, p 0, p 1])

/-! ## Jacobians -/

theorem abs_eq_of_sign {a w : ℝ} (hw : 0 < w) (h : a = w ∨ a = -w) : |a| = w := by
  rcases h with h | h
  · rw [h, abs_of_pos hw]
  · rw [h, abs_neg, abs_of_pos hw]

macro "jacsimp" : tactic => `(tactic|
  simp [jac, exMap, Matrix.det_succ_row_zero, Fin.sum_univ_succ, Fin.succAbove, Ex.d_one, Ex.d_var, Ex.d_add, Ex.d_sub,
    Ex.d_mul, exCO, exEA, exVA, triangleCoincident, triangleEdgeAdjacent, triangleVertexAdjacent, Ex.eval_one,
    Ex.eval_var, Ex.eval_add, Ex.eval_sub, Ex.eval_mul])

macro "jacobian" : tactic => `(tactic| (
  apply abs_eq_of_sign
  · simp [exCO, exEA, exVA, triangleCoincident, triangleEdgeAdjacent, triangleVertexAdjacent, Ex.eval_var, Ex.eval_mul]
    positivity
  · first
    | (left; jacsimp; ring; done)
    | (right; jacsimp; ring; done)))

theorem det_VA (r : Fin 2) (z : P4) (hz : z ∈ cube) : |(jac (mapsVA r) z).det| = (exVA[r]'(r.2)).w.eval z := by
  obtain ⟨⟨h0, h0'⟩, ⟨h1, h1'⟩, ⟨h2, h2'⟩, h3, h3'⟩ := mem_cube.mp hz
  fin_cases r <;> jacobian

theorem det_EA (r : Fin 5) (z : P4) (hz : z ∈ cube) : |(jac (mapsEA r) z).det| = (exEA[r]'(r.2)).w.eval z := by
  obtain ⟨⟨h0, h0'⟩, ⟨h1, h1'⟩, ⟨h2, h2'⟩, h3, h3'⟩ := mem_cube.mp hz
  fin_cases r <;> jacobian

theorem det_CO (r : Fin 6) (z : P4) (hz : z ∈ cube) : |(jac (mapsCO r) z).det| = (exCO[r]'(r.2)).w.eval z := by
  obtain ⟨⟨h0, h0'⟩, ⟨h1, h1'⟩, ⟨h2, h2'⟩, h3, h3'⟩ := mem_cube.mp hz
  fin_cases r <;> jacobian

/-! ## Tilings -/

macro "disjoint_regions" : tactic => `(tactic|
  (refine Set.disjoint_left.mpr fun p hp hq => ?_
   simp [regionsCO, regionsEA, regionsVA, hyenaPairs] at hp hq
   linarith))

theorem disjoint_CO : Pairwise (Function.onFun Disjoint regionsCO) := by
  intro r q h
  fin_cases r <;> fin_cases q <;> first | exact absurd rfl h | disjoint_regions

theorem disjoint_EA : Pairwise (Function.onFun Disjoint regionsEA) := by
  intro r q h
  fin_cases r <;> fin_cases q <;> first | exact absurd rfl h | disjoint_regions

theorem disjoint_VA : Pairwise (Function.onFun Disjoint regionsVA) := by
  intro r q h
  fin_cases r <;> fin_cases q <;> first | exact absurd rfl h | disjoint_regions

theorem sub_CO : ∀ r, regionsCO r ⊆ hyenaPairs := by
  intro r p hp; fin_cases r <;> exact hp.1
theorem sub_EA : ∀ r, regionsEA r ⊆ hyenaPairs := by
  intro r p hp; fin_cases r <;> exact hp.1
theorem sub_VA : ∀ r, regionsVA r ⊆ hyenaPairs := by
  intro r p hp; fin_cases r <;> exact hp.1

theorem null_eq (a : P4) (ha : ∃ i, a i ≠ 0) (P : P4 → Prop) (h : ∀ p, P p → a 0 * p 0 + a 1 * p 1 + a 2 * p 2 + a 3 * p 3 = 0) :
    volume {p : P4 | P p} = 0 := by
  refine measure_mono_null (fun p hp => ?_) (null_hyperplane a ha)
  have := h p hp
  simp only [mem_setOf_eq, Fin.sum_univ_four]
  linarith

theorem null_CO : volume (hyenaPairs \ ⋃ r, regionsCO r) = 0 := by
  have n1 := null_eq ![1, 0, -1, 0] ⟨0, by simp⟩ (fun p => p 0 = p 2) (by intro p h; simp [h])
  have n2 := null_eq ![0, 1, 0, -1] ⟨1, by simp⟩ (fun p => p 1 = p 3) (by intro p h; simp [h])
  have n3 := null_eq ![1, -1, -1, 1] ⟨0, by simp⟩ (fun p => p 0 - p 2 = p 1 - p 3) (by intro p h; simp; linarith)
  refine measure_mono_null ?_ (measure_union_null n1 (measure_union_null n2 n3))
  rintro p ⟨hp, hn⟩
  simp only [mem_union, mem_setOf_eq]
  by_contra hc
  push Not at hc
  obtain ⟨c1, c2, c3⟩ := hc
  apply hn
  rw [mem_iUnion]
  rcases lt_or_gt_of_ne c1 with h1 | h1 <;> rcases lt_or_gt_of_ne c2 with h2 | h2 <;>
    rcases lt_or_gt_of_ne c3 with h3 | h3
  · exact ⟨3, hp, h2, by linarith⟩
  · exact ⟨1, hp, h1, by linarith⟩
  · exact ⟨4, hp, h1, h2⟩
  · exact ⟨4, hp, h1, h2⟩
  · exact ⟨5, hp, h1, h2⟩
  · exact ⟨5, hp, h1, h2⟩
  · exact ⟨0, hp, h1, by linarith⟩
  · exact ⟨2, hp, h2, by linarith⟩

theorem null_EA : volume (hyenaPairs \ ⋃ r, regionsEA r) = 0 := by
  have n1 := null_eq ![1, 0, -1, 0] ⟨0, by simp⟩ (fun p => p 0 = p 2) (by intro p h; simp [h])
  have n2 := null_eq ![1, -1, -1, 1] ⟨0, by simp⟩ (fun p => p 1 = p 3 + (p 0 - p 2)) (by intro p h; simp; linarith)
  have n3 := null_eq ![1, 0, -1, 1] ⟨0, by simp⟩ (fun p => p 3 = p 2 - p 0) (by intro p h; simp; linarith)
  refine measure_mono_null ?_ (measure_union_null n1 (measure_union_null n2 n3))
  rintro p ⟨hp, hn⟩
  simp only [mem_union, mem_setOf_eq]
  by_contra hc
  push Not at hc
  obtain ⟨c1, c2, c3⟩ := hc
  apply hn
  rw [mem_iUnion]
  rcases lt_or_gt_of_ne c1 with h1 | h1 <;> rcases lt_or_gt_of_ne c2 with h2 | h2 <;>
    rcases lt_or_gt_of_ne c3 with h3 | h3
  · exact ⟨2, hp, h1, h3⟩
  · exact ⟨3, hp, h1, by linarith⟩
  · exact ⟨2, hp, h1, h3⟩
  · exact ⟨4, hp, h1, h3, by linarith⟩
  · exact ⟨0, hp, h1, h2⟩
  · exact ⟨0, hp, h1, h2⟩
  · exact ⟨1, hp, h1, h2⟩
  · exact ⟨1, hp, h1, h2⟩

theorem null_VA : volume (hyenaPairs \ ⋃ r, regionsVA r) = 0 := by
  have n1 := null_eq ![1, 0, -1, 0] ⟨0, by simp⟩ (fun p => p 0 = p 2) (by intro p h; simp [h])
  refine measure_mono_null ?_ n1
  rintro p ⟨hp, hn⟩
  by_contra c1
  apply hn
  rw [mem_iUnion]
  rcases lt_or_gt_of_ne (show p 0 ≠ p 2 from c1) with h1 | h1
  · exact ⟨1, hp, h1⟩
  · exact ⟨0, hp, h1⟩

end Verif.Quad
