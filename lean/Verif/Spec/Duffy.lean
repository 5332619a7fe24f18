import Verif.Model.Duffy
import Mathlib.MeasureTheory.Integral.Bochner.Set
import Mathlib.MeasureTheory.Measure.Lebesgue.EqHaar
import Mathlib.MeasureTheory.Integral.IntervalIntegral.Basic
/-
Specification of singular quadrature rules on pairs of triangles.
-/
namespace Verif.Quad

/-- The interior of the reference triangle with corners 0 = (0,0), 1 = (1,0), 2 = (0,1). -/
def refTriangle : Set (ℝ × ℝ) := {p | 0 < p.1 ∧ 0 < p.2 ∧ p.1 + p.2 < 1}

/-- Pairs of points of the reference triangle, as points of four-dimensional space. -/
def refPairs : Set (Fin 4 → ℝ) := {p | (p 0, p 1) ∈ refTriangle ∧ (p 2, p 3) ∈ refTriangle}

/-- The open unit cube. -/
def unitCube : Set (Fin 4 → ℝ) := {z | ∀ i, 0 < z i ∧ z i < 1}

/-- A function of a pair of points as a function on four-dimensional space. -/
def pairFun {E : Type} (f : ℝ × ℝ → ℝ × ℝ → E) (p : Fin 4 → ℝ) : E := f (p 0, p 1) (p 2, p 3)

/-- The local vertex numbers of a configuration are those of vertices of triangles. -/
def Config.Valid : Config → Prop
  | .coincident => True
  | .edge t0 t1 s0 s1 => (t0 ≤ 2 ∧ t1 ≤ 2 ∧ t0 ≠ t1) ∧ (s0 ≤ 2 ∧ s1 ≤ 2 ∧ s0 ≠ s1)
  | .vertex t0 s0 => t0 ≤ 2 ∧ s0 ≤ 2

instance (c : Config) : Decidable c.Valid := by
  unfold Config.Valid; split <;> infer_instance

/-- `g` is integrated exactly by the product of the rule with itself: with the points `p i`, `p j` of the rule,
`∑ w i * w j * g (p i, p j)` is the integral of `g` over the unit cube. -/
def ExactFor {E : Type} [NormedAddCommGroup E] [NormedSpace ℝ E] (rule : Rule ℝ) (g : (Fin 4 → ℝ) → E) : Prop :=
  ∑ i ∈ Finset.range rule.n, ∑ j ∈ Finset.range rule.n, (rule.weight i * rule.weight j) •
      g ![(rule.point i).1, (rule.point i).2, (rule.point j).1, (rule.point j).2] =
    ∫ z in unitCube, g z

/-- The integrand that region `r` of the rule sees on the unit cube: its weight factor times `f` at the pair of points it
generates from `z`. -/
def Config.integrand {E : Type} [NormedAddCommGroup E] [NormedSpace ℝ E] (c : Config) (r : Nat)
    (f : ℝ × ℝ → ℝ × ℝ → E) (z : Fin 4 → ℝ) : E :=
  match (c.samples (z 0) (z 1) (z 2) (z 3))[r]? with
  | none => 0
  | some s =>
    match c.remapTest (toDune (s.x0, s.x1)), c.remapTrial (toDune (s.y0, s.y1)) with
    | some x, some y => s.w • f x y
    | _, _ => 0

/-- The point of the triangle with corners `A 0`, `A 1`, `A 2` that corresponds to a point of the reference triangle. -/
def place {V : Type} [AddCommGroup V] [Module ℝ V] (A : Nat → V) (p : ℝ × ℝ) : V :=
  (1 - p.1 - p.2) • A 0 + p.1 • A 1 + p.2 • A 2

/-- The flat triangles with corners `A` and `B` are placed in space as the configuration says: the shared vertices have
the same positions and the triangles meet nowhere else (stated with the directions of their edges, so that they do not
fold onto each other at the shared vertex or edge either); no triangle is degenerate. -/
def Config.Placed {V : Type} [AddCommGroup V] [Module ℝ V] (A B : Nat → V) : Config → Prop
  | .coincident => (A 0 = B 0 ∧ A 1 = B 1 ∧ A 2 = B 2) ∧
      ∀ a b : ℝ, a • (A 1 - A 0) + b • (A 2 - A 0) = 0 → a = 0 ∧ b = 0
  | .edge t0 t1 s0 s1 => (A t0 = B s0 ∧ A t1 = B s1) ∧
      ∀ d a b : ℝ, 0 ≤ a → 0 ≤ b → d • (A t1 - A t0) + a • (A (3 - t0 - t1) - A t0) = b • (B (3 - s0 - s1) - B s0) →
        d = 0 ∧ a = 0 ∧ b = 0
  | .vertex t0 s0 => A t0 = B s0 ∧
      ∀ a a' b b' : ℝ, 0 ≤ a → 0 ≤ a' → 0 ≤ b → 0 ≤ b' →
        a • (A ((t0 + 1) % 3) - A t0) + a' • (A ((t0 + 2) % 3) - A t0) =
          b • (B ((s0 + 1) % 3) - B s0) + b' • (B ((s0 + 2) % 3) - B s0) → a = 0 ∧ a' = 0 ∧ b = 0 ∧ b' = 0

/-- The rule on the unit square integrates `x ^ a * y ^ b` exactly for all `a, b ≤ m`. -/
def Rule.ExactDegree (rule : Rule ℝ) (m : Nat) : Prop :=
  ∀ a ≤ m, ∀ b ≤ m, ∑ i ∈ Finset.range rule.n, rule.weight i * ((rule.point i).1 ^ a * (rule.point i).2 ^ b) =
    (∫ x in (0 : ℝ)..1, x ^ a) * ∫ y in (0 : ℝ)..1, y ^ b

end Verif.Quad
