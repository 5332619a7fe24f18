import Verif.Spec.Shapes

/-!
# Koch's snowflake as a polygon
-/

noncomputable section

namespace Verif.Shapes

/-- The point one third of the way from `p` to `q`. -/
def third (p q : V2) : V2 := fun k => p k + (q k - p k) / 3

/-- The tip of the equilateral triangle on the middle third of the side from `p` to `q`, on the
right of it. -/
def tip (p q : V2) : V2 :=
  ![(p 0 + q 0) / 2 + √3 / 6 * (q 1 - p 1), (p 1 + q 1) / 2 - √3 / 6 * (q 0 - p 0)]

/-- The snowflake: an equilateral triangle, passed counterclockwise, each side of which is `n` times
replaced by four sides around an equilateral triangle. -/
def kochPolygon : ℕ → List V2
  | 0 => [triangleCorners 0, triangleCorners 1, triangleCorners 2]
  | n + 1 => (sides (kochPolygon n)).flatMap fun e =>
      [e.1, third e.1 e.2, tip e.1 e.2, third e.2 e.1]

/-- The point `x` lies on the side `e`. -/
def OnSide (x : V2) (e : V2 × V2) : Prop :=
  ∃ t : ℝ, 0 ≤ t ∧ t ≤ 1 ∧ ∀ k, x k = e.1 k + t * (e.2 k - e.1 k)

/-- A polygon that does not meet itself: its corners are different, and two sides only meet in a
corner in which one of them ends and the other starts. -/
structure SimplePolygon (ps : List V2) : Prop where
  corners : ps.Nodup
  apart : (sides ps).Pairwise fun e f => ∀ x, OnSide x e → OnSide x f →
    (x = e.2 ∧ x = f.1) ∨ (x = f.2 ∧ x = e.1)

/-- The signed area of a polygon (positive if it is passed counterclockwise). -/
def signedArea (ps : List V2) : ℝ :=
  ((sides ps).map fun e => (e.1 0 * e.2 1 - e.1 1 * e.2 0) / 2).sum

/-- The squared distance of two points of the plane. -/
def dist2 (p q : V2) : ℝ := (p 0 - q 0) ^ 2 + (p 1 - q 1) ^ 2

end Verif.Shapes
