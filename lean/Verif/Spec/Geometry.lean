import Verif.Model.GridFactory
import Mathlib.Algebra.Order.Field.Basic
/-
Elementary geometry used in statements about grids.
-/
namespace Verif.Grid

variable {K : Type} [Field K]

/-- `(b - a) × (c - a)`: twice the vector area of the triangle `a b c`; its direction is the orientation. -/
def areaVector (a b c : P3 K) : P3 K :=
  ⟨(b.y - a.y) * (c.z - a.z) - (b.z - a.z) * (c.y - a.y),
   (b.z - a.z) * (c.x - a.x) - (b.x - a.x) * (c.z - a.z),
   (b.x - a.x) * (c.y - a.y) - (b.y - a.y) * (c.x - a.x)⟩

/-- Multiplication by a scalar. -/
def P3.smul (k : K) (p : P3 K) : P3 K := ⟨k * p.x, k * p.y, k * p.z⟩

/-- `p` is the combination of `a, b, c` with weights `u, v, w`. -/
def Comb (a b c p : P3 K) (u v w : K) : Prop :=
  u + v + w = 1 ∧ p.x = u * a.x + v * b.x + w * c.x ∧ p.y = u * a.y + v * b.y + w * c.y ∧
    p.z = u * a.z + v * b.z + w * c.z

variable [LinearOrder K]

/-- `p` lies in the closed triangle `a b c`. -/
def InTriangle (a b c p : P3 K) : Prop :=
  ∃ u v w, 0 ≤ u ∧ 0 ≤ v ∧ 0 ≤ w ∧ Comb a b c p u v w

/-- `p` lies in the open triangle `a b c`. -/
def InsideTriangle (a b c p : P3 K) : Prop :=
  ∃ u v w, 0 < u ∧ 0 < v ∧ 0 < w ∧ Comb a b c p u v w

end Verif.Grid
