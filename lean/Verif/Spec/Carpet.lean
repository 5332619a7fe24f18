import Verif.Spec.Menger

/-!
# The Sierpinski carpet as a set of squares
-/

noncomputable section

namespace Verif.Shapes

/-- The squares of the carpet of level `n`: a square divided into 9 keeps all but the one in the
middle. -/
def Carpet : ℕ → ℕ × ℕ → Prop
  | 0, c => c = (0, 0)
  | n + 1, (x, y) => Carpet n (x / 3, y / 3) ∧ ¬(x % 3 = 1 ∧ y % 3 = 1)

/-- The corners of the square `c`, counterclockwise, in the unit square divided into `9^n` squares. -/
def cellSquare (n : ℕ) (c : ℕ × ℕ) : List V3 :=
  [![c.1 / 3 ^ n, c.2 / 3 ^ n, 0], ![(c.1 + 1) / 3 ^ n, c.2 / 3 ^ n, 0],
   ![(c.1 + 1) / 3 ^ n, (c.2 + 1) / 3 ^ n, 0], ![c.1 / 3 ^ n, (c.2 + 1) / 3 ^ n, 0]]

end Verif.Shapes
