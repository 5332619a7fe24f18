import Verif.Spec.Shapes

/-!
# The Menger sponge as a set of cells
-/

noncomputable section

namespace Verif.Shapes

/-- Lattice points; the cell numbered `c` is the unit cube from `c` to `c + (1, 1, 1)`. -/
abbrev Z3 := ℤ × ℤ × ℤ

/-- The cells of the sponge of level `n`: a cell divided into 27 keeps the 20 subcells that are the
middle one of at most one of the three directions. -/
def Sponge : ℕ → Z3 → Prop
  | 0, c => c = (0, 0, 0)
  | n + 1, (x, y, z) => Sponge n (x / 3, y / 3, z / 3) ∧
      ¬(x % 3 = 1 ∧ y % 3 = 1) ∧ ¬(x % 3 = 1 ∧ z % 3 = 1) ∧ ¬(y % 3 = 1 ∧ z % 3 = 1)

/-- The six directions in which a cell has neighbours. -/
def dir : Fin 6 → Z3 :=
  ![(-1, 0, 0), (1, 0, 0), (0, -1, 0), (0, 1, 0), (0, 0, -1), (0, 0, 1)]

/-- The lattice point `p` is a corner of the cell `c`. -/
def CornerOf (p c : Z3) : Prop :=
  (p.1 = c.1 ∨ p.1 = c.1 + 1) ∧ (p.2.1 = c.2.1 ∨ p.2.1 = c.2.1 + 1) ∧
    (p.2.2 = c.2.2 ∨ p.2.2 = c.2.2 + 1)

/-- The lattice point `p` in the unit cube divided into `N³` cells. -/
def scaled (N : ℕ) (p : Z3) : V3 := ![p.1 / N, p.2.1 / N, p.2.2 / N]

/-- The centre of the cell `c` in the unit cube divided into `N³` cells. -/
def centre (N : ℕ) (c : Z3) : V3 := ![(c.1 + 1 / 2) / N, (c.2.1 + 1 / 2) / N, (c.2.2 + 1 / 2) / N]

/-- The square `q` is the side of the cell `c` in direction `d`: its corners are those that `c` and
`c + d` have in common, and consecutive corners are neighbours. -/
def IsSide (c d : Z3) (q : List Z3) : Prop :=
  q.length = 4 ∧ q.Nodup ∧ (∀ p, p ∈ q ↔ CornerOf p c ∧ CornerOf p (c + d)) ∧
    ∀ e ∈ sides q, ∃ f, e.2 = e.1 + dir f

/-- Seen along the normal of the square `q`, the cell `c` lies in front (the opposite of `Behind`): the
normal points into the cell. -/
def PointsInto (N : ℕ) (q : List Z3) (c : Z3) : Prop :=
  ∀ a b d rest, q = a :: b :: d :: rest →
    0 < det3 (scaled N b - scaled N a) (scaled N d - scaled N a) (centre N c - scaled N a)

/-- Two lines between the same two points are the same line. -/
def SharesLines {P : Type*} (g : List (Stmt P)) : Prop :=
  ∀ n m a b, .line n a b ∈ g → (.line m a b ∈ g ∨ .line m b a ∈ g) → n = m

end Verif.Shapes
