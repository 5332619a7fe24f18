import Mathlib.Init
/-
Specification of Morton codes.
-/
namespace Verif.Fmm

/-- The Z-order code of a triple of `n`-bit coordinates: the bits of `z`, `y`, `x` are interleaved,
lowest bits last. -/
def zcode : (n : Nat) → (x y z : Nat) → Nat
  | 0, _, _, _ => 0
  | n + 1, x, y, z => x % 2 + 2 * (y % 2) + 4 * (z % 2) + 8 * zcode n (x / 2) (y / 2) (z / 2)

end Verif.Fmm
