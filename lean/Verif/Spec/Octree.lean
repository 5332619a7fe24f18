import Verif.Spec.Morton
import Verif.Model.Morton
/-
Specification of the cells of an octree.
-/
namespace Verif.Fmm

/-- A cell of the regular grid of `2^level` cells per side. -/
structure Cell where
  (x y z : Nat)
deriving DecidableEq, Repr

/-- The cell belongs to the given level. -/
def Cell.In (c : Cell) (level : Nat) : Prop := c.x < 2 ^ level ∧ c.y < 2 ^ level ∧ c.z < 2 ^ level

/-- The cell of the next coarser level that contains `c`. -/
def Cell.parent (c : Cell) : Cell := ⟨c.x / 2, c.y / 2, c.z / 2⟩

/-- The ancestor `k` levels above. -/
def Cell.up (c : Cell) : Nat → Cell
  | 0 => c
  | k + 1 => (c.up k).parent

/-- The cells touch each other or coincide. -/
def Cell.Near (a b : Cell) : Prop :=
  (a.x ≤ b.x + 1 ∧ b.x ≤ a.x + 1) ∧ (a.y ≤ b.y + 1 ∧ b.y ≤ a.y + 1) ∧
    (a.z ≤ b.z + 1 ∧ b.z ≤ a.z + 1)

instance (a b : Cell) : Decidable (a.Near b) := by unfold Cell.Near; infer_instance

/-- The index (Morton code) of a cell. -/
def Cell.index (c : Cell) : ULong := BitVec.ofNat 64 (zcode 10 c.x c.y c.z)

end Verif.Fmm
