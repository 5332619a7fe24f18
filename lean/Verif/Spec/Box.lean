import Verif.Model.BoundingBox
/-
Specification vocabulary for boxes.
-/
namespace Verif.HMat.Box
variable {K : Type} [LinearOrder K]

/-- The point lies in the closed box. -/
def Has (a : Box K) (p : Pt K) : Prop := ∀ d, a.lo d ≤ p d ∧ p d ≤ a.hi d

/-- The box is not empty (every bound pair is ordered). -/
def Valid (a : Box K) : Prop := ∀ d, a.lo d ≤ a.hi d

/-- `a` is contained in `b`. -/
def Sub (a b : Box K) : Prop := ∀ d, b.lo d ≤ a.lo d ∧ a.hi d ≤ b.hi d

/-- `a` is the smallest box containing the boxes `bs i` with `S i`: it contains each of them and
each of its six faces touches one of them. -/
def IsHull (a : Box K) (S : Nat → Prop) (bs : Nat → Box K) : Prop :=
  (∀ i, S i → (bs i).Sub a) ∧
  (∀ d, (∃ i, S i ∧ a.lo d = (bs i).lo d) ∧ (∃ i, S i ∧ a.hi d = (bs i).hi d))

/-- Squared Euclidean distance of two points. -/
def sqDist {K : Type} [Field K] (p q : Pt K) : K :=
  (p 0 - q 0) ^ 2 + (p 1 - q 1) ^ 2 + (p 2 - q 2) ^ 2

end Verif.HMat.Box
