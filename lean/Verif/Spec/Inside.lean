import Verif.Model.Inside
import Verif.Spec.Geometry
/-
Specification of the point-inside test.
-/
namespace Verif.Grid

variable {K : Type} [Field K] [LinearOrder K]

/-- The upward vertical ray from `p` (without `p`) meets the closed triangle. -/
def RayMeets (p : P3 K) (t : Tri3 K) : Prop :=
  ∃ α, 0 < α ∧ InTriangle t.1 t.2.1 t.2.2 ⟨p.x, p.y, p.z + α⟩

/-- General position, resolved at the precision of the code: no triangle is vertical (twice its projected
area is at least `eps`), the ray meets triangles only in their interiors and at height at least `eps`. -/
def Resolved (eps : K) (p : P3 K) (ts : List (Tri3 K)) : Prop :=
  ∀ t ∈ ts, eps ≤ |(areaVector t.1 t.2.1 t.2.2).z| ∧
    ∀ α, 0 < α → InTriangle t.1 t.2.1 t.2.2 ⟨p.x, p.y, p.z + α⟩ →
      eps ≤ α ∧ InsideTriangle t.1 t.2.1 t.2.2 ⟨p.x, p.y, p.z + α⟩

open Classical in
/-- Number of triangles the ray crosses (for a point in general position: the number of crossings). -/
noncomputable def crossings (p : P3 K) (ts : List (Tri3 K)) : Nat :=
  (ts.filter fun t => decide (RayMeets p t)).length

/-- `p` lies in the bounding box of the corners. -/
def InBox (p : P3 K) (ts : List (Tri3 K)) : Prop :=
  ∀ c ∈ [P3.x, P3.y, P3.z], (∃ t ∈ ts, ∃ q ∈ [t.1, t.2.1, t.2.2], c q ≤ c p) ∧
    ∃ t ∈ ts, ∃ q ∈ [t.1, t.2.1, t.2.2], c p ≤ c q

end Verif.Grid
