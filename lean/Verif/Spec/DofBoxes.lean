import Verif.Model.DofBoxes
import Verif.Spec.Space
import Verif.Spec.Box
import Verif.Model.ClusterTree
/-
Specification vocabulary for the geometry of dofs.
-/
namespace Verif.DofGeo
open Verif.Grid Verif.Space
noncomputable section

/-- The point lies in the box with corners `lo` and `hi`. -/
def Between (lo p hi : P3 ℝ) : Prop :=
  lo.x ≤ p.x ∧ p.x ≤ hi.x ∧ lo.y ≤ p.y ∧ p.y ≤ hi.y ∧ lo.z ≤ p.z ∧ p.z ≤ hi.z

/-- The flat element with the given corners: the convex combinations of the corners. -/
def InHull (pts : List (P3 ℝ)) (p : P3 ℝ) : Prop :=
  ∃ w : List ℝ, w.length = pts.length ∧ (∀ a ∈ w, 0 ≤ a) ∧ w.sum = 1 ∧
    p = ⟨(List.zipWith (· * ·) w (pts.map P3.x)).sum, (List.zipWith (· * ·) w (pts.map P3.y)).sum,
      (List.zipWith (· * ·) w (pts.map P3.z)).sum⟩

/-- The point belongs to an element on which the basis function of global dof `g` does not vanish identically: an element with a
local dof that carries `g`. -/
def InSupport (v : View) (coord : Nat → P3 ℝ) (m : DofMaps) (g : Nat) (p : P3 ℝ) : Prop :=
  ∃ e ∈ v.elems, ∃ i, m.At ⟨e.index, i⟩ g ∧ InHull ((e.sub v.dim).map coord) p

/-- The box is the smallest box, with sides parallel to the axes, that contains the set. -/
structure IsBoundingBox (b : BBox) (S : P3 ℝ → Prop) : Prop where
  holds : ∀ p, S p → Between b.lbound p b.ubound
  least : ∀ lo hi, (∀ p, S p → Between lo p hi) → Between lo b.lbound hi ∧ Between lo b.ubound hi

/-- All vertices of the view have coordinates of modulus at most `big`. -/
def Finite (big : ℝ) (v : View) (coord : Nat → P3 ℝ) : Prop :=
  ∀ i, i < v.count v.dim → Between ⟨-big, -big, -big⟩ (coord i) ⟨big, big, big⟩

/-- The mean of two points. -/
def middle (p q : P3 ℝ) : P3 ℝ := ⟨(p.x + q.x) / 2, (p.y + q.y) / 2, (p.z + q.z) / 2⟩

/-- A point as a vector of coordinates. -/
def vec (p : P3 ℝ) : HMat.Pt ℝ := ![p.x, p.y, p.z]

/-- Box number `i` is the bounding box of the set `S i`. -/
def BoxesOf (boxes : List BBox) (S : Nat → P3 ℝ → Prop) : Prop :=
  ∀ i b, boxes[i]? = some b → IsBoundingBox b (S i)

/-- The dofs of a cluster. -/
def InCluster {G : Type} (p : HMat.DofPermutation) (c : HMat.CTree G) (i : Nat) : Prop :=
  ∃ j, p.o2h[i]? = some j ∧ c.data.lo ≤ j ∧ j < c.data.hi

end
end Verif.DofGeo
