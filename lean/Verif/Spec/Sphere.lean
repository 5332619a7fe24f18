import Verif.Spec.Shapes
import Verif.Model.Sphere

/-!
# Triangulated spheres
-/

noncomputable section

namespace Verif.Shapes

/-- The corners of an element, in order. -/
def cornersOf (t : Tri) : List ℕ := [t.1, t.2.1, t.2.2]

/-- `c` are the barycentric coordinates (one number per node, zero for nodes that are not corners of
`t`) of the point `p` of the element `t`. -/
structure BaryOn (nodes : List V3) (t : Tri) (c : ℕ → ℝ) (p : V3) : Prop where
  nonneg : ∀ k, 0 ≤ c k
  corners : ∀ k, k ∉ cornersOf t → c k = 0
  total : c t.1 + c t.2.1 + c t.2.2 = 1
  point : ∀ i, p i = c t.1 * nodeAt nodes t.1 i + c t.2.1 * nodeAt nodes t.2.1 i + c t.2.2 * nodeAt nodes t.2.2 i

/-- The point `p` lies on the surface. -/
def OnMesh (nodes : List V3) (els : List Tri) (p : V3) : Prop := ∃ t ∈ els, ∃ c, BaryOn nodes t c p

/-- The point `p` lies on the ray from `o` in direction `x`. -/
def OnRay (o x p : V3) : Prop := ∃ s : ℝ, 0 < s ∧ ∀ i, p i = o i + s * x i

/-- The squared distance of two points. -/
def dist3 (p q : V3) : ℝ := (p 0 - q 0) ^ 2 + (p 1 - q 1) ^ 2 + (p 2 - q 2) ^ 2

/-- A triangulation of the sphere with centre `o` and radius `r`. -/
structure SphereTriangulation (o : V3) (r : ℝ) (nodes : List V3) (els : List Tri) : Prop where
  /-- elements refer to existing nodes -/
  inRange : ∀ t ∈ els, ∀ k ∈ cornersOf t, k < nodes.length
  /-- every node is a corner of an element -/
  used : ∀ k < nodes.length, ∃ t ∈ els, k ∈ cornersOf t
  /-- different nodes lie at different places -/
  different : nodes.Nodup
  /-- the nodes lie on the sphere -/
  onSphere : ∀ p ∈ nodes, dist3 p o = r ^ 2
  /-- the surface is closed and consistently oriented -/
  closed : ClosedSurface (els.map cornersOf)
  /-- seen along its normal, the centre of the sphere is behind every element -/
  outward : ∀ t ∈ els, Behind (nodeAt nodes t.1) (nodeAt nodes t.2.1) (nodeAt nodes t.2.2) o
  /-- two elements only meet in what their common corners span -/
  conforming : ∀ t ∈ els, ∀ t' ∈ els, ∀ p c c', BaryOn nodes t c p → BaryOn nodes t' c' p → c = c'
  /-- every ray from the centre meets the surface in exactly one point -/
  around : ∀ x, x ≠ 0 → ∃! p, OnRay o x p ∧ OnMesh nodes els p

end Verif.Shapes
