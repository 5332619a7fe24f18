import Verif.Model.PotentialOperators
import Verif.Spec.GridFunctions
import Verif.Spec.Kernels
/-
What the evaluation of potential operators should do.
-/
namespace Verif.Pot
open Verif.Grid Verif.Shape Verif.SingleQuad Verif.Space Verif.HMat Verif.LocalOps Verif.GridFun Verif.Kernel
noncomputable section

/-- The triangle with number `e` in a list of triangles. -/
abbrev Triangles := Nat → P3 ℝ × P3 ℝ × P3 ℝ

/-- The centroid of a triangle. -/
def centroid3 (T : P3 ℝ × P3 ℝ × P3 ℝ) : P3 ℝ :=
  ⟨(T.1.x + T.2.1.x + T.2.2.x) / 3, (T.1.y + T.2.1.y + T.2.2.y) / 3, (T.1.z + T.2.1.z + T.2.2.z) / 3⟩

/-- The longest side of a triangle. -/
def longestSide (T : P3 ℝ × P3 ℝ × P3 ℝ) : ℝ := max (max (dist T.2.1 T.1) (dist T.2.2 T.2.1)) (dist T.1 T.2.2)

/-- The value of the integrand of component `c` of a potential operator for a function with the data `b` at the point of the triangle
`A B C` that belongs to the point `p` of the reference triangle, the potential being evaluated at `x`: what its integrand functor makes
of the kernels at `x` and the point with the unit normal of the triangle, and of the transformed values of the function. -/
def PotentialOperator.integrand (op : PotentialOperator) (T : P3 ℝ × P3 ℝ × P3 ℝ) (x : P3 ℝ) (b : BasisAt) (p : ℝ × ℝ) (c : Nat) : ℂ :=
  op.functor.evaluate ⟨fullData T.1 T.2.1 T.2.2, refMap T.1 T.2.1 T.2.2 p, 0⟩
    (kernelValues op.kernels ⟨x, ⟨0, 0, 0⟩⟩ ⟨refMap T.1 T.2.1 T.2.2 p, unitNormal T.1 T.2.1 T.2.2⟩)
    (transformed op.transformations b (fullData T.1 T.2.1 T.2.2)) c

/-- The approximation of the integral of the integrand over the triangle by a quadrature rule of the reference triangle. -/
def PotentialOperator.contribution (op : PotentialOperator) (T : P3 ℝ × P3 ℝ × P3 ℝ) (rule : List QPoint) (x : P3 ℝ)
    (shape : ℝ × ℝ → BasisAt) (c : Nat) : ℂ :=
  ((2 * area T.1 T.2.1 T.2.2 : ℝ) : ℂ) * (rule.map fun q => (q.w : ℂ) * op.integrand T x (shape (q.x, q.y)) (q.x, q.y) c).sum

/-- The assemblers considered: the operator is one of the library, the grid consists of the triangles `tri e` of positive area, and the
accuracy options serve every distance. -/
structure Assembler.Valid {addr : Type} (A : Assembler addr) (k : ℂ) (tri : Triangles) : Prop where
  op : A.op ∈ potentialOperators k
  triangles : ∀ e < A.grid.elementCount, IsTriangle A.mesh.toMesh e (tri e).1 (tri e).2.1 (tri e).2.2
  positions : ∀ e < A.grid.elementCount, ∀ p, A.mesh.local2global e p = refMap (tri e).1 (tri e).2.1 (tri e).2.2 p
  corners : ∀ e < A.grid.elementCount, ∃ a b c, A.grid.corners e = [a, b, c] ∧ A.grid.vertex a = toPoint (tri e).1 ∧
    A.grid.vertex b = toPoint (tri e).2.1 ∧ A.grid.vertex c = toPoint (tri e).2.2
  serves : ∀ d : ℝ, ∃ o, Verif.Quad.regularOptions A.singleRegular d = some o

/-- The shapeset of an element. -/
def Assembler.shapes {addr : Type} (A : Assembler addr) (e : Nat) : Shapeset := A.shapeset (A.trialAt e)

/-- The distance on which the accuracy depends: from the point to the centroid of the triangle, in units of its longest side - or the
nominal distance, if it is not negative, in units of the average longest side of the grid. -/
def Assembler.distance {addr : Type} (A : Assembler addr) (tri : Triangles) (x : P3 ℝ) (e : Nat) (nominal : ℝ) : ℝ :=
  if nominal < 0 then dist x (centroid3 (tri e)) / longestSide (tri e)
  else nominal / ((∑ e ∈ Finset.range A.grid.elementCount, longestSide (tri e)) / A.grid.elementCount)

/-- `n` is the order of accuracy requested: by default twice the order of the shapeset, changed by the options for the distance. -/
def Assembler.Accuracy {addr : Type} (A : Assembler addr) (tri : Triangles) (x : P3 ℝ) (e : Nat) (nominal : ℝ) (n : Int) : Prop :=
  ∃ o, Verif.Quad.regularOptions A.singleRegular (A.distance tri x e nominal) = some o ∧
    n = if o.relative then 2 * (A.shapes e).order + o.value else o.value

/-- All the orders for these points and elements are at most 20 (there is no rule for more). -/
def Assembler.Moderate {addr : Type} (A : Assembler addr) (tri : Triangles) (ps es : List Nat) (nominal : ℝ) : Prop :=
  ∀ p ∈ ps, ∀ e ∈ es, ∀ n, A.Accuracy tri (A.points p) e nominal n → n ≤ 20

/-- `order` lists the different values of `f` on `items`, in some order. -/
def Traversal {I V : Type} (f : I → V → Prop) (items : List I) (order : List V) : Prop :=
  order.Nodup ∧ ∀ v, v ∈ order ↔ ∃ i ∈ items, f i v

/-- The descriptor of the rule for a point and an element. -/
def Assembler.Rule {addr : Type} (A : Assembler addr) (tri : Triangles) (p e : Nat) (nominal : ℝ) (d : Descriptor) : Prop :=
  d.vertexCount = 3 ∧ A.Accuracy tri (A.points p) e nominal d.order

end
end Verif.Pot
