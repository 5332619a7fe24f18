import Verif.Model.LocalOperators
import Verif.Spec.Quadrature
import Verif.Spec.SpaceBarycentric
import Verif.Spec.ShapeTransformation
/-
What local operators should do.
-/
namespace Verif.LocalOps
open Verif.Grid Verif.Shape Verif.SingleQuad Verif.Space Verif.HMat
noncomputable section

/-- The area of a triangle. -/
def area (A B C : P3 ℝ) : ℝ := Real.sqrt ((areaVector A B C).dot (areaVector A B C)) / 2

/-- The integral over the triangle `A B C` in space: twice its area times the integral over the reference triangle, which is mapped
onto it by the affine map `refMap A B C`. -/
def surfaceIntegral (A B C : P3 ℝ) (f : P3 ℝ → ℝ) : ℝ :=
  2 * area A B C * triangleIntegral fun x y => f (refMap A B C (x, y))

/-- An element that is the triangle `A B C` of positive area. -/
def IsTriangle (mesh : Mesh) (e : Nat) (A B C : P3 ℝ) : Prop :=
  mesh.cornerCount e = 3 ∧ (mesh.getData e = fun _ => Verif.Shape.getData A B C) ∧ areaVector A B C ≠ ⟨0, 0, 0⟩

/-- A call of `evaluateLocalWeakForms` with everything it depends on: the shapesets live at addresses; `order` is the order in which
the set of variants is traversed (it depends on addresses); `old` and `blank` are what the result and new geometrical data hold. -/
structure Call (addr : Type) where
  op : Operator
  mesh : Mesh
  shapeset : addr → Shapeset
  testAt : Nat → addr
  trialAt : Nat → addr
  elements : List Nat
  order : List (Descriptor × addr × addr)
  old : List (Mx ℝ)
  blank : Nat → GeomData

/-- The test shapeset of an element. -/
def Call.test {addr : Type} (c : Call addr) (e : Nat) : Shapeset := c.shapeset (c.testAt e)

/-- The trial shapeset of an element. -/
def Call.trial {addr : Type} (c : Call addr) (e : Nat) : Shapeset := c.shapeset (c.trialAt e)

/-- What the call does. -/
def Call.run {addr : Type} [DecidableEq addr] (c : Call addr) : Outcome (List (Mx ℝ)) :=
  evaluateLocalWeakForms c.op c.mesh c.shapeset c.testAt c.trialAt c.elements c.order c.old c.blank

/-- The transformations used by local operators. -/
def IsTransformation (T : Transformation) : Prop := T = scalarValueT ∨ T = hdivT ∨ T = hcurlT ∨ T = surfaceGradT ∨ T = surfaceDivT ∨
  T = surfaceCurlT ∨ T = hcurlSurfaceCurlT ∨ T = valueTimesNormalT

/-- The calls considered: the elements are triangles (element `e` has the corners `tri e`), the orders of the shapesets on each element
add up to at most 20, and the set of variants is traversed in some order. -/
structure Call.Valid {addr : Type} (c : Call addr) (tri : Nat → P3 ℝ × P3 ℝ × P3 ℝ) : Prop where
  test : IsTransformation c.op.test
  trial : IsTransformation c.op.trial
  functor : c.op.functor = simpleFunctor ∨ c.op.functor = maxwellFunctor ∨ ∃ a b, c.op.functor = singleComponentFunctor a b
  triangles : ∀ e ∈ c.elements, IsTriangle c.mesh e (tri e).1 (tri e).2.1 (tri e).2.2
  orders : ∀ e ∈ c.elements, (c.test e).order + (c.trial e).order ≤ 20
  nodup : c.order.Nodup
  complete : ∀ v, v ∈ c.order ↔ ∃ e ∈ c.elements, v = (⟨3, (c.test e).order + (c.trial e).order⟩, c.testAt e, c.trialAt e)
  old : c.old.length = c.elements.length

/-- `m` is the matrix that the call returns for the `k`-th element in the list, which is element `e`. -/
def Call.Returns {addr : Type} [DecidableEq addr] (c : Call addr) (k e : Nat) (m : Mx ℝ) : Prop :=
  c.elements[k]? = some e ∧ ∃ result, c.run = .ok result ∧ result[k]? = some m

/-- Edge opposite to vertex `i`. -/
def oppositeEdge (A B C : P3 ℝ) (i : Nat) : P3 ℝ := if i = 0 then C.sub B else if i = 1 then A.sub C else B.sub A

/-- Vertex opposite to edge `i` in the numbering of edges of the Raviart-Thomas functions: edges AB, AC, BC. -/
def oppositeVertex (A B C : P3 ℝ) (i : Nat) : P3 ℝ := if i = 0 then C else if i = 1 then B else A

end
end Verif.LocalOps
