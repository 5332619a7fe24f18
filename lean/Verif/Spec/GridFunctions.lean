import Verif.Model.GridFunctions
import Verif.Spec.LocalOperators
import Verif.Spec.Assembly
import Verif.Props.ShapeTransformation
/-
What projections of functions should be.
-/
namespace Verif.GridFun
open Verif.Grid Verif.Shape Verif.SingleQuad Verif.Space Verif.HMat Verif.LocalOps Verif.Assembly
noncomputable section

/-- The unit normal of the triangle `A B C`: the vector area divided by its length. -/
def unitNormal (A B C : P3 ℝ) : P3 ℝ :=
  P3.smul (1 / Real.sqrt ((areaVector A B C).dot (areaVector A B C))) (areaVector A B C)

/-- The integral of a complex function over the triangle `A B C`. -/
def surfaceIntegralC (A B C : P3 ℝ) (f : P3 ℝ → ℂ) : ℂ :=
  ⟨surfaceIntegral A B C fun X => (f X).re, surfaceIntegral A B C fun X => (f X).im⟩

/-- A function of the position, the normal and the domain index, given by one of the four classes of the library. -/
inductive FunctionClass (dim : Nat) : UserFunction → (P3 ℝ → P3 ℝ → Int → Nat → ℂ) → Prop
  | position (f : P3 ℝ → Nat → ℂ) : FunctionClass dim (normalIndependent dim f) fun X _ _ => f X
  | normal (f : P3 ℝ → P3 ℝ → Nat → ℂ) : FunctionClass dim (normalDependent dim f) fun X n _ => f X n
  | domain (f : P3 ℝ → Int → Nat → ℂ) : FunctionClass dim (domainIndexDependent dim f) fun X _ d => f X d
  | both (f : P3 ℝ → P3 ℝ → Int → Nat → ℂ) : FunctionClass dim (normalAndDomainIndexDependent dim f) f

/-- A call of `evaluateLocalWeakForms`. -/
structure Call (addr : Type) where
  test : Transformation
  function : UserFunction
  mesh : FMesh
  options : Verif.Quad.QuadOpts
  shapeset : addr → Shapeset
  testAt : Nat → addr
  elements : List Nat
  order : List (Descriptor × addr)
  old : List Column
  blank : Nat → Data

/-- The test shapeset of an element. -/
def Call.shapes {addr : Type} (c : Call addr) (e : Nat) : Shapeset := c.shapeset (c.testAt e)

/-- The order of accuracy requested for an element: by default `2 p + 1` for a shapeset of order `p`. -/
def Call.accuracy {addr : Type} (c : Call addr) (e : Nat) : ℤ :=
  if c.options.relative then 2 * (c.shapes e).order + 1 + c.options.value else c.options.value

/-- What the call does. -/
def Call.run {addr : Type} [DecidableEq addr] (c : Call addr) : Outcome (List Column) :=
  evaluateLocalWeakForms c.test c.function c.mesh c.options c.shapeset c.testAt c.elements c.order c.old c.blank

/-- The calls considered: the elements are triangles (element `e` has the corners `tri e`), the accuracy orders are at most 20, and the
set of variants is traversed in some order. -/
structure Call.Valid {addr : Type} (c : Call addr) (tri : Nat → P3 ℝ × P3 ℝ × P3 ℝ) : Prop where
  test : IsTransformation c.test
  triangles : ∀ e ∈ c.elements, IsTriangle c.mesh.toMesh e (tri e).1 (tri e).2.1 (tri e).2.2
  positions : ∀ e ∈ c.elements, ∀ p, c.mesh.local2global e p = refMap (tri e).1 (tri e).2.1 (tri e).2.2 p
  orders : ∀ e ∈ c.elements, c.accuracy e ≤ 20
  nodup : c.order.Nodup
  complete : ∀ v, v ∈ c.order ↔ ∃ e ∈ c.elements, v = (⟨3, c.accuracy e⟩, c.testAt e)
  old : c.old.length = c.elements.length

/-- The integrand on an element at a point of the reference triangle, the test function having the values `φ e i (x, y)`: the sum over the
components of test function times function, at the point of the element, with its normal and its domain index. -/
def Call.integrand {addr : Type} (c : Call addr) (tri : Nat → P3 ℝ × P3 ℝ × P3 ℝ) (f : P3 ℝ → P3 ℝ → Int → Nat → ℂ)
    (e i : Nat) (x y : ℝ) : ℂ :=
  ∑ d ∈ Finset.range c.test.dim,
    ((c.test.evaluate ((c.shapes e).shape i (x, y)) (fullData (tri e).1 (tri e).2.1 (tri e).2.2) d : ℝ) : ℂ) *
      f (refMap (tri e).1 (tri e).2.1 (tri e).2.2 (x, y)) (unitNormal (tri e).1 (tri e).2.1 (tri e).2.2) (c.mesh.domainIndex e) d

/-- `P` and `Q` are the real and imaginary parts of the integrand, polynomials of degree at most the accuracy order. -/
structure Call.Polynomial {addr : Type} (c : Call addr) (tri : Nat → P3 ℝ × P3 ℝ × P3 ℝ) (f : P3 ℝ → P3 ℝ → Int → Nat → ℂ)
    (e i : Nat) (P Q : MvPolynomial (Fin 2) ℝ) : Prop where
  re : ∀ x y, value P x y = (c.integrand tri f e i x y).re
  im : ∀ x y, value Q x y = (c.integrand tri f e i x y).im
  degRe : (P.totalDegree : ℤ) ≤ max (c.accuracy e) 1
  degIm : (Q.totalDegree : ℤ) ≤ max (c.accuracy e) 1

/-- The integral of test function `i` times the function over element `e`. -/
def Call.exact {addr : Type} (c : Call addr) (tri : Nat → P3 ℝ × P3 ℝ × P3 ℝ) (f : P3 ℝ → P3 ℝ → Int → Nat → ℂ) (e i : Nat) : ℂ :=
  ⟨2 * area (tri e).1 (tri e).2.1 (tri e).2.2 * triangleIntegral fun x y => (c.integrand tri f e i x y).re,
   2 * area (tri e).1 (tri e).2.1 (tri e).2.2 * triangleIntegral fun x y => (c.integrand tri f e i x y).im⟩

/-- `v` is the column that the call returns for the `k`-th element in the list, which is element `e`. -/
def Call.Returns {addr : Type} [DecidableEq addr] (c : Call addr) (k e : Nat) (v : Column) : Prop :=
  c.elements[k]? = some e ∧ ∃ result, c.run = .ok result ∧ result[k]? = some v

/-- Entry `i` of the projection: the sum over all local dofs `(e, a)` that carry the global dof `i` of the conjugate of their weight
times `form e a`. -/
def projectionEntry (sp : ASpace ℂ) (form : Nat → Nat → ℂ) (i : Nat) : ℂ :=
  ∑ e ∈ Finset.range sp.elementCount, ∑ a ∈ Finset.range (sp.gdofs e).length,
    if sp.maps.At ⟨e, a⟩ i then star (sp.weight e a) * form e a else 0

end
end Verif.GridFun
