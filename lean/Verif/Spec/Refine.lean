import Verif.Model.Refine
import Verif.Model.Inside
import Mathlib.Data.Sym.Sym2
import Mathlib.Data.List.Perm.Basic
/-
Surface grids and newest vertex bisection.
-/
namespace Verif.Refine
open Verif.Grid
noncomputable section

/-- The two vertices of edge `j` of element `e`: edges 0, 1, 2 join vertices 0 1, 0 2, 1 2. -/
def View.ends (v : View) (e j : Nat) : Sym2 Nat :=
  if j = 0 then s(v.corner e 0, v.corner e 1) else if j = 1 then s(v.corner e 0, v.corner e 2) else s(v.corner e 1, v.corner e 2)

/-- Element `e` has the edge `p`. -/
def View.HasEdge (v : View) (e : Nat) (p : Sym2 Nat) : Prop := ∃ j < 3, v.ends e j = p

/-- The number of elements with the edge `p`. -/
def View.edgeCount (v : View) (p : Sym2 Nat) : Nat :=
  (List.range v.elementCount).countP fun e => decide (p = v.ends e 0 ∨ p = v.ends e 1 ∨ p = v.ends e 2)

/-- The vertices of element `e`. -/
def View.vertexSet (v : View) (e : Nat) : Finset Nat := {v.corner e 0, v.corner e 1, v.corner e 2}

/-- A surface grid: elements have three different vertices, no two elements have the same, edges have numbers and coordinates, and no
edge belongs to more than two elements. -/
structure View.Valid (v : View) : Prop where
  corner_lt : ∀ e < v.elementCount, ∀ i < 3, v.corner e i < v.vertexCount
  corner_ne : ∀ e < v.elementCount, v.corner e 0 ≠ v.corner e 1 ∧ v.corner e 0 ≠ v.corner e 2 ∧ v.corner e 1 ≠ v.corner e 2
  distinct : ∀ e < v.elementCount, ∀ e' < v.elementCount, v.vertexSet e = v.vertexSet e' → e = e'
  edge_iff : ∀ e < v.elementCount, ∀ e' < v.elementCount, ∀ j < 3, ∀ j' < 3, v.edge e j = v.edge e' j' ↔ v.ends e j = v.ends e' j'
  edge_coord : ∀ e < v.elementCount, ∀ j < 3, s((v.edgeCorners (v.edge e j)).1, (v.edgeCorners (v.edge e j)).2) = (v.ends e j).map v.coord
  reference_lt : ∀ e < v.elementCount, v.referenceEdge e < 3
  manifold : ∀ p, v.edgeCount p ≤ 2

/-- The edges that have to be cut: the reference edges of the marked elements and of every element with an edge that has to be cut. -/
inductive View.Cut (v : View) (marks : Finset Nat) : Sym2 Nat → Prop
  | marked {e : Nat} (h : e < v.elementCount) (hm : e ∈ marks) : Cut v marks (v.ends e (v.referenceEdge e))
  | spread {e : Nat} {p : Sym2 Nat} (h : e < v.elementCount) (hp : v.HasEdge e p) (hc : Cut v marks p) :
      Cut v marks (v.ends e (v.referenceEdge e))

/-- A triangle with the positively oriented vertices `a`, `b`, `c` and the reference edge `ab`. -/
structure RefTriangle where
  a : Nat
  b : Nat
  c : Nat

/-- The triangle of an element with vertices `x`, `y`, `z` and reference edge `r`. -/
def refTriangle (x y z r : Nat) : RefTriangle := if r = 0 then ⟨x, y, z⟩ else if r = 1 then ⟨z, x, y⟩ else ⟨y, z, x⟩

/-- The triangle of an element. -/
def View.triangle (v : View) (e : Nat) : RefTriangle := refTriangle (v.corner e 0) (v.corner e 1) (v.corner e 2) (v.referenceEdge e)

/-- The triangle of a new element. -/
def NewElement.triangle (k : NewElement) : RefTriangle := refTriangle k.a k.b k.c k.reference

/-- Newest vertex bisection: a triangle is bisected at its reference edge as long as that edge is to be cut (`cut` is its midpoint);
the reference edges of the two halves are opposite to the new vertex. -/
inductive Bisection (cut : Sym2 Nat → Option Nat) : RefTriangle → List RefTriangle → Prop
  | keep {a b c : Nat} (h : cut s(a, b) = none) : Bisection cut ⟨a, b, c⟩ [⟨a, b, c⟩]
  | halve {a b c m : Nat} {l1 l2 l : List RefTriangle} (h : cut s(a, b) = some m) (h1 : Bisection cut ⟨c, a, m⟩ l1)
      (h2 : Bisection cut ⟨b, c, m⟩ l2) (hl : l.Perm (l1 ++ l2)) : Bisection cut ⟨a, b, c⟩ l

/-- `cut` numbers the edges to be cut consecutively, starting with `first`, the number of the first new vertex, and `count` is their
number. -/
structure Numbering (edges : Sym2 Nat → Prop) (first count : Nat) (cut : Sym2 Nat → Option Nat) : Prop where
  isSome : ∀ p, (cut p).isSome ↔ edges p
  range : ∀ p k, cut p = some k → first ≤ k ∧ k < first + count
  injective : ∀ p q k, cut p = some k → cut q = some k → p = q
  onto : ∀ k, first ≤ k → k < first + count → ∃ p, cut p = some k

/-- The new elements are the triangles of a view. -/
structure IsView (v : View) (g : NewGrid) : Prop where
  elementCount : v.elementCount = g.elements.length
  vertexCount : v.vertexCount = g.vertices.length
  corner : ∀ e k, g.elements[e]? = some k → v.corner e 0 = k.a ∧ v.corner e 1 = k.b ∧ v.corner e 2 = k.c ∧ v.referenceEdge e = k.reference ∧
    v.domain e = k.domain
  coord : ∀ i x, g.vertices[i]? = some x → v.coord i = x
  edge_iff : ∀ e < v.elementCount, ∀ e' < v.elementCount, ∀ j < 3, ∀ j' < 3, v.edge e j = v.edge e' j' ↔ v.ends e j = v.ends e' j'
  edge_coord : ∀ e < v.elementCount, ∀ j < 3, s((v.edgeCorners (v.edge e j)).1, (v.edgeCorners (v.edge e j)).2) = (v.ends e j).map v.coord

/-- `v'` is the result of any number of refinements of `v`. -/
inductive Refinements (v : View) : View → Prop
  | refl : Refinements v v
  | step {v1 v2 : View} {marks : Finset Nat} {g : NewGrid} (h : Refinements v v1) (hm : ∀ e ∈ marks, e < v1.elementCount)
      (hr : v1.Refines marks g) (hv : IsView v2 g) : Refinements v v2

/-- Twice the area vector of a triangle. -/
def RefTriangle.area (x : Nat → P3 ℝ) (t : RefTriangle) : P3 ℝ := ((x t.b).sub (x t.a)).cross ((x t.c).sub (x t.a))

/-- `t` is `1 / 2 ^ g` of `u`, with the same normal. -/
def P3.IsFraction (g : Nat) (t u : P3 ℝ) : Prop := t.x = u.x / 2 ^ g ∧ t.y = u.y / 2 ^ g ∧ t.z = u.z / 2 ^ g

/-- The vertices of the refined grid: the old ones and the midpoints of the cut edges. -/
structure RefinedVertices (v : View) (marks : Finset Nat) (g : NewGrid) (cut : Sym2 Nat → Option Nat) : Prop where
  numbering : Numbering (v.Cut marks) v.vertexCount (g.vertices.length - v.vertexCount) cut
  length : v.vertexCount ≤ g.vertices.length
  old : ∀ i < v.vertexCount, g.vertices[i]? = some (v.coord i)
  new : ∀ a b m, cut s(a, b) = some m → g.vertices[m]? = some (midpoint (v.coord a, v.coord b))

/-- The elements of the refined grid: every element is replaced by its bisection. -/
structure RefinedElements (v : View) (marks : Finset Nat) (g : NewGrid) (cut : Sym2 Nat → Option Nat) (children : Nat → List NewElement) : Prop where
  elements : g.elements = (List.range v.elementCount).flatMap children
  bisection : ∀ e < v.elementCount, Bisection cut (v.triangle e) ((children e).map NewElement.triangle)
  domain : ∀ e < v.elementCount, ∀ k ∈ children e, k.domain = v.domain e
  marked : ∀ e < v.elementCount, e ∈ marks → 2 ≤ (children e).length
  most : ∀ e < v.elementCount, (children e).length ≤ 4
  kept : ∀ e < v.elementCount, (∀ p, v.HasEdge e p → ¬ v.Cut marks p) →
    children e = [⟨v.corner e 0, v.corner e 1, v.corner e 2, v.referenceEdge e, v.domain e⟩]

end
end Verif.Refine
