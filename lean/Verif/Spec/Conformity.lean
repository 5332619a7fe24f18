import Verif.Spec.ShapeTransformation
import Verif.Model.SpaceVector
import Verif.Spec.SpaceVector
import Verif.Spec.SpaceBarycentric
/-
Vocabulary for conformity of vector fields on triangular surfaces.
-/
namespace Verif.Space
open Verif.Grid Verif.Shape

/-- `ν` is the unit vector in the plane of the triangle `X Y Z`, orthogonal to its side `X Y`, that points out of it. -/
structure OutwardConormal (X Y Z ν : P3 ℝ) : Prop where
  unit : ν.dot ν = 1
  orthogonal : ν.dot (Y.sub X) = 0
  coplanar : ν.dot (areaVector X Y Z) = 0
  outward : ν.dot (Z.sub X) < 0

/-- The point with coordinates `q` in the triangle `t` of the grid `g` lies on the line through its vertices `x`, `y`. -/
def OnSide (g : GridData ℝ) (t : Tri) (q : ℝ × ℝ) (x y : Nat) : Prop :=
  ∃ τ : ℝ, refMap (nodeAt g.nodes t.a) (nodeAt g.nodes t.b) (nodeAt g.nodes t.c) q =
    ⟨(nodeAt g.nodes x).x + τ * ((nodeAt g.nodes y).x - (nodeAt g.nodes x).x),
     (nodeAt g.nodes x).y + τ * ((nodeAt g.nodes y).y - (nodeAt g.nodes x).y),
     (nodeAt g.nodes x).z + τ * ((nodeAt g.nodes y).z - (nodeAt g.nodes x).z)⟩

/-- The triangle runs through its vertices `x`, `y` in this order. -/
def Traverses (t : Tri) (x y : Nat) : Prop :=
  (x = t.a ∧ y = t.b) ∨ (x = t.b ∧ y = t.c) ∨ (x = t.c ∧ y = t.a)

/-- Geometrical data of a triangle of the grid. -/
noncomputable def elementData (g : GridData ℝ) (t : Tri) : GeomData :=
  let j := jacobianTransposed (nodeAt g.nodes t.a) (nodeAt g.nodes t.b) (nodeAt g.nodes t.c)
  ⟨j.1, j.2, (jacobianInverseTransposed j).1, (jacobianInverseTransposed j).2, integrationElement j, calculateNormals j.1 j.2⟩

/-- The weights of the local dofs of the element with index `e`. -/
noncomputable def elementWeights (v : View) (s : GridSegment) (mode : DofMode) (vol : Nat → ℝ) (e : Nat) : List ℝ :=
  ((v.elems[e]?).map (rwgWeights v s mode vol)).getD []

/-- The lengths of the edges of the grid. -/
noncomputable def edgeLength (g : GridData ℝ) (f : Nat) : ℝ :=
  match g.data.edges[f]? with
  | some p => let d := (nodeAt g.nodes p.2).sub (nodeAt g.nodes p.1); Real.sqrt (d.dot d)
  | none => 0

/-- Product with `d` of the value, at the point `q` of element `e`, of the function with coefficients `c` in a space of
Raviart-Thomas type (RWG: `vol` = lengths of the edges, Raviart-Thomas: `vol = 1`). -/
noncomputable def rtField (g : GridData ℝ) (v : View) (s : GridSegment) (mode : DofMode) (vol : Nat → ℝ) (m : DofMaps)
    (c : Nat → ℝ) (e : Nat) (t : Tri) (q : ℝ × ℝ) (d : P3 ℝ) : ℝ :=
  expandW (m.getGlobalDofs e) (elementWeights v s mode vol e) c
    fun a => (hdivValue (rtShape a q) (elementData g t)).dot d

/-- The same for spaces of Nedelec type. -/
noncomputable def ncField (g : GridData ℝ) (v : View) (s : GridSegment) (mode : DofMode) (vol : Nat → ℝ) (m : DofMaps)
    (c : Nat → ℝ) (e : Nat) (t : Tri) (q : ℝ × ℝ) (d : P3 ℝ) : ℝ :=
  expandW (m.getGlobalDofs e) (elementWeights v s mode vol e) c
    fun a => (hcurlValue (ncShape a q) (elementData g t)).dot d

end Verif.Space
