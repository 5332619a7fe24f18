import Verif.Model.BuffaChristiansen
import Verif.Spec.Conformity
import Verif.Spec.Mesh
/-
Vocabulary for the Buffa-Christiansen spaces: oriented surfaces, with or without boundary.

Corner `x` of a grid is corner `x % 3` of triangle `x / 3`.
-/
namespace Verif.Space
open Verif.Grid

variable {K : Type}

/-- The next corner of the triangle. -/
def nextCorner (x : Nat) : Nat := 3 * (x / 3) + (x % 3 + 1) % 3

/-- The corner before. -/
def prevCorner (x : Nat) : Nat := 3 * (x / 3) + (x % 3 + 2) % 3

/-- The vertex at a corner. -/
def cornerAt (g : GridData K) (x : Nat) : Nat := ((g.data.elements[x / 3]?.map Tri.verts).getD []).getD (x % 3) 0

/-- The triangles at vertex `v` follow each other around it: `l` lists the corners at `v`, and the side that leads to `v` in the triangle
of a corner is the side that leads away from it in the triangle of the next one. -/
structure Fan (g : GridData K) (v : Nat) (l : List Nat) : Prop where
  mem : ∀ x, x ∈ l ↔ x < 3 * g.data.elements.length ∧ cornerAt g x = v
  distinct : (l.map fun x => cornerAt g (nextCorner x)).Nodup
  chain : ∀ i x y, l[i]? = some x → l[i + 1]? = some y → cornerAt g (prevCorner x) = cornerAt g (nextCorner y)

/-- All around the vertex. -/
def FanClosed (g : GridData K) (l : List Nat) : Prop :=
  ∀ x y, l.getLast? = some x → l.head? = some y → cornerAt g (prevCorner x) = cornerAt g (nextCorner y)

/-- From one part of the boundary to another. -/
def FanOpen (g : GridData K) (l : List Nat) : Prop :=
  ∀ x, l.getLast? = some x → cornerAt g (prevCorner x) ∉ l.map fun x => cornerAt g (nextCorner x)

/-- The grid is an oriented surface: around every vertex the triangles form one fan, closed or open. -/
def OrientedSurface (g : GridData K) : Prop :=
  ∀ v < g.data.nnodes, ∃ l, l ≠ [] ∧ Fan g v l ∧ (FanClosed g l ∨ FanOpen g l)

/-- Number of triangles at a vertex. -/
def valence (g : GridData K) (v : Nat) : Nat :=
  ((List.range (3 * g.data.elements.length)).filter fun x => cornerAt g x == v).length

/-- The vertex is an end of a side that belongs to one triangle only. -/
def BoundaryVertex (g : GridData K) (v : Nat) : Prop :=
  ∃ x < 3 * g.data.elements.length, (v = cornerAt g x ∨ v = cornerAt g (nextCorner x)) ∧
    ∀ y < 3 * g.data.elements.length, s(cornerAt g y, cornerAt g (nextCorner y)) = s(cornerAt g x, cornerAt g (nextCorner x)) → y = x

/-- Product with `d` of the value, at the point `q` of the triangle `t` with number `F` of the refined grid `b`, of the function with
coefficients `c` in the Buffa-Christiansen space. -/
noncomputable def bcField (b : GridData ℝ) (st : BcState ℝ) (c : Nat → ℝ) (F : Nat) (t : Tri) (q : ℝ × ℝ) (d : P3 ℝ) : ℝ :=
  expandW (st.maps.getGlobalDofs F) (st.weights.getD F []) c
    fun a => (Verif.Shape.hdivValue (bcShape (st.coeffs.getD F []) a q) (elementData b t)).dot d

/-- The surface divergence of this function. -/
noncomputable def bcDivergence (b : GridData ℝ) (st : BcState ℝ) (c : Nat → ℝ) (F : Nat) (t : Tri) (q : ℝ × ℝ) : ℝ :=
  expandW (st.maps.getGlobalDofs F) (st.weights.getD F []) c
    fun a => Verif.Shape.surfaceDiv (bcShape (st.coeffs.getD F []) a q) (elementData b t)

/-- Values of functions of the rotated space. -/
noncomputable def rbcField (b : GridData ℝ) (st : BcState ℝ) (c : Nat → ℝ) (F : Nat) (t : Tri) (q : ℝ × ℝ) (d : P3 ℝ) : ℝ :=
  expandW (st.maps.getGlobalDofs F) (st.weights.getD F []) c
    fun a => (Verif.Shape.hcurlValue (rbcShape (st.coeffs.getD F []) a q) (elementData b t)).dot d

/-- A side of two triangles, with numbers `e0 < e1`: the first runs through it from `a` to `z`, the second from `z` to `a`. -/
structure SharedSide (g : GridData K) (a z e0 e1 : Nat) : Prop where
  lt : e0 < e1
  first : ∃ t, g.data.elements[e0]? = some t ∧ Traverses t a z
  second : ∃ t, g.data.elements[e1]? = some t ∧ Traverses t z a

/-- The distance of two vertices. -/
noncomputable def sideLength (g : GridData ℝ) (x y : Nat) : ℝ :=
  Real.sqrt (((nodeAt g.nodes y).sub (nodeAt g.nodes x)).dot ((nodeAt g.nodes y).sub (nodeAt g.nodes x)))

/-- The vector of coefficients with one entry that is not zero. -/
noncomputable def unitAt (d : Nat) (α : ℝ) : Nat → ℝ := fun i => if i = d then α else 0

/-- `q` are the coordinates of a point of the side `x y` of the triangle `x y z`, which has number `F`; `ν` is the conormal there. -/
structure SidePoint (b : GridData ℝ) (F : Nat) (t : Tri) (x y z : Nat) (q : ℝ × ℝ) (ν : P3 ℝ) : Prop where
  elem : b.data.elements[F]? = some t
  verts : [x, y, z].Perm t.verts
  area : areaVector (nodeAt b.nodes t.a) (nodeAt b.nodes t.b) (nodeAt b.nodes t.c) ≠ ⟨0, 0, 0⟩
  on : OnSide b t q x y
  conormal : OutwardConormal (nodeAt b.nodes x) (nodeAt b.nodes y) (nodeAt b.nodes z) ν

open Classical in
/-- The dual basis of Buffa and Christiansen on the refinement `b` of `g`.  The midpoint of side `f` is vertex `nnodes + f` of the
refinement, the barycentre of triangle `e` is vertex `nnodes + edges.length + e`. -/
structure BcBasis (g b : GridData ℝ) (st : BcState ℝ) (dof : Sym2 Nat → Nat) : Prop where
  /-- The sides of two triangles have different dofs. -/
  injective : ∀ a z e0 e1 a' z' e0' e1', SharedSide g a z e0 e1 → SharedSide g a' z' e0' e1' → dof s(a, z) = dof s(a', z') → s(a, z) = s(a', z')
  /-- These are all dofs. -/
  range : ∀ d, d < st.maps.globalDofCount ↔ ∃ a z e0 e1, SharedSide g a z e0 e1 ∧ dof s(a, z) = d
  /-- A dof occurs once in the triangles of the refinement at the ends of its side, and in no others. -/
  occurs : ∀ a z e0 e1, SharedSide g a z e0 e1 → ∀ F t, b.data.elements[F]? = some t →
    (st.maps.getGlobalDofs F).count (dof s(a, z) : Int) = if a ∈ t.verts ∨ z ∈ t.verts then 1 else 0
  /-- The divergence is constant on the triangles at an end of the side, and the same for all of them, in integral: together they
  have divergence 1 at the end and -1 at the start, unless this is on the boundary. -/
  divergence : ∀ a z e0 e1, SharedSide g a z e0 e1 → ∀ (α : ℝ) F t q v, b.data.elements[F]? = some t →
    areaVector (nodeAt b.nodes t.a) (nodeAt b.nodes t.b) (nodeAt b.nodes t.c) ≠ ⟨0, 0, 0⟩ → v ∈ t.verts → v < g.data.nnodes →
    bcDivergence b st (unitAt (dof s(a, z)) α) F t q * ((elementData b t).integrationElement / 2) =
      if BoundaryVertex g v then 0 else if v = z then α / (2 * valence g v) else if v = a then -(α / (2 * valence g v)) else 0
  /-- Half the coefficient flows from the end to the start through each of the segments from the midpoint of the side to the barycentres
  of its two triangles. -/
  dual : ∀ a z e0 e1, SharedSide g a z e0 e1 → ∀ (c : Nat → ℝ) (f : Nat) (p : Nat × Nat) e, g.data.edges[f]? = some p → side p = s(a, z) →
    e = e0 ∨ e = e1 → ∀ F t v q ν, SidePoint b F t (g.data.nnodes + f) (g.data.nnodes + g.data.edges.length + e) v q ν →
    bcField b st c F t q ν * sideLength b (g.data.nnodes + f) (g.data.nnodes + g.data.edges.length + e) =
      if v = z then c (dof s(a, z)) / 2 else -(c (dof s(a, z)) / 2)
  /-- Nothing flows through the segments from the midpoints of sides that belong to one triangle only. -/
  single : ∀ e T S, g.data.elements[e]? = some T → S ∈ T.sides → (∀ e' T', g.data.elements[e']? = some T' → S ∈ T'.sides → e' = e) →
    ∀ (c : Nat → ℝ) (f : Nat) (p : Nat × Nat), g.data.edges[f]? = some p → side p = S →
    ∀ F t v q ν, SidePoint b F t (g.data.nnodes + f) (g.data.nnodes + g.data.edges.length + e) v q ν → bcField b st c F t q ν = 0
  /-- Nothing flows through the two halves of the side itself, except at ends on the boundary. -/
  half : ∀ a z e0 e1, SharedSide g a z e0 e1 → ∀ (α : ℝ) (f : Nat) (p : Nat × Nat), g.data.edges[f]? = some p → side p = s(a, z) →
    ∀ F t v q ν, SidePoint b F t v (g.data.nnodes + f) (g.data.nnodes + g.data.edges.length + e0) q ν →
    bcField b st (unitAt (dof s(a, z)) α) F t q ν * sideLength b v (g.data.nnodes + f) =
      if BoundaryVertex g v then α * ((valence g v - 2) / (2 * valence g v)) else 0

end Verif.Space
