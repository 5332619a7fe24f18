import Verif.Model.Space
import Verif.Spec.GridSegment
import Mathlib.Data.Finset.Card
import Mathlib.Data.Sym.Sym2
/-
Specification vocabulary for the dof maps of the spaces.
-/
namespace Verif.Space
open Verif.Grid

/-- The position `ld = (element, local dof)` carries the global dof `g` (what `getGlobalDofs` reports). -/
def DofMaps.At (m : DofMaps) (ld : LocalDof) (g : Int) : Prop :=
  (m.getGlobalDofs ld.entityIndex)[ld.dofIndex]? = some g

/-- The two maps and the flat list describe the same relation: every entry of the local-to-global map is -1 or a valid
global dof; `global2localDofs(g)` lists exactly the local dofs that carry `g`, each once; the flat local
dofs are exactly the local dofs that carry some global dof, in increasing order of (element, local dof). -/
structure DofMaps.Consistent (m : DofMaps) : Prop where
  range : ∀ ld g, m.At ld g → g = -1 ∨ (0 ≤ g ∧ g < m.globalDofCount)
  inverse : ∀ g : Nat, g < m.globalDofCount → ∀ ld, ld ∈ m.globalToLocal g ↔ m.At ld g
  once : ∀ g : Nat, g < m.globalDofCount → (m.globalToLocal g).Nodup
  flat_mem : ∀ ld, ld ∈ m.flat ↔ ∃ g : Nat, m.At ld g
  flat_sorted : m.flat.Pairwise fun a b =>
    a.entityIndex < b.entityIndex ∨ (a.entityIndex = b.entityIndex ∧ a.dofIndex < b.dofIndex)

/-- The vertex carries a dof of the continuous P1 space: it belongs to the segment and, in strict mode, also
some element of the segment touches it. -/
def P1Vertex (v : View) (s : GridSegment) (strict : Bool) (i : Nat) : Prop :=
  s.contains v.dim i = .ok true ∧
    (strict = true → ∃ e ∈ v.elems, s.contains 0 e.index = .ok true ∧ i ∈ e.sub v.dim)

open Classical in
/-- Number of indices below `k` with a property. -/
noncomputable def countBelow (p : Nat → Prop) (k : Nat) : Nat := ((Finset.range k).filter p).card

/-- The segment was made for a view with these entity counts. -/
def SegmentOf (v : View) (s : GridSegment) : Prop := ∀ c, s.counts c = v.count c

end Verif.Space

namespace Verif.Space
open Verif.Grid

/-- The elements that have the edge `f`. -/
def adjacentElems (v : View) (f : Nat) : List Elem := v.elems.filter fun e => decide (f ∈ e.sub 1)

/-- The edge carries an RWG dof: it belongs to the segment if edges are selected by the segment; it has at
least two neighbours, or one if dofs are put on boundaries; some neighbour belongs to the segment if elements
are selected by the segment. -/
def RWGEdge (v : View) (s : GridSegment) (mode : DofMode) (putDofsOnBoundaries : Bool) (f : Nat) : Prop :=
  (mode.edgeOnSegment = true → s.contains 1 f = .ok true) ∧
  1 ≤ (adjacentElems v f).length ∧ (putDofsOnBoundaries = true ∨ 2 ≤ (adjacentElems v f).length) ∧
  (mode.elementOnSegment = true → ∃ e ∈ adjacentElems v f, s.contains 0 e.index = .ok true)

end Verif.Space

namespace Verif.Space
open Verif.Grid

/-- Local dof number of the Lagrange node `(x/p, y/p)` of the reference triangle: nodes are numbered row by
row (the order of the shape functions of `Dune::Pk2DLocalBasis`, which evaluates them). -/
def nodeIndex (p x y : Nat) : Nat := ((List.range y).map fun j => p + 1 - j).sum + x

/-- The node `(x, y)` of an element with corners `u0, u1, u2` as a point of the mesh: its barycentric
coordinates times `p`, attached to the vertices. Two nodes of different elements are the same point of the
mesh exactly when these functions agree. -/
def nodePoint (p : Nat) (corners : List Nat) (x y : Nat) (u : Nat) : Nat :=
  (if u = corners.getD 0 0 then p - x - y else 0) + (if u = corners.getD 1 0 then x else 0) +
    (if u = corners.getD 2 0 then y else 0)

/-- The pair of corners of local edge `k` in Dune's numbering: (0,1), (0,2), (1,2). -/
def edgeEnds (e : Elem) : Nat → Sym2 Nat
  | 0 => s((e.sub 2).getD 0 0, (e.sub 2).getD 1 0)
  | 1 => s((e.sub 2).getD 0 0, (e.sub 2).getD 2 0)
  | _ => s((e.sub 2).getD 1 0, (e.sub 2).getD 2 0)

/-- A triangular mesh: consistent view of proper triangles; two local edges are the same edge entity exactly
when they have the same end points. -/
structure TriMesh (v : View) : Prop where
  wf : v.WF
  dim : v.dim = 2
  nonempty : v.count 0 ≠ 0
  corners : ∀ e ∈ v.elems, (e.sub 2).length = 3
  edges : ∀ e ∈ v.elems, (e.sub 1).length = 3
  proper : ∀ e ∈ v.elems, (e.sub 2).Nodup
  edge_iff : ∀ e ∈ v.elems, ∀ e' ∈ v.elems, ∀ k k', k < 3 → k' < 3 →
    ((e.sub 1).getD k 0 = (e'.sub 1).getD k' 0 ↔ edgeEnds e k = edgeEnds e' k')

end Verif.Space

namespace Verif.Space
open Verif.Grid

/-- The entity takes part in the polynomial space: it belongs to the segment and, in strict mode, some
element of the segment has it. -/
def UsedEntity (v : View) (s : GridSegment) (strict : Bool) (c i : Nat) : Prop :=
  s.contains c i = .ok true ∧ (strict = true → ∃ e ∈ v.elems, s.contains 0 e.index = .ok true ∧ i ∈ e.sub c)

/-- The node `(x, y)` of the element carries a dof: its corner, its edge or, for interior nodes, the element
itself takes part in the space (and in strict mode the element belongs to the segment). -/
def UsedNode (v : View) (s : GridSegment) (strict : Bool) (p : Nat) (e : Elem) (x y : Nat) : Prop :=
  if x = 0 ∧ y = 0 then
    UsedEntity v s strict 2 ((e.sub 2).getD 0 0) ∧ (strict = true → s.contains 0 e.index = .ok true)
  else if x = p ∧ y = 0 then
    UsedEntity v s strict 2 ((e.sub 2).getD 1 0) ∧ (strict = true → s.contains 0 e.index = .ok true)
  else if x = 0 ∧ y = p then
    UsedEntity v s strict 2 ((e.sub 2).getD 2 0) ∧ (strict = true → s.contains 0 e.index = .ok true)
  else if y = 0 then
    UsedEntity v s strict 1 ((e.sub 1).getD 0 0) ∧ (strict = true → s.contains 0 e.index = .ok true)
  else if x = 0 then
    UsedEntity v s strict 1 ((e.sub 1).getD 1 0) ∧ (strict = true → s.contains 0 e.index = .ok true)
  else if x + y = p then
    UsedEntity v s strict 1 ((e.sub 1).getD 2 0) ∧ (strict = true → s.contains 0 e.index = .ok true)
  else s.contains 0 e.index = .ok true

end Verif.Space
