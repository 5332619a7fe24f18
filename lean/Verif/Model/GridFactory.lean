import Verif.Model.DataContainer
import Mathlib.Algebra.Field.Defs
import Mathlib.Algebra.Field.Basic
/-
Model of grid creation: GridFactory::createGridFromConnectivityArrays and createStructuredGrid
(lib/grid/grid_factory.cpp, lib/grid/structured_grid_factory.hpp) and the barycentric refinement
(lib/grid/concrete_grid.hpp).  Coordinates are elements of a field.
-/
namespace Verif.Grid

/-- A point (`Dune::FieldVector<double, 3>`). -/
structure P3 (K : Type) where
  (x y z : K)
deriving DecidableEq

/-- A grid: node coordinates, connectivity and the domain indices of the level-0 elements
(`ConcreteGrid`, `concrete_grid.hpp:78-136`). -/
structure GridData (K : Type) where
  nodes : List (P3 K)
  data : DataContainer
  domains : List Int

/-- An `Eigen` matrix. -/
structure Mat (α : Type) where
  rows : Nat
  cols : Nat
  at_ : Nat → Nat → α

/-- Failure: an exception, or undefined behaviour (an access outside an array). -/
inductive Fail where
  | invalidArgument
  | ub
deriving DecidableEq, Repr

def orUb {α : Type} : Option α → Except Fail α
  | some a => .ok a
  | none => .error .ub

/-- `permuteInsertionDomainIndices` (`concrete_grid.hpp:46-64`): `output[index] = domainIndices[insertion
index]` for each element.  For the triangular grid the insertion index of an element is its index
(`bempp_grid_triangle_factory.hpp:50-56`). -/
def permuteInsertionDomainIndices (domainIndices : List Int) (elementCount : Nat) : List Int :=
  (List.range elementCount).foldl (fun out i => out.set i (domainIndices[i]?.getD 0))
    (List.replicate domainIndices.length 0)

/-- The loop that checks and inserts the elements (`grid_factory.cpp:213-227`). -/
def insertElements (vertexCount : Nat) (ec : Mat Int) : List Nat → Except Fail (List Tri)
  | [] => .ok []
  | i :: is =>
    if ec.at_ 0 i < 0 ∨ ec.at_ 0 i ≥ vertexCount ∨ ec.at_ 1 i < 0 ∨ ec.at_ 1 i ≥ vertexCount ∨
        ec.at_ 2 i < 0 ∨ ec.at_ 2 i ≥ vertexCount then .error .invalidArgument
    else do
      let rest ← insertElements vertexCount ec is
      return ⟨(ec.at_ 0 i).toNat, (ec.at_ 1 i).toNat, (ec.at_ 2 i).toNat⟩ :: rest

/-- `GridFactory::createGridFromConnectivityArrays` (`grid_factory.cpp:176-236`); `triangular` is
`params.topology == TRIANGULAR`. -/
def createGridFromConnectivityArrays {K : Type} (triangular : Bool) (vertices : Mat K) (ec : Mat Int)
    (domainIndices : List Int) : Except Fail (GridData K) := do
  if !triangular then throw .invalidArgument
  if vertices.rows ≠ 3 then throw .invalidArgument
  if ec.rows < 3 then throw .invalidArgument
  if domainIndices ≠ [] ∧ domainIndices.length ≠ ec.cols then throw .invalidArgument
  let nodes := (List.range vertices.cols).map fun i =>
    (⟨vertices.at_ 0 i, vertices.at_ 1 i, vertices.at_ 2 i⟩ : P3 K)
  let elements ← insertElements vertices.cols ec (List.range ec.cols)
  let d ← orUb (DataContainer.init nodes.length elements)
  let domains := if domainIndices = [] then List.replicate elements.length 0
    else permuteInsertionDomainIndices domainIndices elements.length
  return ⟨nodes, d, domains⟩

/-! ### Structured grids -/

/-- `MultiIndex::operator++` for `dim = 2` (`structured_grid_factory.hpp:84-97`). -/
def MultiIndex.inc (limits idx : Nat × Nat) : Nat × Nat :=
  if idx.1 + 1 < limits.1 then (idx.1 + 1, idx.2)
  else if idx.2 + 1 < limits.2 then (0, idx.2 + 1)
  else (0, 0)

/-- The multi-indices visited by `n` iterations starting at `idx`. -/
def MultiIndex.visit (limits : Nat × Nat) : Nat → Nat × Nat → List (Nat × Nat)
  | 0, _ => []
  | n + 1, idx => idx :: MultiIndex.visit limits n (MultiIndex.inc limits idx)

/-- `insertVertices` (`structured_grid_factory.hpp:111-143`); `vertices` = number of vertices in each
direction. -/
def insertVertices {K : Type} [Field K] (lo hi : K × K) (vertices : Nat × Nat) : List (P3 K) :=
  (MultiIndex.visit vertices (vertices.1 * vertices.2) (0, 0)).map fun idx =>
    ⟨lo.1 + (idx.1 : K) * (hi.1 - lo.1) / ((vertices.1 : K) - 1),
     lo.2 + (idx.2 : K) * (hi.2 - lo.2) / ((vertices.2 : K) - 1), 0⟩

/-- `std::next_permutation` on a sequence of two numbers: the new sequence, and `false` if it wrapped
around. -/
def nextPermutation2 (p : Nat × Nat) : (Nat × Nat) × Bool :=
  if p.1 < p.2 then ((p.2, p.1), true) else ((p.2, p.1), false)

/-- One simplex of the do-while loop (`structured_grid_factory.hpp:261-275`): `corners[0] = base`,
`corners[j+1] = corners[j] + unitOffsets[permutation[j]]`, and for the second triangle the last two corners are
swapped. -/
def simplexCorners (base : Nat) (unitOffsets : Nat × Nat) (permutation : Nat × Nat) (triangle : Nat) : Tri :=
  let off := fun k => if k = 0 then unitOffsets.1 else unitOffsets.2
  let c1 := base + off permutation.1
  let c2 := c1 + off permutation.2
  if triangle = 1 then ⟨base, c2, c1⟩ else ⟨base, c1, c2⟩

/-- The do-while loop over the permutations (`structured_grid_factory.hpp:258-279`).  `fuel` bounds the
number of passes; the loop leaves after two. -/
def simplices (base : Nat) (unitOffsets : Nat × Nat) : (fuel : Nat) → (permutation : Nat × Nat) →
    (triangle : Nat) → List Tri
  | 0, _, _ => []
  | fuel + 1, p, t =>
    simplexCorners base unitOffsets p t ::
      (if (nextPermutation2 p).2 then simplices base unitOffsets fuel (nextPermutation2 p).1 (t + 1) else [])

/-- `createSimplexGrid` for `dim = 2` (`structured_grid_factory.hpp:219-286`) on MPI rank 0.
`int` overflow of the counts is not modelled. -/
def createSimplexGrid {K : Type} [Field K] (lo hi : K × K) (n : Nat × Nat) : Except Fail (GridData K) := do
  let vertices := (n.1 + 1, n.2 + 1)
  let nodes := insertVertices lo hi vertices
  let unitOffsets := (1, 1 * vertices.1)
  let elements := (MultiIndex.visit n (n.1 * n.2) (0, 0)).flatMap fun idx =>
    simplices (idx.1 * unitOffsets.1 + idx.2 * unitOffsets.2) unitOffsets 3 (0, 1) 0
  let d ← orUb (DataContainer.init nodes.length elements)
  return ⟨nodes, d, List.replicate elements.length 0⟩

/-- `GridFactory::createStructuredGrid` (`grid_factory.cpp:71-118`); the checks of the vector lengths are
built into the types. -/
def createStructuredGrid {K : Type} [Field K] (triangular : Bool) (lo hi : K × K) (nElements : Int × Int) :
    Except Fail (GridData K) :=
  if !triangular then .error .invalidArgument
  else if nElements.1 < 1 ∨ nElements.2 < 1 then .error .invalidArgument
  else createSimplexGrid lo hi (nElements.1.toNat, nElements.2.toNat)

/-! ### Barycentric refinement -/

/-- The six sons of an element in the order of the code (`concrete_grid.hpp:275-317`); `n2`, `n1` are the
numbers of vertices and edges, `e` the element index, `v k`, `f k` the indices of its vertices and
edges. -/
def barySons (n2 n1 e : Nat) (v f : Nat → Nat) : List Tri :=
  [⟨v 0, n2 + n1 + e, n2 + f 1⟩,
   ⟨v 0, n2 + f 0, n2 + n1 + e⟩,
   ⟨v 1, n2 + n1 + e, n2 + f 0⟩,
   ⟨v 1, n2 + f 2, n2 + n1 + e⟩,
   ⟨v 2, n2 + n1 + e, n2 + f 2⟩,
   ⟨v 2, n2 + f 1, n2 + n1 + e⟩]

def P3.mid {K : Type} [Field K] (a b : P3 K) : P3 K :=
  ⟨(a.x + b.x) / 2, (a.y + b.y) / 2, (a.z + b.z) / 2⟩

def P3.centroid {K : Type} [Field K] (a b c : P3 K) : P3 K :=
  ⟨(a.x + b.x + c.x) / 3, (a.y + b.y + c.y) / 3, (a.z + b.z + c.z) / 3⟩

/-- The point with a given index (an index outside the list does not occur). -/
def nodeAt {K : Type} [Field K] (nodes : List (P3 K)) (i : Nat) : P3 K := (nodes[i]?).getD ⟨0, 0, 0⟩

/-- The vertices of the refined grid (`concrete_grid.hpp:229-265`). -/
def baryVertices {K : Type} [Field K] (g : GridData K) : List (P3 K) :=
  g.nodes ++ (g.data.edges.map fun p => (nodeAt g.nodes p.1).mid (nodeAt g.nodes p.2)) ++
    g.data.elements.map fun t => (nodeAt g.nodes t.a).centroid (nodeAt g.nodes t.b) (nodeAt g.nodes t.c)

/-- The elements of the refined grid (`concrete_grid.hpp:267-317`): columns `6 e .. 6 e + 5` belong to
element `e`. -/
def baryElements {K : Type} (g : GridData K) : List Tri :=
  (List.range g.data.elements.length).flatMap fun e =>
    barySons g.data.nnodes g.data.edges.length e
      (fun k => ((g.data.elements[e]?.map Tri.verts).getD [])[k]?.getD 0)
      (fun k => ((g.data.element2Edges[e]?).getD [])[k]?.getD 0)

/-- `barycentricDomainIndices` (`concrete_grid.hpp:268,281-282`). -/
def baryDomains {K : Type} (g : GridData K) : List Int :=
  (List.range g.data.elements.length).flatMap fun e =>
    List.replicate 6 (g.domains[e]?.getD 0)

/-- `tempSonMap` (`concrete_grid.hpp:269-270,319-330`). -/
def tempSonMap (elementCount : Nat) : List (Nat × Nat) :=
  (List.range elementCount).flatMap fun e => (List.range 6).map fun k => (e, k)

/-- The loop that fills `m_barycentricSonMap` (`concrete_grid.hpp:340-354`); the insertion index of an
element is its index. -/
def barySonMap (tmp : List (Nat × Nat)) (baryElementCount : Nat) : Nat → Nat → Nat :=
  (List.range baryElementCount).foldl (fun (m : Nat → Nat → Nat) i =>
    let q := (tmp[i]?).getD (0, 0)
    Function.update m q.1 (Function.update (m q.1) q.2 i)) (fun _ _ => 0)

/-- `barycentricGridSonPair`, the computation (`concrete_grid.hpp:209-358`). -/
def barycentricGridSonPair {K : Type} [Field K] (g : GridData K) :
    Except Fail (GridData K × (Nat → Nat → Nat)) := do
  let verts := baryVertices g
  let elems := baryElements g
  let vm : Mat K := ⟨3, verts.length, fun r c =>
    let p := nodeAt verts c
    if r = 0 then p.x else if r = 1 then p.y else p.z⟩
  let em : Mat Int := ⟨3, elems.length, fun r c =>
    (((elems[c]?.map Tri.verts).getD [])[r]?.getD 0 : Nat)⟩
  let b ← createGridFromConnectivityArrays true vm em (baryDomains g)
  return (b, barySonMap (tempSonMap g.data.elements.length) b.data.elements.length)

end Verif.Grid
