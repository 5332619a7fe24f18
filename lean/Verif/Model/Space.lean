import Verif.Model.GridSegment
/-
Model of the degree-of-freedom maps of the boundary-element spaces (lib/space).

`std::vector` is a list.  The unchecked reads `v[i]` and the checked reads `acc(v, i)` return a default when
`i` is out of range and writes out of range are ignored; on the consistent views of the theorems all
accesses are in range.  `elementMapper` and `indexSet` give the same element index (`Elem.index`).
-/
namespace Verif.Space
open Verif.Grid

/-- `LocalDof` (`lib/common/types.hpp`, `LocalDof(entityIndex, dofIndex)`). -/
structure LocalDof where
  entityIndex : Nat
  dofIndex : Nat
deriving DecidableEq, Repr

/-- The maps `m_local2globalDofs`, `m_global2localDofs`. -/
structure DofMaps where
  local2global : List (List Int)
  global2local : List (List LocalDof)
deriving DecidableEq, Repr

/-- Outcomes of a constructor or query that may throw. -/
inductive SpaceThrows where
  | invalidArgument
  | runtimeError
deriving DecidableEq, Repr

/-- `GridSegment::contains` for a codimension 0, 1 or 2 (which does not throw). -/
def inSegment (s : GridSegment) (codim i : Nat) : Bool :=
  match s.contains codim i with
  | .ok b => b
  | .error _ => false

/-- `GridSegment::markExcludedEntities` with the default mark -1, for a codimension 0, 1 or 2. -/
def excludedMarks (s : GridSegment) (codim : Nat) : List Int :=
  match s.markExcludedEntities codim (-1) with
  | .ok l => l
  | .error _ => []

/-- Consecutive numbering of entities.  An entity with `cnt x > 0` dofs gets the current value `n` of the
counter, which is then advanced by `cnt x`; the value of any other entity is `keep x`.
Instances: `piecewise_linear_continuous_scalar_space.cpp:207-210` (one dof for each entry equal to 0),
`rwg_vector_space.cpp:235-244`, `piecewise_polynomial_continuous_scalar_space.cpp:333-352`. -/
def numberBlocks {α : Type} (cnt : α → Nat) (keep : α → Int) : List α → Nat → List Int × Nat
  | [], n => ([], n)
  | x :: xs, n =>
    if 0 < cnt x then
      let r := numberBlocks cnt keep xs (n + cnt x)
      ((n : Int) :: r.1, r.2)
    else
      let r := numberBlocks cnt keep xs n
      (keep x :: r.1, r.2)

/-- `acc(globalDofs, ldof) = gdof; if (gdof >= 0) acc(m_global2localDofs, gdof).push_back(LocalDof(e, ldof))`
for one pair `w = (ldof, gdof)`: the loop body shared by the continuous P1 space
(`piecewise_linear_continuous_scalar_space.cpp:241-251`), the RWG space (`rwg_vector_space.cpp:303-333`) and
the polynomial space (`piecewise_polynomial_continuous_scalar_space.cpp:407-583`). -/
def writeDof (e : Nat) (st : List Int × List (List LocalDof)) (w : Nat × Int) :
    List Int × List (List LocalDof) :=
  (st.1.set w.1 w.2,
    if 0 ≤ w.2 then st.2.modify w.2.toNat (· ++ [⟨e, w.1⟩]) else st.2)

/-- One element: `globalDofs.resize(n)` (zeros), then the pairs are written in order. -/
def writeElement (n : Elem → Nat) (writes : Elem → List (Nat × Int)) (m : DofMaps) (e : Elem) : DofMaps :=
  let r := (writes e).foldl (writeDof e.index) (List.replicate (n e) 0, m.global2local)
  ⟨m.local2global.set e.index r.1, r.2⟩

/-- The loop over the elements of a view; `m_local2globalDofs.resize(elementCount)`,
`m_global2localDofs.resize(globalDofCount)`. -/
def writeElements (v : View) (globalDofCount : Nat) (n : Elem → Nat) (writes : Elem → List (Nat × Int)) :
    DofMaps :=
  v.elems.foldl (writeElement n writes)
    ⟨List.replicate (v.count 0) [], List.replicate globalDofCount []⟩

/-- `SpaceHelper::initializeLocal2FlatLocalDofMap` (`space_helper.cpp:189-201`). -/
def flatLocalDofs (local2global : List (List Int)) : List LocalDof :=
  local2global.zipIdx.flatMap fun p =>
    p.1.zipIdx.filterMap fun q => if 0 ≤ q.1 then some ⟨p.2, q.2⟩ else none

/-! ### Continuous piecewise linear space -/

/-- The vertices adjacent to an element of the segment
(`piecewise_linear_continuous_scalar_space.cpp:179-201`): `noAdjacentElementsInsideSegment`. -/
def noAdjacentInSegment (v : View) (s : GridSegment) (codim : Nat) : List Bool :=
  v.elems.foldl (fun (l : List Bool) e =>
    if inSegment s 0 e.index then (e.sub codim).foldl (fun (l : List Bool) i => l.set i false) l else l)
    (List.replicate (v.count codim) true)

/-- `globalDofIndices` before numbering (`piecewise_linear_continuous_scalar_space.cpp:173-206`). -/
def p1Marks (v : View) (s : GridSegment) (strict : Bool) : List Int :=
  if strict then
    (excludedMarks s v.dim).mapIdx fun i x => if (noAdjacentInSegment v s v.dim).getD i false then -1 else x
  else excludedMarks s v.dim

/-- `globalDofIndices` after numbering, and `globalDofCount_`
(`piecewise_linear_continuous_scalar_space.cpp:207-210`). -/
def p1Numbering (v : View) (s : GridSegment) (strict : Bool) : List Int × Nat :=
  numberBlocks (fun x : Int => if x = 0 then 1 else 0) id (p1Marks v s strict) 0

/-- The global dof of corner vertex `i` of the element (`piecewise_linear_continuous_scalar_space.cpp:242-245`). -/
def p1Writes (v : View) (s : GridSegment) (strict : Bool) (e : Elem) : List (Nat × Int) :=
  ((e.sub v.dim).zipIdx).map fun q =>
    (q.2, if !strict || inSegment s 0 e.index then (p1Numbering v s strict).1.getD q.1 (-1) else -1)

/-- `PiecewiseLinearContinuousScalarSpace::initialize` and `assignDofsImpl`
(`piecewise_linear_continuous_scalar_space.cpp:95-103, 160-255`). -/
def assignP1 (v : View) (s : GridSegment) (strict : Bool) : Except SpaceThrows DofMaps :=
  if v.dim ≠ 1 ∧ v.dim ≠ 2 then .error .invalidArgument
  else .ok (writeElements v (p1Numbering v s strict).2 (fun e => (e.sub v.dim).length)
    (p1Writes v s strict))

/-- `getGlobalDofs(element, dofs)` (`piecewise_linear_continuous_scalar_space.cpp:271-277`). -/
def DofMaps.getGlobalDofs (m : DofMaps) (elementIndex : Nat) : List Int :=
  m.local2global.getD elementIndex []

/-- `globalDofCount()` (`piecewise_linear_continuous_scalar_space.cpp:257-261`). -/
def DofMaps.globalDofCount (m : DofMaps) : Nat := m.global2local.length

/-- `global2localDofs` for one global dof (`piecewise_linear_continuous_scalar_space.cpp:279-286`). -/
def DofMaps.globalToLocal (m : DofMaps) (g : Nat) : List LocalDof := m.global2local.getD g []

/-- `m_flatLocal2localDofs`; `flatLocalDofCount()` is its length
(`piecewise_linear_continuous_scalar_space.cpp:263-269, 288-295`). -/
def DofMaps.flat (m : DofMaps) : List LocalDof := flatLocalDofs m.local2global

/-! ### Discontinuous spaces: a new global dof for each used local dof -/

/-- Loop body for one local dof of element `e` with local dof number `i`, which is used if `use` holds:
push the counter and a singleton list, or push -1
(`piecewise_linear_discontinuous_scalar_space.cpp:170-181`). -/
def pushDof (e : Nat) (st : List Int × List (List LocalDof)) (w : Nat × Bool) :
    List Int × List (List LocalDof) :=
  if w.2 then (st.1 ++ [(st.2.length : Int)], st.2 ++ [[⟨e, w.1⟩]])
  else (st.1 ++ [-1], st.2)

/-- One element (`piecewise_linear_discontinuous_scalar_space.cpp:156-182`). -/
def pushElement (uses : Elem → List (Nat × Bool)) (m : DofMaps) (e : Elem) : DofMaps :=
  let r := (uses e).foldl (pushDof e.index) ([], m.global2local)
  ⟨m.local2global.set e.index r.1, r.2⟩

/-- The loop over the elements (`piecewise_linear_discontinuous_scalar_space.cpp:153-183`); the counter
`globalDofCount` always equals `m_global2localDofs.size()`. -/
def pushElements (v : View) (uses : Elem → List (Nat × Bool)) : DofMaps :=
  v.elems.foldl (pushElement uses) ⟨List.replicate (v.count 0) [], []⟩

/-- The condition at `piecewise_linear_discontinuous_scalar_space.cpp:172-173`. -/
def p1dUses (v : View) (s : GridSegment) (strict : Bool) (e : Elem) : List (Nat × Bool) :=
  ((e.sub v.dim).zipIdx).map fun q =>
    (q.2, (strict && inSegment s 0 e.index) || (!strict && inSegment s v.dim q.1))

/-- `PiecewiseLinearDiscontinuousScalarSpace::assignDofsImpl`
(`piecewise_linear_discontinuous_scalar_space.cpp:131-189`; its `initialize` has the same dimension check as
the continuous space). -/
def assignP1Disc (v : View) (s : GridSegment) (strict : Bool) : Except SpaceThrows DofMaps :=
  if v.dim ≠ 1 ∧ v.dim ≠ 2 then .error .invalidArgument
  else .ok (pushElements v (p1dUses v s strict))

/-- `discontinuousSpace` of the continuous P1 space
(`piecewise_linear_continuous_scalar_space.cpp:105-118`). -/
def p1DiscontinuousSpace (v : View) (s : GridSegment) (strict : Bool) : Except SpaceThrows DofMaps :=
  assignP1Disc v s strict

/-- `PiecewiseConstantScalarSpace::assignDofsImpl` (`piecewise_constant_scalar_space.cpp:158-193`). -/
def assignP0 (v : View) (s : GridSegment) : DofMaps :=
  pushElements v fun e => [(0, inSegment s 0 e.index)]

/-! ### The map from global to flat local dofs -/

/-- What `constructGlobalToFlatLocalDofsMapping...` reads from a space. -/
structure SpaceQueries where
  elementCount : Nat
  globalDofs : Nat → List Int
  flatLocalDofCount : Nat
  globalDofCount : Nat

/-- The continuous and discontinuous P1 spaces (and the RWG space) seen by that function; for the
discontinuous space `flatLocalDofCount()` is `globalDofCount()`
(`piecewise_linear_discontinuous_scalar_space.cpp:198-203`), see `p1DiscQueries`. -/
def DofMaps.queries (m : DofMaps) : SpaceQueries :=
  ⟨m.local2global.length, m.getGlobalDofs, m.flat.length, m.globalDofCount⟩

/-- `piecewise_linear_discontinuous_scalar_space.cpp:191-203`. -/
def DofMaps.discQueries (m : DofMaps) : SpaceQueries :=
  ⟨m.local2global.length, m.getGlobalDofs, m.globalDofCount, m.globalDofCount⟩

/-- The P0 space: `flatLocalDofCount()` returns the number of elements of the grid
(`piecewise_constant_scalar_space.cpp:195-205`). -/
def p0Queries (v : View) (s : GridSegment) : SpaceQueries :=
  ⟨v.count 0, (assignP0 v s).getGlobalDofs, v.count 0, (assignP0 v s).globalDofCount⟩

/-- `constructGlobalToFlatLocalDofsMappingVectors` (`space.cpp:48-92`): the lists `rows`, `cols`; all values
are 1. -/
def mappingVectors (q : SpaceQueries) : Except SpaceThrows (List Nat × List Nat) :=
  let r := (List.range q.elementCount).foldl (fun (st : List Nat × List Nat) e =>
    (q.globalDofs e).foldl (fun (st : List Nat × List Nat) g =>
      if 0 ≤ g then (st.1 ++ [st.1.length], st.2 ++ [g.toNat]) else st) st) ([], [])
  if r.1.length ≠ q.flatLocalDofCount ∨ r.2.length ≠ q.flatLocalDofCount then .error .runtimeError
  else .ok r

/-- `constructGlobalToFlatLocalDofsMappingSparseMatrix` (`space.cpp:94-119`): entry `(i, j)` of the sparse
matrix built with `setFromTriplets` (duplicates are summed). -/
def mappingEntry (rc : List Nat × List Nat) (i j : Nat) : Nat :=
  ((rc.1.zip rc.2).map fun p => if p.1 = i ∧ p.2 = j then 1 else 0).sum

/-! ### RWG space -/

/-- Bits of `DofAssignmentMode` (`dof_assignment_mode.hpp`): `EDGE_ON_SEGMENT = 1`,
`ELEMENT_ON_SEGMENT = 2`. -/
structure DofMode where
  edgeOnSegment : Bool
  elementOnSegment : Bool
deriving DecidableEq, Repr

/-- What the first loop of `RWGVectorSpace::assignDofsImpl` knows about an edge: number of adjacent
elements, `noAdjacentElementsAreInSegment`, `lowestIndicesOfElementsAdjacentToEdges`
(`none` = `INT_MAX`). -/
structure EdgeInfo where
  adjacent : Nat
  noneInSegment : Bool
  lowest : Option Nat
deriving DecidableEq, Repr

/-- One element of the first loop (`rwg_vector_space.cpp:213-231`). -/
def rwgScanElement (s : GridSegment) (mode : DofMode) (l : List EdgeInfo) (e : Elem) : List EdgeInfo :=
  (e.sub 1).foldl (fun (l : List EdgeInfo) f =>
    if mode.edgeOnSegment && !inSegment s 1 f then l
    else l.modify f fun x =>
      ⟨x.adjacent + 1, if inSegment s 0 e.index then false else x.noneInSegment,
        match x.lowest with | none => some e.index | some k => some (min k e.index)⟩) l

/-- The first loop (`rwg_vector_space.cpp:205-231`). -/
def rwgScan (v : View) (s : GridSegment) (mode : DofMode) : List EdgeInfo :=
  v.elems.foldl (rwgScanElement s mode) (List.replicate (v.count 1) ⟨0, true, none⟩)

/-- Numbering of the edges (`rwg_vector_space.cpp:232-244`). -/
def rwgNumbering (v : View) (s : GridSegment) (mode : DofMode) (putDofsOnBoundaries : Bool) :
    List Int × Nat :=
  numberBlocks (fun x : EdgeInfo =>
      if x.adjacent = 0 ∨ (!putDofsOnBoundaries ∧ x.adjacent < 2) ∨
        (mode.elementOnSegment ∧ x.noneInSegment) then 0 else 1)
    (fun _ => -1) (rwgScan v s mode) 0

/-- The global dofs of an element (`rwg_vector_space.cpp:277-279, 304-306`). -/
def rwgWrites (v : View) (s : GridSegment) (mode : DofMode) (pb : Bool) (e : Elem) : List (Nat × Int) :=
  ((e.sub 1).zipIdx).map fun q =>
    (q.2, if !mode.elementOnSegment || inSegment s 0 e.index then
      (rwgNumbering v s mode pb).1.getD q.1 (-1) else -1)

/-- The weights of an element (`rwg_vector_space.cpp:316-321`); `vol f` is the length of edge `f`. -/
def rwgWeights {W : Type} [Neg W] (v : View) (s : GridSegment) (mode : DofMode) (vol : Nat → W) (e : Elem) :
    List W :=
  (e.sub 1).map fun f =>
    if ((rwgScan v s mode)[f]?.bind (·.lowest)) = some e.index then vol f else -vol f

/-- `RWGVectorSpace::initialize` and `assignDofsImpl` (`rwg_vector_space.cpp:107-115, 193-352`); elements
that are not triangles (three corners) throw.  The world dimension is 3. -/
def assignRWG (v : View) (s : GridSegment) (mode : DofMode) (pb : Bool) : Except SpaceThrows DofMaps :=
  if v.dim ≠ 2 then .error .invalidArgument
  else if v.elems.any fun e => (e.sub 2).length ≠ 3 then .error .runtimeError
  else .ok (writeElements v (rwgNumbering v s mode pb).2 (fun e => (e.sub 1).length)
    (rwgWrites v s mode pb))

/-! ### Continuous polynomial space on triangles -/

/-- Marks of the vertices (`piecewise_polynomial_continuous_scalar_space.cpp:266-271, 322-325`): 1 or -1. -/
def polyVertexMarks (v : View) (s : GridSegment) (strict : Bool) : List Int :=
  (List.range (v.count 2)).map fun i =>
    if strict && (noAdjacentInSegment v s 2).getD i false then -1
    else if inSegment s 2 i then 1 else -1

/-- Numbers of dofs on the edges, -1 for unused edges
(`piecewise_polynomial_continuous_scalar_space.cpp:279-284, 327-329`). -/
def polyEdgeMarks (v : View) (s : GridSegment) (strict : Bool) (p : Nat) : List Int :=
  (List.range (v.count 1)).map fun i =>
    if strict && (noAdjacentInSegment v s 1).getD i false then -1
    else if inSegment s 1 i then (p - 1 : Nat) else -1

/-- Numbers of interior dofs of the triangles
(`piecewise_polynomial_continuous_scalar_space.cpp:289-316`). -/
def polyBubbleMarks (v : View) (s : GridSegment) (p : Nat) : List Int :=
  (List.range (v.count 0)).map fun i =>
    if inSegment s 0 i then ((p - 1) * (p - 2) / 2 : Nat) else -1

/-- Numbering of vertices, then edges, then element interiors
(`piecewise_polynomial_continuous_scalar_space.cpp:333-352`): start dofs of the three kinds of entities and
the total count. -/
def polyNumbering (v : View) (s : GridSegment) (strict : Bool) (p : Nat) :
    List Int × List Int × List Int × Nat :=
  let a := numberBlocks (fun x : Int => if x = 1 then 1 else 0) id (polyVertexMarks v s strict) 0
  let b := numberBlocks Int.toNat id (polyEdgeMarks v s strict p) a.2
  let c := numberBlocks Int.toNat id (polyBubbleMarks v s p) b.2
  (a.1, b.1, c.1, c.2)

/-- Number of local dofs of a triangle (`piecewise_polynomial_continuous_scalar_space.cpp:355-356`). -/
def polyLocalCount (p : Nat) : Nat := (p + 1) * (p + 2) / 2

/-- `ldofy * (p + 1) - ldofy * (ldofy - 1) / 2` (`piecewise_polynomial_continuous_scalar_space.cpp:497`). -/
def polyRow (p y : Nat) : Nat := y * (p + 1) - y * (y - 1) / 2

/-- The dofs of one edge (`piecewise_polynomial_continuous_scalar_space.cpp:460-485`): the loop
`for (k = 1, gdof = start; gdof != end; ++k, gdof += step)` has `p - 1` iterations. -/
def polyEdgeWrites (p : Nat) (start : Int) (used ascending : Bool) (ldof : Nat → Nat) : List (Nat × Int) :=
  (List.range (p - 1)).map fun k =>
    (ldof (k + 1),
      if 0 ≤ start ∧ used then
        if ascending then start + k else start - 1 + (p - 1 : Nat) - k
      else -1)

/-- The interior dofs (`piecewise_polynomial_continuous_scalar_space.cpp:556-583`): `x`, `y` from 1 with
`x + y < p`, in the order of the two loops. -/
def polyBubbles (p : Nat) : List (Nat × Nat) :=
  (List.range (p - 1)).flatMap fun y => (List.range (p - 1 - (y + 1))).map fun x => (x + 1, y + 1)

/-- All writes of `assignDofsImpl` for a triangle with vertices `vs` and edges `es`
(`piecewise_polynomial_continuous_scalar_space.cpp:392-583`). -/
def polyWrites (v : View) (s : GridSegment) (strict : Bool) (p : Nat) (e : Elem) : List (Nat × Int) :=
  let num := polyNumbering v s strict p
  let used := !strict || inSegment s 0 e.index
  let vtx := fun k => (e.sub 2).getD k 0
  let edge := fun k => num.2.1.getD ((e.sub 1).getD k 0) (-1)
  let vdof := fun k => if used then num.1.getD (vtx k) (-1) else -1
  let bubble := num.2.2.1.getD e.index (-1)
  [(0, vdof 0), (p, vdof 1), (polyLocalCount p - 1, vdof 2)] ++
  polyEdgeWrites p (edge 0) used (vtx 0 < vtx 1) (fun k => k) ++
  polyEdgeWrites p (edge 1) used (vtx 0 < vtx 2) (fun k => polyRow p k) ++
  polyEdgeWrites p (edge 2) used (vtx 1 < vtx 2) (fun k => polyRow p k + (p - k)) ++
  (polyBubbles p).zipIdx.map fun q =>
    (polyRow p q.1.2 + q.1.1, if 0 ≤ bubble then bubble + q.2 else -1)

/-- `PiecewisePolynomialContinuousScalarSpace::assignDofsImpl`
(`piecewise_polynomial_continuous_scalar_space.cpp:238-610`) for order `p ≥ 1` (the constructor checks
`1 ≤ p ≤ 10`).  Views without elements return empty maps (line 246); quadrilaterals throw. -/
def assignPoly (v : View) (s : GridSegment) (strict : Bool) (p : Nat) : Except SpaceThrows DofMaps :=
  if v.count 0 = 0 then .ok ⟨[], []⟩
  else if v.dim ≠ 2 then .error .runtimeError
  else if v.elems.any fun e => (e.sub 2).length ≠ 3 then .error .runtimeError
  else .ok (writeElements v (polyNumbering v s strict p).2.2.2 (fun _ => polyLocalCount p)
    (polyWrites v s strict p))

end Verif.Space
