import Verif.Model.GridFactory
/-
Model of the Python/Cython grid interface: the raw element data of a view
(lib/grid/concrete_grid_view_imp.hpp, cython/bempp/core/grid/grid_view.pyx), GridFactory
(cython/bempp/core/grid/grid_factory.pyx, lib/grid/grid_factory.cpp:37-66,
lib/grid/bempp_grid/triangle_imp/bempp_grid_triangle_factory.hpp), Grid
(cython/bempp/core/grid/grid.pyx, python/bempp/api/grid/grid.py), GridView
(python/bempp/api/grid/grid_view.py) and the union of grids (python/bempp/api/shapes/shapes.py).
Coordinates are elements of a field (a type, where no arithmetic is done); `int` is not bounded.
-/
namespace Verif.PyGrid
open Verif.Grid

/-- What a Python call can end with instead of a value: a Python exception of the given class, or
undefined behaviour in the C++ code below it. -/
inductive PyErr where
  | runtimeError
  | valueError
  | indexError
  | keyError
  | typeError
  | attributeError
  | ub
deriving DecidableEq, Repr

/-! ### Raw element data -/

/-- A loop `for entity: output[index(entity)] = f(entity)` over the entities of one codimension of level 0,
which are visited in the order of their indices; `init` is the resized container. -/
def writeAll {α : Type} (n : Nat) (f : Nat → α) (init : List α) : List α :=
  (List.range n).foldl (fun out i => out.set i (f i)) init

/-- One column of `elementCorners`, `MAX_CORNER_COUNT = 4` rows, the unused ones `-1`
(`concrete_grid_view_imp.hpp:81-96`). -/
def cornerColumn (t : Tri) : List Int := [t.a, t.b, t.c, -1]

/-- `vertices` of a view, column by column (`concrete_grid_view_imp.hpp:71-79`, `grid_view.pyx:108-113`);
`junk` is the content of a resized, uninitialised `Eigen` matrix. -/
def viewVertices {K : Type} (g : GridData K) (junk : P3 K) : List (P3 K) :=
  writeAll g.nodes.length (fun i => g.nodes.getD i junk) (List.replicate g.nodes.length junk)

/-- `elements` of a view, column by column, without the last row (`concrete_grid_view_imp.hpp:81-96`,
`grid_view.pyx:82`: `[:-1,:]`). -/
def viewElements {K : Type} (g : GridData K) : List (List Int) :=
  (writeAll g.data.elements.length (fun i => cornerColumn (g.data.elements.getD i ⟨0, 0, 0⟩))
    (List.replicate g.data.elements.length [0, 0, 0, 0])).map List.dropLast

/-- `domain_indices` of a view (`concrete_grid_view_imp.hpp:100-113`). -/
def viewDomains {K : Type} (g : GridData K) : List Int :=
  writeAll g.data.elements.length (fun i => g.domains.getD i 0) (List.replicate g.data.elements.length 0)

/-- The array of columns as a matrix, with the number of rows it has in Python. -/
def columns {α : Type} (rows : Nat) (cols : List (List α)) (junk : α) : Mat α :=
  ⟨rows, cols.length, fun r j => ((cols.getD j []).getD r junk)⟩

/-- `createGridFromConnectivityArrays` on raw pointers (`grid_factory.cpp:244-256`): the arrays are read as
`3 × n`, column-major, whatever their shape was in Python. `none`: a read outside the Python array. -/
def asThreeRows {α : Type} (m : Mat α) (junk : α) : Option (Mat α) :=
  if 3 * m.cols ≤ m.rows * m.cols then
    some ⟨3, m.cols, fun r j => if 0 < m.rows then m.at_ ((r + 3 * j) % m.rows) ((r + 3 * j) / m.rows) else junk⟩
  else none

/-- `grid_from_element_data` (`grid.pyx:248-297`, `grid.py:155-201`).  `&vert_ptr[0,0]` raises on an empty
array (the module is compiled with bounds checks; only `grid_from_sphere` turns them off); a C++ exception
arrives as an exception of Python (here `runtimeError`). -/
def gridFromElementData {K : Type} (vertices : Mat K) (elements : Mat Int) (domainIndices : List Int) (junk : K) :
    Except PyErr (GridData K) :=
  if vertices.rows = 0 ∨ vertices.cols = 0 ∨ elements.rows = 0 ∨ elements.cols = 0 then .error .indexError
  else
    match asThreeRows vertices junk, asThreeRows elements 0 with
    | some v, some e =>
      match createGridFromConnectivityArrays true v e domainIndices with
      | .ok g => .ok g
      | .error .invalidArgument => .error .runtimeError
      | .error .ub => .error .ub
    | _, _ => .error .ub

/-- `Grid.clone` (`grid.pyx:135-141`). -/
def clone {K : Type} (g : GridData K) (junk : P3 K) : Except PyErr (GridData K) :=
  gridFromElementData
    (columns 3 ((viewVertices g junk).map fun p => [p.x, p.y, p.z]) junk.x)
    (columns 3 (viewElements g) 0) (viewDomains g) junk.x

/-! ### GridFactory -/

/-- A `GridFactory` object: the vectors of `Dune::GridFactory` (`m_nodes`, `m_elements`, held by
`shared_ptr`), `m_domainIndices` and the flag `finalized` of the Cython class. -/
structure Factory (K : Type) where
  nodes : List (P3 K) := []
  elements : List Tri := []
  domains : List Int := []
  finalized : Bool := false

/-- What a grid made by the factory owns itself: the tables computed in `DataContainer::init` (edges,
connectivity) and the domain indices.  Its nodes and elements are the vectors of the factory
(`bempp_grid_data_container_impl.hpp:24-25` stores the `shared_ptr`s it is given). -/
structure Owned where
  data : DataContainer
  domains : List Int

/-- A factory and the grids it has returned. -/
structure World (K : Type) where
  factory : Factory K := {}
  grids : List Owned := []

/-- Calls on a factory. -/
inductive Call (K : Type) where
  | insertVertex (v : P3 K)
  | insertElement (t : Tri) (domainIndex : Int)
  | finalize

/-- One call (`grid_factory.pyx:24-41`, `grid_factory.cpp:40-66`,
`bempp_grid_triangle_factory.hpp:26-46`).  The Cython class never sets `finalized`. -/
def step {K : Type} (w : World K) : Call K → Except PyErr (World K)
  | .insertVertex v =>
    if w.factory.finalized then .error .runtimeError
    else .ok { w with factory := { w.factory with nodes := w.factory.nodes ++ [v] } }
  | .insertElement t d =>
    if w.factory.finalized then .error .runtimeError
    else .ok { w with factory := { w.factory with elements := w.factory.elements ++ [t],
                                                  domains := w.factory.domains ++ [d] } }
  | .finalize =>
    if w.factory.finalized then .error .runtimeError
    else
      match DataContainer.init w.factory.nodes.length w.factory.elements with
      | none => .error .ub
      | some d => .ok { w with grids := w.grids ++
          [⟨d, permuteInsertionDomainIndices w.factory.domains w.factory.elements.length⟩] }

/-- A program: calls one after the other. -/
def runCalls {K : Type} : World K → List (Call K) → Except PyErr (World K)
  | w, [] => .ok w
  | w, c :: cs =>
    match step w c with
    | .ok w' => runCalls w' cs
    | .error e => .error e

/-- `entity_count` of the view of a grid (`bempp_grid_data_container_impl.hpp:137-168`): nodes and elements
are counted in the shared vectors, edges in the grid's own table. -/
def World.entityCount {K : Type} (w : World K) (g : Owned) : Nat → Nat
  | 0 => w.factory.elements.length
  | 1 => g.data.edges.length
  | _ => w.factory.nodes.length

/-- The grid behind a returned object, as the other parts of the model see it. -/
def World.grid {K : Type} (w : World K) (g : Owned) : GridData K :=
  ⟨w.factory.nodes, { g.data with nnodes := w.factory.nodes.length, elements := w.factory.elements }, g.domains⟩

/-! ### union -/

/-- `factory.insert_element(element + vertex_offset, domain_index=...)`: the calls for one grid
(`shapes.py:99-105`). The conversion to `unsigned int` of a nonnegative number. -/
def elementCall (K : Type) (offset : Nat) (d : Int) (column : List Int) : Call K :=
  .insertElement ⟨(column.getD 0 0 + offset).toNat, (column.getD 1 0 + offset).toNat,
    (column.getD 2 0 + offset).toNat⟩ d

/-- The body of the loop of `union` over the grids, with `index` and `vertex_offset`
(`shapes.py:99-106`); `domain_indices[index]` is evaluated for each element. -/
def unionLoop {K : Type} (junk : P3 K) (domainIndices : List Int) :
    (index offset : Nat) → World K → List (GridData K) → Except PyErr (World K)
  | _, _, w, [] => .ok w
  | index, offset, w, g :: gs =>
    match runCalls w ((viewVertices g junk).map .insertVertex) with
    | .error e => .error e
    | .ok w1 =>
      match viewElements g, domainIndices[index]? with
      | [], _ => unionLoop junk domainIndices (index + 1) (offset + g.nodes.length) w1 gs
      | _ :: _, none => .error .indexError
      | cols, some d =>
        match runCalls w1 (cols.map (elementCall K offset d)) with
        | .error e => .error e
        | .ok w2 => unionLoop junk domainIndices (index + 1) (offset + g.nodes.length) w2 gs

/-- `union` (`shapes.py:77-107`). -/
def union {K : Type} (grids : List (GridData K)) (domainIndices : Option (List Int)) (junk : P3 K) :
    Except PyErr (GridData K) :=
  match unionLoop junk (domainIndices.getD (List.replicate grids.length 0)) 0 0 {} grids with
  | .error e => .error e
  | .ok w =>
    match step w .finalize with
    | .error e => .error e
    | .ok w' =>
      match w'.grids.getLast? with
      | some g => .ok (w'.grid g)
      | none => .error .ub

end Verif.PyGrid
