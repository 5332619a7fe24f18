import Verif.Model.GridSegment
/-
Model of the triangular-grid data container
(lib/grid/bempp_grid/triangle_imp/bempp_grid_data_container_impl.hpp) and of the index set on top of it.
`std::vector` is a list; an access outside a vector (undefined behaviour) is `none`.
-/
namespace Verif.Grid

/-- A triangle: its three vertex indices, in local order (`ElementsContainer`,
`bempp_grid_data_container.hpp:22`). -/
structure Tri where
  a : Nat
  b : Nat
  c : Nat
deriving DecidableEq, Repr

def Tri.verts (t : Tri) : List Nat := [t.a, t.b, t.c]

/-- `localEdgeNodes[i]` applied to an element: the two vertices of local edge `i`
(`bempp_grid_data_container_impl.hpp:38-46`). -/
def Tri.edgeNodes (t : Tri) : List (Nat × Nat) := [(t.a, t.b), (t.c, t.a), (t.b, t.c)]

/-- State of the edge-creating loop: `edges` and `nodes2EdgeIndexPair`. -/
structure EdgeState where
  edges : List (Nat × Nat)
  pairs : List (List (Nat × Nat))

/-- The body of the inner loop (`bempp_grid_data_container_impl.hpp:45-66`): order the two nodes, look
the edge up among those attached to the larger node, create it if it does not exist; the result is the
edge index. -/
def edgeStep (st : EdgeState) (p : Nat × Nat) : Option (EdgeState × Nat) :=
  let q := if p.2 > p.1 then (p.2, p.1) else p
  (st.pairs[q.1]?).map fun l =>
    match l.find? (fun r => q.2 == r.1) with
    | some r => (st, r.2)
    | none => (⟨st.edges ++ [q], st.pairs.set q.1 (l ++ [(q.2, st.edges.length)])⟩, st.edges.length)

/-- The loop over the local edges of an element. -/
def edgeSteps (st : EdgeState) : List (Nat × Nat) → Option (EdgeState × List Nat)
  | [] => some (st, [])
  | p :: ps => do
    let (st, i) ← edgeStep st p
    let (st, is) ← edgeSteps st ps
    return (st, i :: is)

/-- The loop over the elements (`bempp_grid_data_container_impl.hpp:42-68`). -/
def elementSteps (st : EdgeState) : List Tri → Option (EdgeState × List (List Nat))
  | [] => some (st, [])
  | t :: ts => do
    let (st, is) ← edgeSteps st t.edgeNodes
    let (st, iss) ← elementSteps st ts
    return (st, is :: iss)

/-- `table[k].push_back(i)`. -/
def pushAt (table : List (List Nat)) (k i : Nat) : Option (List (List Nat)) :=
  (table[k]?).map fun l => table.set k (l ++ [i])

/-- `for j: table[keys[j]].push_back(i)`. -/
def pushKeys (i : Nat) : List (List Nat) → List Nat → Option (List (List Nat))
  | table, [] => some table
  | table, k :: ks => do
    let table ← pushAt table k i
    pushKeys i table ks

/-- `for i: for j: table[keys[i][j]].push_back(i)`, starting at `i`. -/
def pushRows : Nat → List (List Nat) → List (List Nat) → Option (List (List Nat))
  | _, table, [] => some table
  | i, table, ks :: kss => do
    let table ← pushKeys i table ks
    pushRows (i + 1) table kss

/-- The connectivity data of one level (`bempp_grid_data_container.hpp:70-95`). -/
structure DataContainer where
  nnodes : Nat
  elements : List Tri
  edges : List (Nat × Nat)
  element2Edges : List (List Nat)
  edge2Elements : List (List Nat)
  node2Elements : List (List Nat)
  node2Edges : List (List Nat)
  nodeIds : List (BitVec 32)
  elementIds : List (BitVec 32)
  edgeIds : List (BitVec 32)

/-- The ids `counter, counter+1, ...` given to `n` entities (`m_idCounter++`, an `unsigned int`). -/
def ids (counter n : Nat) : List (BitVec 32) := (List.range n).map fun k => BitVec.ofNat 32 (counter + k)

/-- `DataContainer::init` (`bempp_grid_data_container_impl.hpp:17-127`), without the geometries.
`counter` is the value of `m_idCounter` on entry (0 for a new container). -/
def DataContainer.init (nnodes : Nat) (elements : List Tri) (counter : Nat := 0) : Option DataContainer := do
  let (st, e2e) ← elementSteps ⟨[], List.replicate nnodes []⟩ elements
  let edge2Elements ← pushRows 0 (List.replicate st.edges.length []) e2e
  let node2Elements ← pushRows 0 (List.replicate nnodes []) (elements.map Tri.verts)
  let node2Edges ← pushRows 0 (List.replicate nnodes []) (st.edges.map fun p => [p.1, p.2])
  return ⟨nnodes, elements, st.edges, e2e, edge2Elements, node2Elements, node2Edges,
    ids counter nnodes, ids (counter + nnodes) elements.length,
    ids (counter + nnodes + elements.length) st.edges.length⟩

/-- Local vertices of facet `k` of the Dune reference triangle, in Dune's numbering
(`refElement.subEntity(k, 1, j, 2)`): edge 0 = {0,1}, edge 1 = {0,2}, edge 2 = {1,2}.  Dune itself is
not part of the repository; this is its published reference-element numbering. -/
def duneFacetVertices : Nat → List Nat
  | 0 => [0, 1]
  | 1 => [0, 2]
  | 2 => [1, 2]
  | _ => []

/-- The grid view of a level: `LevelIndexSetImp::index/subIndex/size`
(`bempp_grid_index_set.hpp:31-89`), `EntityImp::subEntity` (`bempp_grid_entity_imp.hpp:52-75`) and the
level iterator (`bempp_grid_level_iterator.hpp`: indices `0, 1, ...`).  `domain` gives the domain
index of each element. -/
def DataContainer.view (d : DataContainer) (domain : Nat → Int) : View where
  dim := 2
  count := fun codim => if codim = 0 then d.elements.length else if codim = 1 then d.edges.length
    else if codim = 2 then d.nnodes else 0
  elems := (List.range d.elements.length).map fun i =>
    let verts := (d.elements[i]?.map Tri.verts).getD []
    { index := i, domain := domain i,
      sub := fun codim => if codim = 1 then (d.element2Edges[i]?).getD []
        else if codim = 2 then verts else [],
      facetChildren := fun k codim =>
        if codim = 2 then (duneFacetVertices k).map fun j => (verts[j]?).getD 0 else [] }

end Verif.Grid
