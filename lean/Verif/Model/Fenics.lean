import Mathlib.Algebra.BigOperators.Group.Finset.Basic
import Mathlib.Data.Nat.Cast.Basic
import Verif.Model.PyGridView
import Verif.Model.Space
/-
Model of the coupling with FEniCS (python/bempp/api/fenics_interface/coupling.py, p1_coupling.py, fenics_operator.py).
FEniCS itself is a parameter: a mesh is known by its number of vertices, the boundary mesh by its cells and by
`entity_map(0)`, a P1 space by `dof_to_vertex_map`.
-/
namespace Verif.Fenics
open Verif.Grid Verif.Space Verif.PyGrid

/-- One assignment `vertex_to_dof_map[vertex_insertion_index] = global_dofs[ind]` (`p1_coupling.py:18-19`); a write outside of the
array raises.  The insertion index of a vertex is its index (`bempp_grid_data_container_impl.hpp`, C33). -/
def writeDof (m : List Int) (vtx : Nat) (g : Int) : Except PyErr (List Int) :=
  if vtx < m.length then .ok (m.set vtx g) else .error .indexError

/-- The loop over the corners of one element (`p1_coupling.py:17-19`): `ind` counts the corners, `global_dofs` are the dofs of
the element. -/
def writeCorners (dofs : List Int) : List Int → List (Nat × Nat) → Except PyErr (List Int)
  | m, [] => .ok m
  | m, (vtx, ind) :: rest =>
    match dofs[ind]? with
    | none => .error .indexError
    | some g =>
      match writeDof m vtx g with
      | .error e => .error e
      | .ok m' => writeCorners dofs m' rest

/-- The loop over the elements (`p1_coupling.py:15-19`). -/
def writeElems (space : DofMaps) : List Int → List Elem → Except PyErr (List Int)
  | m, [] => .ok m
  | m, e :: es =>
    match writeCorners (space.getGlobalDofs e.index) m (e.sub 2).zipIdx with
    | .error err => .error err
    | .ok m' => writeElems space m' es

/-- `p1_dof_to_vertex_matrix` (`p1_coupling.py:3-24`): the row and column indices of the matrix of ones; its shape is inferred
from the largest indices.  Negative columns are rejected by scipy. -/
def dofToVertex (v : View) (space : DofMaps) : Except PyErr (List Nat × List Nat) :=
  match writeElems space (List.replicate space.globalDofCount 0) v.elems with
  | .error e => .error e
  | .ok m => if m.any (fun g => decide (g < 0)) then .error .valueError
    else .ok (List.range space.globalDofCount, m.map Int.toNat)

/-- A matrix in coordinate form with its shape: repeated positions are summed (all values are 1). -/
structure Coo where
  nrows : Nat
  ncols : Nat
  rows : List Nat
  cols : List Nat

/-- Entry of the matrix. -/
def Coo.entry (a : Coo) (i j : Nat) : Nat := cooEntry a.rows a.cols i j

/-- The shape scipy infers without `shape=`: one more than the largest index. -/
def inferred (l : List Nat) : Nat := l.foldl (fun n k => max n (k + 1)) 0

/-- `p1_trace` after the boundary mesh was made (`p1_coupling.py:61-95`); `numVertices = mesh.num_vertices()`,
`bmNodes = boundary_mesh.entity_map(0).array()`, `dofToVertexMap = dolfin.dof_to_vertex_map(fenics_space)`, `space` the P1 space
on the boundary grid.  Products of matrices of different sizes raise.  The result is the trace matrix by its entries, with its
shape. -/
def p1Trace (v : View) (space : DofMaps) (numVertices : Nat) (bmNodes dofToVertexMap : List Nat) :
    Except PyErr (Nat × Nat × (Nat → Nat → Nat)) :=
  match dofToVertex v space with
  | .error e => .error e
  | .ok rc =>
    let a : Coo := ⟨inferred rc.1, inferred rc.2, rc.1, rc.2⟩
    let b : Coo := ⟨bmNodes.length, numVertices, List.range bmNodes.length, bmNodes⟩
    let c : Coo := ⟨numVertices, numVertices, dofToVertexMap, List.range numVertices⟩
    if a.nrows ≠ b.nrows then .error .valueError
    else .ok (a.ncols, c.ncols, fun i j =>
      ∑ k ∈ Finset.range b.nrows, ∑ l ∈ Finset.range c.nrows, a.entry k i * b.entry k l * c.entry l j)

/-- `trace_matrix * coefficients`, entry `i`. -/
def applyTrace {K : Type} [CommSemiring K] (t : Nat × Nat × (Nat → Nat → Nat)) (c : Nat → K) (i : Nat) : K :=
  ∑ j ∈ Finset.range t.2.1, (t.2.2 i j : K) * c j

/-- `fenics_to_bempp_trace_data` (`coupling.py:22-36`): the dispatch on family and degree; `trace` is `p1_trace`.  `NotImplementedError` is a
`RuntimeError` of Python and is modelled as such. -/
def traceData {α : Type} (family : String) (degree : Nat) (trace : Except PyErr α) : Except PyErr α :=
  if family = "Lagrange" then
    if degree = 1 then trace else .error .runtimeError
  else .error .runtimeError

/-! ### FenicsOperator -/

/-- `parameters['linear_algebra_backend']` and `self._sparse_mat`. -/
structure OpState (M : Type) where
  backend : String
  sparseMat : Option M

/-- `FenicsOperator.weak_form` (`fenics_operator.py:17-46`); `assemble backend` is what FEniCS returns or raises when that
backend is set. -/
def weakForm {M : Type} (assemble : String → Except PyErr M) (st : OpState M) : Except PyErr M × OpState M :=
  match st.sparseMat with
  | some m => (.ok m, st)
  | none =>
    let backend := st.backend
    let current := if backend = "PETSc" ∨ backend = "uBLAS" then backend else "PETSc"
    match assemble current with
    | .error e => (.error e, { st with backend := current })
    | .ok m => (.ok m, ⟨backend, some m⟩)

end Verif.Fenics
