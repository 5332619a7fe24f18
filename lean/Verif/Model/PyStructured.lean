import Verif.Model.PyGrid
/-
Model of `bempp.api.structured_grid` (python/bempp/api/grid/grid.py:204-266,
cython/bempp/core/grid/grid.pyx:299-351): a rectangular grid in a coordinate plane.
-/
namespace Verif.PyGrid
open Verif.Grid

/-- `structured_grid` of the Cython module (`grid.pyx:332-351`): the three arguments must have two entries. -/
def coreStructuredGrid {K : Type} [Field K] (lowerLeft upperRight : List K) (subdivisions : List Int) :
    Except PyErr (GridData K) :=
  match lowerLeft, upperRight, subdivisions with
  | [x0, y0], [x1, y1], [n, m] =>
    match createStructuredGrid true (x0, y0) (x1, y1) (n, m) with
    | .ok g => .ok g
    | .error .invalidArgument => .error .runtimeError
    | .error .ub => .error .ub
  | _, _, _ => .error .valueError

/-- `vertices[rows, :] + offset_vector`, one column; `rows` selects the coordinates (`grid.py:253-263`). -/
def selectRows {K : Type} [Field K] (p : P3 K) (rows : List Nat) (offset : List K) : List K :=
  let q := [p.x, p.y, p.z]
  [q.getD (rows.getD 0 0) 0 + offset.getD 0 0, q.getD (rows.getD 1 0) 0 + offset.getD 1 0,
   q.getD (rows.getD 2 0) 0 + offset.getD 2 0]

/-- `structured_grid` (`grid.py:204-266`). -/
def structuredGrid {K : Type} [Field K] (lowerLeft upperRight : List K) (subdivisions : List Int)
    (axis : String) (offset : K) : Except PyErr (GridData K) :=
  match coreStructuredGrid lowerLeft upperRight subdivisions with
  | .error e => .error e
  | .ok g =>
    let vertices := viewVertices g ⟨0, 0, 0⟩
    let elements := columns 3 (viewElements g) 0
    if axis = "xy" then
      gridFromElementData (columns 3 (vertices.map fun p => selectRows p [0, 1, 2] [0, 0, offset]) 0) elements [] 0
    else if axis = "xz" then
      gridFromElementData (columns 3 (vertices.map fun p => selectRows p [0, 2, 1] [0, offset, 0]) 0) elements [] 0
    else if axis = "yz" then
      gridFromElementData (columns 3 (vertices.map fun p => selectRows p [2, 0, 1] [offset, 0, 0]) 0) elements [] 0
    else .error .valueError

end Verif.PyGrid
