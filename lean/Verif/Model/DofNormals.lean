import Verif.Model.DofBoxes
import Verif.Model.ShapeTransformation
/-
Model of the interpolation points of the scalar spaces and of the normals at these points (`global_dof_interpolation_points`,
`global_dof_normals` of `python/bempp/api/space/space.py`).
-/
namespace Verif.DofGeo
open Verif.Grid Verif.Space
noncomputable section

/-- `e.geometry().getNormals(center, normal)` for a flat triangle with the given corners (`space_helper.cpp:146-156`,
`concrete_geometry.hpp:378-383`): the Jacobian does not depend on the point. -/
def elementNormal (points : List (P3 ℝ)) : P3 ℝ :=
  let c := fun k => points.getD k ⟨0, 0, 0⟩
  let j := Shape.jacobianTransposed (c 0) (c 1) (c 2)
  Shape.calculateNormals j.1 j.2

/-- The loop that fills `elementNormals` (`space_helper.cpp:139-157`). -/
def elementNormals (v : View) (coord : Nat → P3 ℝ) : List (P3 ℝ) :=
  v.elems.foldl (fun (l : List (P3 ℝ)) e => l.set e.index (elementNormal (cornersOf v coord e)))
    (List.replicate (v.count 0) ⟨0, 0, 0⟩)

/-- The sum of the normals over the local dofs (`space_helper.cpp:175-183`). -/
def normalSum (normals : List (P3 ℝ)) (localDofs : List LocalDof) : P3 ℝ :=
  localDofs.foldl (fun (s : P3 ℝ) ld =>
    let n := normals.getD ld.entityIndex ⟨0, 0, 0⟩
    ⟨s.x + n.x, s.y + n.y, s.z + n.z⟩) ⟨0, 0, 0⟩

/-- The division by the length (`space_helper.cpp:184-190`).  `none`: division of zero by zero, the entries are not numbers. -/
def normalize (s : P3 ℝ) : Option (P3 ℝ) :=
  let len := Real.sqrt (s.x * s.x + s.y * s.y + s.z * s.z)
  if len = 0 then none else some ⟨s.x / len, s.y / len, s.z / len⟩

/-- The division for grids of dimension one (`space_helper.cpp:168-171`), with the product `x² y²` that the code computes.  `none` as above
or a division of a non-zero number by zero. -/
def normalizeLine (x y : ℝ) : Option (ℝ × ℝ) :=
  let len := Real.sqrt (x * x * y * y)
  if len = 0 then none else some (x / len, y / len)

/-- `SpaceHelper::getGlobalDofNormals_defaultImplementation` for `gridDim == 2` (`space_helper.cpp:125-192`;
`piecewise_linear_continuous_scalar_space_barycentric.cpp:400-455` is the same computation). -/
def defaultNormals (v : View) (coord : Nat → P3 ℝ) (global2local : List (List LocalDof)) : List (Option (P3 ℝ)) :=
  global2local.map fun lds => normalize (normalSum (elementNormals v coord) lds)

/-- The loop that copies the points into a matrix (`space_helper.cpp:38-55, 58-74`) for `worldDim == 3`. -/
def pointMatrix (points : List (P3 ℝ)) (row col : Nat) : ℝ :=
  let p := points.getD col ⟨0, 0, 0⟩
  if row = 0 then p.x else if row = 1 then p.y else p.z

end
end Verif.DofGeo
