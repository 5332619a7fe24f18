import Mathlib.Analysis.SpecialFunctions.Pow.Real
import Mathlib.Analysis.Complex.Norm
/-
Model of what `export` hands to the writers of files: python/bempp/api/file_interfaces/general_interface.py (`export`, `transform_array`, `Data`,
`bempp_object_to_grid_data_set`) and python/bempp/api/external/viewers.py (`visualize` with Gmsh or Paraview).  Numbers are complex numbers without
rounding; an array has a shape, a type and values, of which those inside the shape count.  The writers are in Verif.Model.Gmsh, Verif.Model.Json and
Verif.Model.Vtk, the evaluation of functions in Verif.Model.GridFunctionEval.
-/
namespace Verif.ExportData

/-- A two-dimensional NumPy array: components by points. -/
structure Arr where
  rows : ℕ
  cols : ℕ
  complex : Bool
  val : ℕ → ℕ → ℂ

/-- What can be raised. -/
inductive Error where
  | valueError (message : String)
  | indexError
  | typeError
deriving DecidableEq, Repr

/-- The option `transformation`; `other` is a string that is not known. -/
inductive Mode where
  | none
  | real
  | imag
  | abs
  | logAbs
  | absSquared
  | callable (f : Arr → Arr)
  | other (name : String)

/-- `np.real(a)`. -/
def realArr (a : Arr) : Arr := { a with complex := false, val := fun k p => ((a.val k p).re : ℂ) }

/-- `np.imag(a)`. -/
def imagArr (a : Arr) : Arr := { a with complex := false, val := fun k p => ((a.val k p).im : ℂ) }

/-- `np.sum(np.abs(a)**2, axis=0, keepdims=True)`. -/
noncomputable def absSquaredArr (a : Arr) : Arr :=
  ⟨1, a.cols, false, fun _ p => ((((List.range a.rows).map fun k => ‖a.val k p‖ ^ 2).sum : ℝ) : ℂ)⟩

/-- `np.sqrt(np.sum(np.abs(a)**2, axis=0, keepdims=True))`. -/
noncomputable def absArr (a : Arr) : Arr :=
  ⟨1, a.cols, false, fun _ p => ((Real.sqrt (((List.range a.rows).map fun k => ‖a.val k p‖ ^ 2).sum) : ℝ) : ℂ)⟩

/-- `np.log(np.sqrt(...))` for a given logarithm (that of 0 is not a number of the model). -/
noncomputable def logAbsArr (log : ℝ → ℝ) (a : Arr) : Arr :=
  { absArr a with val := fun k p => (log ((absArr a).val k p).re : ℂ) }

/-- `transform_array` for two-dimensional arrays (`general_interface.py:732-772`). -/
noncomputable def transformArray (log : ℝ → ℝ) : Mode → Arr → Except Error Arr
  | .none, a => .ok a
  | .real, a => .ok (realArr a)
  | .imag, a => .ok (imagArr a)
  | .abs, a => .ok (absArr a)
  | .absSquared, a => .ok (absSquaredArr a)
  | .logAbs, a => .ok (logAbsArr log a)
  | .callable f, a => .ok (f a)
  | .other _, _ => .error .typeError

/-- `Data` (`general_interface.py:405-545`). -/
structure Data where
  components : ℕ
  npoints : ℕ
  real : List (ℕ → ℕ → ℝ)
  imag : Option (List (ℕ → ℕ → ℝ))

/-- `Data(components, npoints, dtype=dtype)` (`general_interface.py:462-477`). -/
def Data.new (components npoints : ℕ) (complex : Bool) : Data := ⟨components, npoints, [], if complex then some [] else none⟩

/-- `add_data` (`general_interface.py:489-504`): NumPy drops the imaginary part when a complex array is required to be of a real type. -/
def Data.addData (d : Data) (a : Arr) : Except Error Data :=
  if a.rows = d.components ∧ a.cols = d.npoints then
    .ok { d with real := d.real ++ [fun k p => (a.val k p).re], imag := d.imag.map (· ++ [fun k p => (a.val k p).im]) }
  else .error (.valueError "'data' has wrong dimensions.")

/-- A grid, as far as it is needed. -/
structure Grid where
  id : ℕ
  vertices : ℕ
  elements : ℕ
deriving DecidableEq, Repr

/-- A grid function: its grid, whether its type is `float64`, its number of components, its values at the vertices and at the centers of the elements. -/
structure Fun where
  grid : Grid
  isFloat : Bool
  components : ℕ
  onVertices : Arr
  onCenters : Arr

/-- Where functions are evaluated. -/
inductive Where where
  | vertices
  | centers
deriving DecidableEq, Repr

/-- `evaluate_on_vertices` or `evaluate_on_element_centers`. -/
def Fun.at (f : Fun) : Where → Arr
  | .vertices => f.onVertices
  | .centers => f.onCenters

/-- The number of points. -/
def Grid.count (g : Grid) : Where → ℕ
  | .vertices => g.vertices
  | .centers => g.elements

/-- The inner loop of `bempp_object_to_grid_data_set` (`general_interface.py:860-864, 876-880`). -/
noncomputable def addFuns (log : ℝ → ℝ) (grid : Grid) (w : Where) (mode : Mode) : List Fun → Data → Except Error Data
  | [], d => .ok d
  | f :: funs, d =>
    if f.grid ≠ grid then .error (.valueError "Grids do not agree.")
    else do
      let a ← transformArray log mode (f.at w)
      let d ← d.addData a
      addFuns log grid w mode funs d

/-- The body of the outer loop (`general_interface.py:850-864, 868-880`). -/
noncomputable def seriesData (log : ℝ → ℝ) (grid : Grid) (w : Where) (mode : Mode) : List Fun → Except Error Data
  | [] => .error .indexError
  | f :: funs => addFuns log grid w mode (f :: funs) (Data.new f.components (grid.count w) !f.isFloat)

/-- A data set (`general_interface.py:578-629`). -/
structure DataSet where
  grid : Grid
  elementData : List Data
  vertexData : List Data
  timesteps : List ℝ

/-- The outer loop. -/
noncomputable def allSeries (log : ℝ → ℝ) (grid : Grid) (w : Where) (mode : Mode) : List (List Fun) → Except Error (List Data)
  | [] => .ok []
  | s :: series => do
    let d ← seriesData log grid w mode s
    let ds ← allSeries log grid w mode series
    return d :: ds

/-- `bempp_object_to_grid_data_set` with functions (`general_interface.py:774-882`) and the default of the time steps (`general_interface.py:629`). -/
noncomputable def toDataSet (log : ℝ → ℝ) (grid : Grid) (w : Where) (mode : Mode) (timesteps : Option (List ℝ)) (series : List (List Fun)) :
    Except Error DataSet := do
  let ds ← allSeries log grid w mode series
  let t := timesteps.getD [0]
  match w with
  | .vertices => return ⟨grid, [], ds, t⟩
  | .centers => return ⟨grid, ds, [], t⟩

/-- The arguments of `export`. -/
structure Args where
  extension : String
  grid : Option Grid := none
  gridFunction : Option Fun := none
  dataSeries : Option (List (List Fun)) := none
  transformation : Mode := .none
  dataType : Option String := none
  timesteps : Option (List ℝ) := none

/-- `export` (`general_interface.py:68-153`): the data set that is given to the writer of the format, `none` if no writer is called. -/
noncomputable def export' (log : ℝ → ℝ) (k : Args) : Except Error (Option DataSet) :=
  if ¬ (k.extension = ".msh" ∨ k.extension = ".json" ∨ k.extension = ".vtk") then .error (.valueError "Unsupported file format.")
  else if k.grid.isSome.toNat + k.gridFunction.isSome.toNat + k.dataSeries.isSome.toNat ≠ 1 then
    .error (.valueError "Exactly one of 'grid', 'grid_function' or 'data_series'  must be provided.")
  else match k.grid with
    | some g => .ok (some ⟨g, [], [], [0]⟩)
    | none =>
      let funs := match k.gridFunction with
        | some f => [[f]]
        | none => k.dataSeries.getD []
      let go (w : Where) : Except Error (Option DataSet) :=
        match funs with
        | (f :: _) :: _ => do return some (← toDataSet log f.grid w k.transformation k.timesteps funs)
        | _ => .error .indexError
      if k.dataType.getD "node" = "node" then go .vertices
      else if k.dataType.getD "node" = "element" then go .centers
      else .ok none

/-- The transformation of `visualize` (`viewers.py:32-47`) and the default of the viewers (`viewers.py:85-86, 135-136`). -/
noncomputable def viewerMode (log : ℝ → ℝ) : Mode → Mode
  | .none => .callable realArr
  | .real => .callable realArr
  | .imag => .callable imagArr
  | .abs => .callable absArr
  | .logAbs => .callable (logAbsArr log)
  | .absSquared => .callable absSquaredArr
  | m => m

/-- `visualize` of a grid function with Gmsh or Paraview (`viewers.py:4-53, 88-101, 138-149`): what is written to the temporary file. -/
noncomputable def visualize (log : ℝ → ℝ) (extension : String) (f : Fun) (mode : String := "vertices") (transformation : Mode := .none) :
    Except Error (Option DataSet) :=
  export' log { extension := extension, gridFunction := some f, transformation := viewerMode log transformation, dataType := some mode }

end Verif.ExportData
