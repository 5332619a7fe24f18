import Verif.Model.GridFactory
/-
Model of the VTK export of the Python layer: python/bempp/api/file_interfaces/vtk.py, with the classes of
python/bempp/api/file_interfaces/general_interface.py that it reads.  A line of a file is a list of tokens (written with one space
between them); a title or name is one token, without line breaks.  Integers and double precision numbers are tokens too: `str` and the
reader's conversion are taken to be inverse to each other.
-/
namespace Verif.Vtk
open Verif.Grid

/-- A token. -/
inductive Tok (F : Type) where
  | word (s : String)
  | int (n : Nat)
  | real (x : F)

/-- A line. -/
abbrev Line (F : Type) := List (Tok F)

/-- Python exceptions. -/
inductive Exn where
  | IndexError | NameError
deriving DecidableEq, Repr

/-- `Data` (`general_interface.py:405-545`): the arrays by columns, each of `components` numbers (the shape is checked there). -/
structure Data (F : Type) where
  description : String
  components : Nat
  real : List (List (List F))
  imag : Option (List (List (List F)))

/-- `GridDataSet` with its `GenericGrid` (`general_interface.py:225-377, 578-676`). -/
structure DataSet (F : Type) where
  vertices : List (P3 F)
  elements : List (Nat × Nat × Nat)
  elementData : List (Data F)
  vertexData : List (Data F)
  description : String
  timesteps : List F

/-- The time steps of a `GridDataSet` for which none are given (`general_interface.py:620-631`), also if there are several arrays. -/
def defaultTimesteps {F : Type} (zero : F) : List F := [zero]

/-- `rstrip()`, for ASCII. -/
def rstrip (s : String) : String := String.ofList (s.toList.reverse.dropWhile Char.isWhitespace).reverse

/-- `replace(" ", "_")`. -/
def underscores (s : String) : String := String.ofList (s.toList.map fun c => if c = ' ' then '_' else c)

variable {F : Type}

/-- `write_data_field` (`vtk.py:14-29`); `shape[0]` is the number of components. -/
def writeField (name : String) (components : Nat) (array : List (List F)) : List (Line F) :=
  (if components = 1 then
    [.word "SCALARS", .word name, .word "double"] :: [.word "LOOKUP_TABLE", .word "default"] :: array.flatten.map fun v => [.real v]
  else if components = 3 then
    [.word "VECTORS", .word name, .word "double"] :: array.map fun v => v.map .real
  else []) ++ [[]]

/-- The name of a field (`vtk.py:75-78, 91-94`): `description` is the variable of `write_time_step`, not the description of the data. -/
def fieldName (pre : String) (description : String) (i : Nat) (d : Data F) : String :=
  if d.description = "" then pre ++ toString i else rstrip (underscores description)

/-- The loop over the fields (`vtk.py:74-85, 90-101`) from field `i` on; the variable `description` is returned. -/
def writeFields (pre : String) (t : Nat) : String → Nat → List (Data F) → Except Exn (List (Line F) × String)
  | description, _, [] => .ok ([], description)
  | description, i, d :: ds =>
    let name := fieldName pre description i d
    match d.real[t]? with
    | none => .error .IndexError
    | some re =>
      match d.imag with
      | none =>
        match writeFields pre t name (i + 1) ds with
        | .error e => .error e
        | .ok (lines, de) => .ok (writeField name d.components re ++ lines, de)
      | some imag =>
        match imag[t]? with
        | none => .error .IndexError
        | some im =>
          match writeFields pre t name (i + 1) ds with
          | .error e => .error e
          | .ok (lines, de) =>
            .ok (writeField (name ++ "_real") d.components re ++ (writeField (name ++ "_imag") d.components im ++ lines), de)

/-- The first lines (`vtk.py:36-70`). -/
def header (title : String) (time : F) (d : DataSet F) : List (Line F) :=
  [.word "# vtk DataFile Version 3.0"] :: [.word title] :: [.word "ASCII"] :: [.word "DATASET", .word "UNSTRUCTURED_GRID"] ::
    [.word "FIELD", .word "FieldData", .int 1] :: [.word "TIME", .int 1, .int 1, .word "double"] :: [.real time] ::
    [.word "POINTS", .int d.vertices.length, .word "double"] :: (d.vertices.map (fun p => [.real p.x, .real p.y, .real p.z]) ++
    ([] :: [.word "CELLS", .int d.elements.length, .int (4 * d.elements.length)] ::
      (d.elements.map (fun e => [.int 3, .int e.1, .int e.2.1, .int e.2.2]) ++
    ([] :: [.word "CELL_TYPES", .int d.elements.length] :: (List.replicate d.elements.length [.int 5] ++ [[]])))))

/-- `write_time_step` (`vtk.py:32-101`). -/
def writeTimeStep (fname : String) (d : DataSet F) (t : Nat) : Except Exn (List (Line F)) :=
  let title := if d.description = "" then "File Name: " ++ fname else rstrip d.description
  match d.timesteps[t]? with
  | none => .error .IndexError
  | some time =>
    match writeFields "cell_data_" t title 0 d.elementData with
    | .error e => .error e
    | .ok (cells, description) =>
      match writeFields "point_data_" t description 0 d.vertexData with
      | .error e => .error e
      | .ok (points, _) =>
        .ok (header title time d ++
          ((if d.elementData = [] then [] else [.word "CELL_DATA", .int d.elements.length] :: cells) ++
          (if d.vertexData = [] then [] else [.word "POINT_DATA", .int d.vertices.length] :: points)))

/-- The name of the file of a time step, if there is one data set (`vtk.py:103-113`); `stem` is that of `os.path.splitext`. -/
def fileName (stem : String) (d : DataSet F) (t : Nat) : String :=
  stem ++ (if d.timesteps.length > 1 then "_n" ++ toString t else "") ++ ".vtk"

/-- The loop over the time steps of one data set. -/
def stepLoop (stem : String) (d : DataSet F) : List Nat → Except Exn (List (String × List (Line F)))
  | [] => .ok []
  | t :: ts =>
    match writeTimeStep (fileName stem d t) d t with
    | .error e => .error e
    | .ok file =>
      match stepLoop stem d ts with
      | .error e => .error e
      | .ok files => .ok ((fileName stem d t, file) :: files)

/-- `export_data_sets` (`vtk.py:3-115`): the files.  With several data sets the name of the file refers to the variable `index`, which does
not exist. -/
def exportDataSets (stem : String) (sets : List (DataSet F)) : Except Exn (List (String × List (Line F))) :=
  match sets with
  | [d] => stepLoop stem d (List.range d.timesteps.length)
  | _ => if ∃ d ∈ sets, d.timesteps ≠ [] then .error .NameError else .ok []

end Verif.Vtk
