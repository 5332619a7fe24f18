import Verif.Model.Vtk
/-
A reader of legacy VTK files, and what is to be read from an exported file.
-/
namespace Verif.Vtk
open Verif.Grid
variable {F : Type}

/-- A field of a file. -/
structure Field (F : Type) where
  point : Bool
  name : String
  rows : List (List F)

/-- The contents of a file. -/
structure Contents (F : Type) where
  title : String
  time : F
  points : List (P3 F)
  cells : List (Nat × Nat × Nat)
  fields : List (Field F)

/-- Reads `n` lines of a given form. -/
def takeRows {α : Type} (row : Line F → Option α) : Nat → List (Line F) → Option (List α × List (Line F))
  | 0, lines => some ([], lines)
  | n + 1, l :: lines =>
    match row l with
    | none => none
    | some a =>
      match takeRows row n lines with
      | none => none
      | some (as, rest) => some (a :: as, rest)
  | _ + 1, [] => none

/-- A line of `POINTS`. -/
def pointRow : Line F → Option (P3 F)
  | [.real x, .real y, .real z] => some ⟨x, y, z⟩
  | _ => none

/-- A line of `CELLS`: a triangle. -/
def cellRow : Line F → Option (Nat × Nat × Nat)
  | [.int n, .int a, .int b, .int c] => if n = 3 then some (a, b, c) else none
  | _ => none

/-- A line of `CELL_TYPES`: type 5 is the triangle. -/
def typeRow : Line F → Option Unit
  | [.int n] => if n = 5 then some () else none
  | _ => none

/-- What has been read of the data: whether values are for points, and the fields, the last one first, each with whether it consists of
vectors. -/
structure Reader (F : Type) where
  point : Option Bool
  fields : List (Field F × Bool)

/-- One line of the data. -/
def Reader.line (points cells : Nat) (r : Reader F) : Line F → Option (Reader F)
  | [] => some r
  | [.word a, .int n] =>
    if a = "CELL_DATA" ∧ n = cells then some ⟨some false, r.fields⟩
    else if a = "POINT_DATA" ∧ n = points then some ⟨some true, r.fields⟩
    else none
  | [.word a, .word b, .word c] =>
    match r.point with
    | none => none
    | some p =>
      if a = "SCALARS" ∧ c = "double" then some ⟨r.point, (⟨p, b, []⟩, false) :: r.fields⟩
      else if a = "VECTORS" ∧ c = "double" then some ⟨r.point, (⟨p, b, []⟩, true) :: r.fields⟩
      else none
  | [.word a, .word b] => if a = "LOOKUP_TABLE" ∧ b = "default" then some r else none
  | [.real x] =>
    match r.fields with
    | (f, false) :: fs => some ⟨r.point, (⟨f.point, f.name, f.rows ++ [[x]]⟩, false) :: fs⟩
    | _ => none
  | [.real x, .real y, .real z] =>
    match r.fields with
    | (f, true) :: fs => some ⟨r.point, (⟨f.point, f.name, f.rows ++ [[x, y, z]]⟩, true) :: fs⟩
    | _ => none
  | _ => none

/-- All lines. -/
def Reader.lines (points cells : Nat) : Reader F → List (Line F) → Option (Reader F)
  | r, [] => some r
  | r, l :: ls =>
    match r.line points cells l with
    | none => none
    | some r => r.lines points cells ls

/-- The number of rows of a field. -/
def Field.complete (points cells : Nat) (f : Field F) : Bool := f.rows.length == if f.point then points else cells

/-- Reads the data; every field must have a row for each point or cell. -/
def readData (points cells : Nat) (lines : List (Line F)) : Option (List (Field F)) :=
  match (⟨none, []⟩ : Reader F).lines points cells lines with
  | none => none
  | some r => if r.fields.all fun f => f.1.complete points cells then some (r.fields.reverse.map Prod.fst) else none

/-- Reads from `CELL_TYPES` on. -/
def readTypes (title : String) (time : F) (points : List (P3 F)) (cells : List (Nat × Nat × Nat)) : List (Line F) → Option (Contents F)
  | [] :: [.word a, .int n] :: rest =>
    if a = "CELL_TYPES" ∧ n = cells.length then
      match takeRows typeRow n rest with
      | none => none
      | some (_, rest) => (readData points.length cells.length rest).map fun fields => ⟨title, time, points, cells, fields⟩
    else none
  | _ => none

/-- Reads from `CELLS` on. -/
def readCells (title : String) (time : F) (points : List (P3 F)) : List (Line F) → Option (Contents F)
  | [] :: [.word a, .int n, .int m] :: rest =>
    if a = "CELLS" ∧ m = 4 * n then
      match takeRows cellRow n rest with
      | none => none
      | some (cells, rest) => readTypes title time points cells rest
    else none
  | _ => none

/-- Reads a file. -/
def read : List (Line F) → Option (Contents F)
  | [.word a] :: [.word title] :: [.word b] :: [.word c, .word d] :: [.word e, .word f, .int g] :: [.word h, .int i, .int j, .word k] ::
      [.real time] :: [.word l, .int n, .word m] :: rest =>
    if a = "# vtk DataFile Version 3.0" ∧ b = "ASCII" ∧ c = "DATASET" ∧ d = "UNSTRUCTURED_GRID" ∧ e = "FIELD" ∧ f = "FieldData" ∧ g = 1 ∧
        h = "TIME" ∧ i = 1 ∧ j = 1 ∧ k = "double" ∧ l = "POINTS" ∧ m = "double" then
      match takeRows pointRow n rest with
      | none => none
      | some (points, rest) => readCells title time points rest
    else none
  | _ => none

/-- The data have one or three components and, for each of `steps` time steps, a real and, if they are complex, an imaginary value for each of
`n` points or cells. -/
structure Data.Fits (d : Data F) (n steps : Nat) : Prop where
  components : d.components = 1 ∨ d.components = 3
  real : ∀ t < steps, ∃ a, d.real[t]? = some a ∧ a.length = n ∧ ∀ v ∈ a, v.length = d.components
  imag : ∀ im, d.imag = some im → ∀ t < steps, ∃ a, im[t]? = some a ∧ a.length = n ∧ ∀ v ∈ a, v.length = d.components

/-- The data of the set fit. -/
structure DataSet.Fits (d : DataSet F) : Prop where
  cells : ∀ x ∈ d.elementData, x.Fits d.elements.length d.timesteps.length
  points : ∀ x ∈ d.vertexData, x.Fits d.vertices.length d.timesteps.length

/-- The arrays of a time step: real and imaginary parts. -/
def Data.arrays (d : Data F) (t : Nat) : List (List (List F)) := d.real[t]?.toList ++ (d.imag.getD [])[t]?.toList

/-- The names of the fields of data without descriptions, numbered from `i`. -/
def defaultNames (pre : String) : Nat → List (Data F) → List String
  | _, [] => []
  | i, d :: ds =>
    (match d.imag with
      | none => [pre ++ toString i]
      | some _ => [pre ++ toString i ++ "_real", pre ++ toString i ++ "_imag"]) ++ defaultNames pre (i + 1) ds

/-- The file has the grid, the time and the values of the data set at step `t`. -/
structure SameData (d : DataSet F) (t : Nat) (c : Contents F) : Prop where
  time : d.timesteps[t]? = some c.time
  points : c.points = d.vertices
  cells : c.cells = d.elements
  fields : c.fields.map (fun f => (f.point, f.rows)) = (d.elementData.flatMap fun x => (x.arrays t).map fun a => (false, a)) ++
    (d.vertexData.flatMap fun x => (x.arrays t).map fun a => (true, a))

end Verif.Vtk
