import Verif.Model.Gmsh
import Mathlib.Data.Real.Basic
/-
Model of the JSON interface of the Python layer: python/bempp/api/file_interfaces/json.py and the dictionaries of
python/bempp/api/file_interfaces/general_interface.py.

A string is a list of code points.  `json.dump` and `json.load` are taken to return what was given to them: the dictionaries hold strings, integers,
lists, dictionaries and None only.  Double precision numbers are reals, infinities and not-a-number, without signed zeros; the only arithmetic
the code does with them is exact.
-/
namespace Verif.Json
open Verif.Gmsh (Bytes Exn)

/-- The base64 alphabet. -/
def alphabet (n : Nat) : Nat :=
  if n < 26 then 65 + n else if n < 52 then 97 + (n - 26) else if n < 62 then 48 + (n - 52) else if n = 62 then 43 else 47

/-- `table_a2b_base64`: the value of a character. -/
def charValue (c : Nat) : Option Nat :=
  if 65 ≤ c ∧ c ≤ 90 then some (c - 65) else if 97 ≤ c ∧ c ≤ 122 then some (c - 97 + 26) else if 48 ≤ c ∧ c ≤ 57 then some (c - 48 + 52)
  else if c = 43 then some 62 else if c = 47 then some 63 else none

/-- `base64.b64encode`. -/
def b64encode : Bytes → Bytes
  | a :: b :: c :: l => alphabet (a / 4) :: alphabet (a % 4 * 16 + b / 16) :: alphabet (b % 16 * 4 + c / 64) :: alphabet (c % 64) :: b64encode l
  | [a, b] => [alphabet (a / 4), alphabet (a % 4 * 16 + b / 16), alphabet (b % 16 * 4), 61]
  | [a] => [alphabet (a / 4), alphabet (a % 4 * 16), 61, 61]
  | [] => []

/-- `binascii.a2b_base64` as `base64.decodebytes` uses it: characters outside the alphabet are skipped; `none` is `binascii.Error`. -/
def decodeAux (quad left pads : Nat) : Bytes → Option Bytes
  | [] => if quad = 0 then some [] else none
  | c :: l =>
    if c = 61 then
      if 2 ≤ quad ∧ 4 ≤ quad + (pads + 1) then some [] else decodeAux quad left (pads + 1) l
    else match charValue c with
      | none => decodeAux quad left pads l
      | some v =>
        match quad with
        | 0 => decodeAux 1 v 0 l
        | 1 => (decodeAux 2 (v % 16) 0 l).map fun r => (left * 4 + v / 16) :: r
        | 2 => (decodeAux 3 (v % 4) 0 l).map fun r => (left * 16 + v / 4) :: r
        | _ => (decodeAux 0 0 0 l).map fun r => (left * 64 + v) :: r

/-- `base64.decodebytes`. -/
def b64decode (s : Bytes) : Option Bytes := decodeAux 0 0 0 s

/-- A numpy scalar type: the bytes of an item. -/
structure DType (α : Type) where
  size : Nat
  pack : α → Bytes
  unpack : Bytes → α

/-- `uint32` on a little endian machine. -/
def uint32 : DType Nat where
  size := 4
  pack n := [n % 256, n / 256 % 256, n / 65536 % 256, n / 16777216 % 256]
  unpack b := b.getD 0 0 + 256 * b.getD 1 0 + 65536 * b.getD 2 0 + 16777216 * b.getD 3 0

/-- `numpy_to_base64` for an array with the given items in C order (`general_interface.py:705-718`). -/
def numpyToBase64 {α : Type} (t : DType α) (items : List α) : Bytes := b64encode (items.flatMap t.pack)

/-- The items of a buffer. -/
def items {α : Type} (t : DType α) : Nat → Bytes → List α
  | 0, _ => []
  | n + 1, b => t.unpack (b.take t.size) :: items t n (b.drop t.size)

/-- `_np.frombuffer(base64.decodebytes(...), dtype)`; `binascii.Error` is a `ValueError`. -/
def fromBuffer {α : Type} (t : DType α) (s : Bytes) : Except Exn (List α) :=
  match b64decode s with
  | none => .error .ValueError
  | some b => if b.length % t.size ≠ 0 then .error .ValueError else .ok (items t (b.length / t.size) b)

/-- The rows of an array in C order. -/
def rowsOf {α : Type} (cols : Nat) : Nat → List α → List (List α)
  | 0, _ => []
  | r + 1, l => l.take cols :: rowsOf cols r (l.drop cols)

/-- `base64_to_numpy` with two dimensions: the rows (`general_interface.py:720-730`); the order in memory does not matter to the constructors. -/
def base64ToMatrix {α : Type} (t : DType α) (s : Bytes) (rows cols : Nat) : Except Exn (List (List α)) := do
  let l ← fromBuffer t s
  if l.length = rows * cols then return rowsOf cols rows l else .error .ValueError

/-- `base64_to_numpy` with one dimension. -/
def base64ToVector {α : Type} (t : DType α) (s : Bytes) (n : Nat) : Except Exn (List α) := do
  let l ← fromBuffer t s
  if l.length = n then return l else .error .ValueError

/-- An array has this shape. -/
def HasShape {α : Type} (a : List (List α)) (rows cols : Nat) : Prop := a.length = rows ∧ ∀ r ∈ a, r.length = cols

instance {α : Type} (a : List (List α)) (rows cols : Nat) : Decidable (HasShape a rows cols) := by unfold HasShape; infer_instance

/-- `GenericGrid` (`general_interface.py:225-336`): the rows of the arrays, the number of their columns. -/
structure Grid (F : Type) where
  nvertices : Nat
  nelements : Nat
  vertices : List (List F)
  elements : List (List Nat)
  vertexIds : List Nat
  elementIds : List Nat
  description : Bytes
  domainIndices : List Nat

/-- `GenericGrid.__init__`, for arrays with `nv` and `ne` columns; the lengths of the element numbers are not checked. -/
def Grid.init {F : Type} (nv ne : Nat) (vertices : List (List F)) (elements : List (List Nat)) (vertexIds elementIds : Option (List Nat))
    (description : Bytes) (domainIndices : Option (List Nat)) : Except Exn (Grid F) :=
  if vertices.length ≠ 3 then .error .ValueError
  else if elements.length ≠ 3 then .error .ValueError
  else if (vertexIds.getD (List.range nv)).length ≠ nv then .error .ValueError
  else if (domainIndices.getD (List.replicate ne 0)).length ≠ ne then .error .ValueError
  else .ok ⟨nv, ne, vertices, elements, vertexIds.getD (List.range nv), elementIds.getD (List.range ne), description,
    domainIndices.getD (List.replicate ne 0)⟩

/-- The dictionary of a grid. -/
structure GridDict where
  vertices : Bytes
  elements : Bytes
  nvertices : Nat
  nelements : Nat
  vertexIds : Bytes
  elementIds : Bytes
  description : Bytes
  domainIndices : Bytes

/-- `GenericGrid.as_dict` (`general_interface.py:379-392`). -/
def Grid.asDict {F : Type} (t : DType F) (g : Grid F) : GridDict :=
  ⟨numpyToBase64 t g.vertices.flatten, numpyToBase64 uint32 g.elements.flatten, g.nvertices, g.nelements, numpyToBase64 uint32 g.vertexIds,
    numpyToBase64 uint32 g.elementIds, g.description, numpyToBase64 uint32 g.domainIndices⟩

/-- `GenericGrid.from_dict` (`general_interface.py:394-403`). -/
def Grid.fromDict {F : Type} (t : DType F) (d : GridDict) : Except Exn (Grid F) := do
  let vertices ← base64ToMatrix t d.vertices 3 d.nvertices
  let elements ← base64ToMatrix uint32 d.elements 3 d.nelements
  let vertexIds ← base64ToVector uint32 d.vertexIds d.nvertices
  let elementIds ← base64ToVector uint32 d.elementIds d.nelements
  let domainIndices ← base64ToVector uint32 d.domainIndices d.nelements
  Grid.init d.nvertices d.nelements vertices elements (some vertexIds) (some elementIds) d.description (some domainIndices)

/-- Double precision numbers. -/
inductive Num where
  | fin (x : ℝ) | inf (negative : Bool) | nan

noncomputable section

/-- The product of two numbers. -/
def Num.mul : Num → Num → Num
  | .fin x, .fin y => .fin (x * y)
  | .nan, _ => .nan
  | _, .nan => .nan
  | .fin x, .inf n => if x = 0 then .nan else .inf (xor n (x < 0))
  | .inf n, .fin x => if x = 0 then .nan else .inf (xor n (x < 0))
  | .inf m, .inf n => .inf (xor m n)

/-- The sum of two numbers. -/
def Num.add : Num → Num → Num
  | .fin x, .fin y => .fin (x + y)
  | .nan, _ => .nan
  | _, .nan => .nan
  | .fin _, .inf n => .inf n
  | .inf n, .fin _ => .inf n
  | .inf m, .inf n => if m = n then .inf m else .nan

/-- `-x`. -/
def Num.neg : Num → Num
  | .fin x => .fin (-x)
  | .inf n => .inf (!n)
  | .nan => .nan

/-- `a + 1j * b` for real `a`, `b`: numpy multiplies `(0 + 1j) * (b + 0j)` and adds `a + 0j`. -/
def Num.combine (a b : Num) : Num × Num :=
  let re := ((Num.fin 0).mul b).add ((Num.fin 1).mul (Num.fin 0)).neg
  let im := ((Num.fin 0).mul (Num.fin 0)).add ((Num.fin 1).mul b)
  (a.add re, (Num.fin 0).add im)

/-- `Data` (`general_interface.py:405-545`); `imag` is None for real data. -/
structure Data where
  components : Nat
  npoints : Nat
  description : Bytes
  real : List (List (List Num))
  imag : Option (List (List (List Num)))

/-- `dtype`. -/
def Data.isComplex (d : Data) : Bool := d.imag.isSome

/-- `Data.__init__` with a list of real arrays (`general_interface.py:470-489`). -/
def Data.ofReal (components npoints : Nat) (description : Bytes) (data : List (List (List Num))) : Except Exn Data :=
  if ∀ a ∈ data, HasShape a components npoints then .ok ⟨components, npoints, description, data, none⟩ else .error .ValueError

/-- `Data.__init__` with a list of complex arrays: `np.any([])` is false (`general_interface.py:470-489`). -/
def Data.ofComplex (components npoints : Nat) (description : Bytes) (data : List (List (List (Num × Num)))) : Except Exn Data :=
  if ∀ a ∈ data, HasShape a components npoints then
    .ok ⟨components, npoints, description, data.map fun a => a.map fun r => r.map Prod.fst,
      if data = [] then none else some (data.map fun a => a.map fun r => r.map Prod.snd)⟩
  else .error .ValueError

/-- The dictionary of data. -/
structure DataDict where
  real : List Bytes
  imag : Option (List Bytes)
  complex : Bool
  description : Bytes
  components : Nat
  npoints : Nat
  narrays : Nat

/-- `Data.as_dict` (`general_interface.py:547-560`). -/
def Data.asDict (t : DType Num) (d : Data) : DataDict :=
  ⟨d.real.map fun a => numpyToBase64 t a.flatten, d.imag.map fun l => l.map fun a => numpyToBase64 t a.flatten, d.isComplex, d.description, d.components,
    d.npoints, d.real.length⟩

/-- A list comprehension. -/
def mapM' {α β : Type} (f : α → Except Exn β) : List α → Except Exn (List β)
  | [] => .ok []
  | a :: l => do
    let b ← f a
    let bs ← mapM' f l
    return b :: bs

/-- `Data.from_dict` (`general_interface.py:562-576`). -/
def Data.fromDict (t : DType Num) (d : DataDict) : Except Exn Data :=
  if d.complex then do
    let arrays ← mapM' (fun p : Bytes × Bytes => do
      let a ← base64ToMatrix t p.1 d.components d.npoints
      let b ← base64ToMatrix t p.2 d.components d.npoints
      return a.zipWith (fun r s => r.zipWith Num.combine s) b) (d.real.zip (d.imag.getD []))
    Data.ofComplex d.components d.npoints d.description arrays
  else do
    let arrays ← mapM' (fun a => base64ToMatrix t a d.components d.npoints) d.real
    Data.ofReal d.components d.npoints d.description arrays

/-- `GridDataSet` (`general_interface.py:578-676`). -/
structure DataSet where
  grid : Grid Num
  elementData : List Data
  vertexData : List Data
  description : Bytes
  timesteps : List Num

/-- The dictionary of a data set. -/
structure SetDict where
  grid : GridDict
  elementData : List DataDict
  vertexData : List DataDict
  description : Bytes
  timesteps : Bytes
  ntimesteps : Nat

/-- `GridDataSet.as_dict` (`general_interface.py:680-692`). -/
def DataSet.asDict (t : DType Num) (d : DataSet) : SetDict :=
  ⟨d.grid.asDict t, d.elementData.map (Data.asDict t), d.vertexData.map (Data.asDict t), d.description, numpyToBase64 t d.timesteps, d.timesteps.length⟩

/-- `GridDataSet.from_dict` (`general_interface.py:694-703`). -/
def DataSet.fromDict (t : DType Num) (d : SetDict) : Except Exn DataSet := do
  let grid ← Grid.fromDict t d.grid
  let vertexData ← mapM' (Data.fromDict t) d.vertexData
  let elementData ← mapM' (Data.fromDict t) d.elementData
  let timesteps ← base64ToVector t d.timesteps d.ntimesteps
  return ⟨grid, elementData, vertexData, d.description, timesteps⟩

/-- `export_data_sets` (`json.py:3-32`): what `json.dump` is given. -/
def exportDataSets (t : DType Num) (sets : List DataSet) : List SetDict := sets.map (DataSet.asDict t)

/-- `import_data_sets` (`json.py:35-69`): `'file_name' is not None` holds always; `open(None)` raises a TypeError.  `load` is `json.load`
of the file, `loads` is `json.loads`. -/
def importDataSets (t : DType Num) (load : Bytes → Except Exn (List SetDict)) (_loads : Bytes → Except Exn (List SetDict)) (fileName dataString : Option Bytes) :
    Except Exn (List DataSet) :=
  match fileName, dataString with
  | none, none => .error .ValueError
  | none, some _ => .error .TypeError
  | some f, _ => do
    let sets ← load f
    mapM' (DataSet.fromDict t) sets

end

end Verif.Json
