import Verif.Model.GridFactory
import Mathlib.Data.Nat.Digits.Defs
/-
Model of the Gmsh interface of the Python layer (Python 3): python/bempp/api/file_interfaces/gmsh.py, and the parts of
python/bempp/api/file_interfaces/general_interface.py that lead to it.

A file is a list of bytes; a text is a list of code points.  Double precision numbers are an abstract type with a text form (`str`, `float`)
and a binary form (8 bytes).  Simplifications: integers are not reduced modulo 2^32 when stored in numpy arrays; Python's `int` accepts digits
with an optional sign only; negative numbers of tags in binary element headers are reported as `struct.error`.
-/
namespace Verif.Gmsh
open Verif.Grid

/-- Bytes or code points. -/
abbrev Bytes := List Nat

/-- Python exceptions. -/
inductive Exn where
  | ValueError | IndexError | KeyError | TypeError | AttributeError | UnicodeDecodeError | StructError | UnboundLocalError | OutOfFuel
deriving DecidableEq

/-- Double precision numbers: `str`, `float(...)`, `struct.pack('d')`, `np.fromstring`; and the decoding of UTF-8 beyond ASCII. -/
structure Codec (F : Type) where
  text : F → Bytes
  ofText : Bytes → Option F
  pack : F → Bytes
  unpack : Bytes → F
  utf8 : Bytes → Option Bytes

/-- The bytes of an ASCII string. -/
def ascii (s : String) : Bytes := s.toList.map Char.toNat

/-- `bytes.decode('utf-8')`. -/
def decode {F : Type} (c : Codec F) (b : Bytes) : Except Exn Bytes :=
  if b.all (· < 128) then .ok b
  else match c.utf8 b with
    | some t => .ok t
    | none => .error .UnicodeDecodeError

/-- The characters `bytes.rstrip` removes. -/
def isSpaceByte (b : Nat) : Bool := b == 32 || (9 ≤ b && b ≤ 13)

/-- The characters `str.split` splits at. -/
def isSpace (b : Nat) : Bool := b == 32 || (9 ≤ b && b ≤ 13) || (28 ≤ b && b ≤ 31) || b == 133 || b == 160

/-- `rstrip()`. -/
def rstrip (b : Bytes) : Bytes := (b.reverse.dropWhile isSpaceByte).reverse

/-- `split()`; `cur` is the current token, reversed. -/
def splitAux (cur : Bytes) : Bytes → List Bytes
  | [] => if cur = [] then [] else [cur.reverse]
  | b :: l => if isSpace b then (if cur = [] then splitAux [] l else cur.reverse :: splitAux [] l) else splitAux (b :: cur) l

/-- `split()`. -/
def split (b : Bytes) : List Bytes := splitAux [] b

/-- `f.readline()`: the line with its end, and the rest of the file. -/
def readline : Bytes → Bytes × Bytes
  | [] => ([], [])
  | b :: l => if b = 10 then ([10], l) else (b :: (readline l).1, (readline l).2)

/-- `f.readline().rstrip().decode('utf-8')`. -/
def line {F : Type} (c : Codec F) (f : Bytes) : Except Exn (Bytes × Bytes) := do
  let s ← decode c (rstrip (readline f).1)
  return (s, (readline f).2)

/-- `str(n)`. -/
def showNat (n : Nat) : Bytes := if n = 0 then [48] else (Nat.digits 10 n).reverse.map (· + 48)

/-- `int(s)` for digits. -/
def parseNat (b : Bytes) : Option Nat :=
  if b ≠ [] ∧ b.all (fun d => 48 ≤ d && d ≤ 57) = true then some (Nat.ofDigits 10 (b.reverse.map (· - 48))) else none

/-- `int(s)`. -/
def parseInt : Bytes → Option Int
  | 45 :: b => (parseNat b).map fun n => -(n : Int)
  | 43 :: b => (parseNat b).map fun n => (n : Int)
  | b => (parseNat b).map fun n => (n : Int)

/-- A conversion that fails with `ValueError`. -/
def orValueError {α : Type} : Option α → Except Exn α
  | some a => .ok a
  | none => .error .ValueError

/-- `struct.pack('i', n)` on a little endian machine. -/
def packInt (n : Int) : Except Exn Bytes :=
  if -(2 : Int) ^ 31 ≤ n ∧ n < 2 ^ 31 then
    let m := (n % 2 ^ 32).toNat
    .ok [m % 256, m / 256 % 256, m / 65536 % 256, m / 16777216 % 256]
  else .error .StructError

/-- The integer of four bytes. -/
def unpackInt (b : Bytes) : Int :=
  let m := b.getD 0 0 + 256 * b.getD 1 0 + 65536 * b.getD 2 0 + 16777216 * b.getD 3 0
  if m < 2 ^ 31 then m else (m : Int) - 2 ^ 32

/-- `struct.unpack(n * 'i', f.read(4 * n))`. -/
def readInts (n : Nat) (f : Bytes) : Except Exn (List Int × Bytes) :=
  if (f.take (4 * n)).length = 4 * n then .ok ((List.range n).map fun i => unpackInt ((f.drop (4 * i)).take 4), f.drop (4 * n))
  else .error .StructError

/-- `_nodes_per_elem_type` (`gmsh.py:5-37`). -/
def nodesPerElemType (n : Int) : Option Nat :=
  ([(1, 2), (2, 3), (3, 4), (4, 4), (5, 8), (6, 6), (7, 5), (8, 3), (9, 6), (10, 9), (11, 10), (12, 27), (13, 18), (14, 14), (15, 1), (16, 8),
    (17, 20), (18, 15), (19, 13), (20, 9), (21, 10), (22, 12), (23, 15), (24, 15), (25, 21), (26, 4), (27, 5), (28, 6), (29, 20), (30, 35),
    (31, 56), (92, 64), (93, 125)] : List (Int × Nat)).lookup n

/-- `read_vertex` (`gmsh.py:55-70`). -/
def readVertex {F : Type} (c : Codec F) (s : Bytes) : Except Exn (Int × P3 F) := do
  match split s with
  | [i, x, y, z] =>
    let i ← orValueError (parseInt i)
    let x ← orValueError (c.ofText x)
    let y ← orValueError (c.ofText y)
    let z ← orValueError (c.ofText z)
    return (i, ⟨x, y, z⟩)
  | _ => .error .ValueError

/-- A triangle of the file: its number, its vertices, its first tag. -/
structure FileElement where
  index : Int
  nodes : List Int
  domain : Int

/-- `read_element` (`gmsh.py:73-94`): nothing for elements that are no triangles. -/
def readElement (s : Bytes) : Except Exn (Option FileElement) := do
  let tokens := split s
  let index ← orValueError (tokens[0]?.bind parseInt)
  let type ← orValueError (tokens[1]?.bind parseInt)
  if type ≠ 2 then return none
  let phys ← orValueError (tokens[3]?.bind parseInt)
  let v2 ← orValueError (tokens.reverse[0]?.bind parseInt)
  let v1 ← orValueError (tokens.reverse[1]?.bind parseInt)
  let v0 ← orValueError (tokens.reverse[2]?.bind parseInt)
  return some ⟨index, [v0, v1, v2], phys⟩

/-- The ASCII vertices (`gmsh.py:157-172`): `k` vertices are missing, `s` is the current line. -/
def readVertices {F : Type} (c : Codec F) : Nat → Bytes → Bytes → Except Exn (List (Int × P3 F) × Bytes × Bytes)
  | 0, s, _ => do
    let _ ← readVertex c s
    .error .IndexError
  | k + 1, s, f => do
    let v ← readVertex c s
    let (s', f') ← line c f
    if k = 0 then return ([v], s', f')
    if s' = ascii "$EndNodes" then .error .ValueError
    else
      let (vs, s'', f'') ← readVertices c k s' f'
      return (v :: vs, s'', f'')

/-- The ASCII elements (`gmsh.py:210-227`). -/
def readElements {F : Type} (c : Codec F) : Nat → Bytes → Bytes → Except Exn (List FileElement × Bytes × Bytes)
  | 0, s, f => if s = ascii "$EndElements" then .ok ([], s, f) else .error .ValueError
  | k + 1, s, f => do
    if s = ascii "$EndElements" then .error .ValueError
    else
      let e ← readElement s
      let (s', f') ← line c f
      if k = 0 then return (e.toList, s', f')
      let (es, s'', f'') ← readElements c k s' f'
      return (e.toList ++ es, s'', f'')

/-- The binary vertices (`gmsh.py:145-155`). -/
def readVerticesBinary {F : Type} (c : Codec F) (n : Nat) (dataSize : Nat) (f : Bytes) : Except Exn (List (Int × P3 F) × Bytes) :=
  let s := f.take (n * (4 + 3 * dataSize))
  let vertex := fun i => (unpackInt ((s.drop (28 * i)).take 4), (⟨c.unpack ((s.drop (28 * i + 4)).take 8), c.unpack ((s.drop (28 * i + 12)).take 8),
    c.unpack ((s.drop (28 * i + 20)).take 8)⟩ : P3 F))
  if s.length % 28 ≠ 0 then .error .ValueError
  else if s.length / 28 = n then .ok ((List.range n).map vertex, f.drop (n * (4 + 3 * dataSize)))
  else if s.length / 28 = 1 then .ok (List.replicate n (vertex 0), f.drop (n * (4 + 3 * dataSize)))
  else .error .ValueError

/-- The elements of a block of binary elements (`gmsh.py:197-205`). -/
def readBlock (type : Int) (ntags nnodes : Nat) : Nat → Bytes → Except Exn (List FileElement × Bytes)
  | 0, f => .ok ([], f)
  | k + 1, f => do
    let (index, f) ← readInts 1 f
    let (tags, f) ← readInts ntags f
    let (nodes, f) ← readInts nnodes f
    let e ← if type = 2 then
        (match tags[0]? with
        | some t => Except.ok [FileElement.mk (index.getD 0 0) nodes t]
        | none => Except.error Exn.IndexError)
      else Except.ok []
    let (es, f) ← readBlock type ntags nnodes k f
    return (e ++ es, f)

/-- The blocks of binary elements (`gmsh.py:188-205`). -/
def readBlocks (fuel : Nat) (number count : Int) (f : Bytes) : Except Exn (List FileElement × Bytes) :=
  match fuel with
  | 0 => .error .OutOfFuel
  | fuel + 1 =>
    if count < number then do
      let (h, f) ← readInts 3 f
      let nnodes ← match nodesPerElemType (h.getD 0 0) with
        | some n => Except.ok n
        | none => Except.error Exn.KeyError
      if h.getD 2 0 < 0 ∧ 0 < h.getD 1 0 then .error .StructError
      else
        let (es, f) ← readBlock (h.getD 0 0) (h.getD 2 0).toNat nnodes (h.getD 1 0).toNat f
        let (es', f) ← readBlocks fuel number (count + ((h.getD 1 0).toNat : Nat)) f
        return (es ++ es', f)
    else .ok ([], f)

/-- What `parse_gmsh` has read (`gmsh.py:96-103`). -/
structure Parsed (F : Type) where
  vertices : Option (List (Int × P3 F))
  elements : Option (List FileElement)
  binary : Bool
  dataSize : Nat

/-- `$MeshFormat` (`gmsh.py:111-132`). -/
def readFormat {F : Type} (c : Codec F) (p : Parsed F) (f : Bytes) : Except Exn (Parsed F × Bytes) := do
  let (s, f) ← line c f
  let tokens := split s
  match tokens[0]? with
  | none => .error .IndexError
  | some t =>
    if t ≠ ascii "2.2" then .error .ValueError
    else
      let type ← match tokens[1]? with
        | some t => orValueError (parseInt t)
        | none => Except.error Exn.IndexError
      let size ← match tokens[2]? with
        | some t => orValueError (parseInt t)
        | none => Except.error Exn.IndexError
      let binary := p.binary || type == 1
      let f ← if binary then do
          let (v, f) ← readInts 1 f
          if v.getD 0 0 ≠ 1 then Except.error Exn.ValueError else pure (readline f).2
        else pure f
      let (s, f) ← line c f
      if s ≠ ascii "$EndMeshFormat" then .error .ValueError
      else return ({ p with binary := binary, dataSize := size.toNat }, f)

/-- `$Nodes` (`gmsh.py:133-176`). -/
def readNodes {F : Type} (c : Codec F) (p : Parsed F) (f : Bytes) : Except Exn (Parsed F × Bytes) := do
  let (s, f) ← line c f
  let n ← orValueError (parseInt s)
  if n < 0 then .error .ValueError
  else
    let (vs, s, f) ← if p.binary then do
        let (vs, f) ← readVerticesBinary c n.toNat p.dataSize f
        let (_, f) ← line c f
        let (s, f) ← line c f
        pure (vs, s, f)
      else readVertices c n.toNat (rstrip (readline f).1) (readline f).2
    if s ≠ ascii "$EndNodes" then .error .ValueError
    else return ({ p with vertices := some vs }, f)

/-- `$Elements` (`gmsh.py:177-230`). -/
def readElementsSection {F : Type} (c : Codec F) (p : Parsed F) (f : Bytes) : Except Exn (Parsed F × Bytes) := do
  let (s, f) ← line c f
  let n ← orValueError (parseInt s)
  let (es, s, f) ← if p.binary then do
      let (es, f) ← readBlocks (f.length + 1) n 0 f
      let (_, f) ← line c f
      let (s, f) ← line c f
      pure (es, s, f)
    else do
      let (s, f) ← line c f
      if n < 0 then Except.error Exn.ValueError else readElements c n.toNat s f
  if s ≠ ascii "$EndElements" then .error .ValueError
  else return ({ p with elements := some es }, f)

/-- The loop over the lines (`gmsh.py:106-233`). -/
def parseLoop {F : Type} (c : Codec F) : Nat → Parsed F → Bytes → Except Exn (Parsed F)
  | 0, _, _ => .error .OutOfFuel
  | fuel + 1, p, f => do
    let (s, f) ← line c f
    if s = [] then return p
    if s = ascii "$MeshFormat" then
      let (p, f) ← readFormat c p f
      parseLoop c fuel p f
    else if s = ascii "$Nodes" then
      let (p, f) ← readNodes c p f
      parseLoop c fuel p f
    else if s = ascii "$Elements" then
      let (p, f) ← readElementsSection c p f
      parseLoop c fuel p f
    else parseLoop c fuel p f

/-- `parse_gmsh` (`gmsh.py:39-235`); every pass of the loop reads at least one byte. -/
def parseGmsh {F : Type} (c : Codec F) (f : Bytes) : Except Exn (Parsed F) := parseLoop c (f.length + 1) ⟨none, none, false, 0⟩ f

/-- `GenericGrid` (`general_interface.py:225-403`). -/
structure GenericGrid (F : Type) where
  vertices : List (P3 F)
  elements : List (List Nat)
  vertexIds : List Int
  elementIds : List Int
  domainIndices : List Int

/-- `vertex_used`, `vertex_count` and the columns of `elements` (`gmsh.py:403-411`). -/
structure Renumbering where
  used : List (Option Nat)
  count : Nat

/-- `vertex_used[vertex - 1]` with numpy's negative indices. -/
def usedIndex (n : Nat) (vertex : Int) : Except Exn Nat :=
  let i := vertex - 1
  if 0 ≤ i ∧ i < n then .ok i.toNat
  else if -(n : Int) ≤ i ∧ i < 0 then .ok (i + n).toNat
  else .error .IndexError

/-- One vertex of one element (`gmsh.py:406-411`). -/
def Renumbering.visit (r : Renumbering) (vertex : Int) : Except Exn (Renumbering × Nat) := do
  let i ← usedIndex r.used.length vertex
  match r.used.getD i none with
  | some k => return (r, k)
  | none => return (⟨r.used.set i (some r.count), r.count + 1⟩, r.count)

/-- The vertices of one element. -/
def Renumbering.visitAll (r : Renumbering) : List Int → Except Exn (Renumbering × List Nat)
  | [] => .ok (r, [])
  | v :: l => do
    let (r, k) ← r.visit v
    let (r, ks) ← r.visitAll l
    return (r, k :: ks)

/-- All elements. -/
def Renumbering.elements (r : Renumbering) : List FileElement → Except Exn (Renumbering × List (List Nat))
  | [] => .ok (r, [])
  | e :: l => do
    let (r, k) ← r.visitAll e.nodes
    let (r, ks) ← r.elements l
    return (r, k :: ks)

/-- `np.argsort(vertex_used)[-vertex_count:]`: the vertices with numbers 0, 1, ... (`gmsh.py:416-417`). -/
def Renumbering.indexSet (r : Renumbering) : List Nat := (List.range r.count).map fun k => r.used.findIdx fun u => u == some k

/-- `create_grid_structure` (`gmsh.py:386-423`). -/
def createGridStructure {F : Type} (p : Parsed F) : Except Exn (GenericGrid F) :=
  match p.vertices, p.elements with
  | _, none => .error .UnboundLocalError
  | none, some _ => .error .TypeError
  | some vs, some es =>
    let ids := vs.map Prod.fst
    if vs = [] then .error .IndexError
    else if ids ≠ (List.range vs.length).map fun i : Nat => ((i + 1 : Nat) : Int) then .error .ValueError
    else do
      let (r, elements) ← Renumbering.elements ⟨List.replicate vs.length none, 0⟩ es
      if r.count = 0 then .error .ValueError
      else
        let pick := fun i => (vs[i]?).map Prod.snd
        return ⟨(r.indexSet.filterMap pick), elements, r.indexSet.map fun i => ids.getD i 0, es.map (·.index), es.map (·.domain)⟩

/-- `import_data_sets` (`gmsh.py:426-435`). -/
def importDataSets {F : Type} (c : Codec F) (f : Bytes) : Except Exn (GenericGrid F) := do
  let p ← parseGmsh c f
  createGridStructure p

/-- `Data` as the exporter reads it (`general_interface.py:405-560`): the arrays by columns. -/
structure Data (F : Type) where
  description : Bytes
  real : List (List (List F))
  imag : Option (List (List (List F)))
  components : Nat

/-- `GridDataSet` (`general_interface.py:578-703`). -/
structure GridDataSet (F : Type) where
  grid : GenericGrid F
  elementData : List (Data F)
  vertexData : List (Data F)
  timesteps : List F

/-- A sequence of writes. -/
def concatAll {α : Type} (g : α → Except Exn Bytes) : List α → Except Exn Bytes
  | [] => .ok []
  | a :: l => do
    let x ← g a
    let y ← concatAll g l
    return x ++ y

/-- An access to a Python list. -/
def item {α : Type} (l : List α) (i : Nat) : Except Exn α :=
  match l[i]? with
  | some a => .ok a
  | none => .error .IndexError

/-- `write_actual_data` (`gmsh.py:256-288`). -/
def writeArray {F : Type} (c : Codec F) (binary vertex : Bool) (ids : List Nat) (identifier : Bytes) (components : Nat) (array : List (List F))
    (time : F) (step : Nat) : Except Exn Bytes := do
  let body ← concatAll (fun i => do
    let id ← item ids i
    let vals := array.getD i []
    if binary then
      let b ← packInt id
      return b ++ vals.flatMap c.pack
    else return showNat id ++ vals.flatMap (fun v => [32] ++ c.text v) ++ [10]) (List.range array.length)
  return ascii (if vertex then "$NodeData\n" else "$ElementData\n") ++ ascii "1\n" ++ (ascii "\"" ++ identifier ++ ascii "\"\n") ++ ascii "1\n" ++
    (c.text time ++ [10]) ++ ascii "3\n" ++ (showNat step ++ [10]) ++ (showNat components ++ [10]) ++ (showNat array.length ++ [10]) ++ body ++
    (if binary then [10] else []) ++ ascii (if vertex then "$EndNodeData\n" else "$EndElementData\n")

/-- `write_data` (`gmsh.py:251-306`). -/
def writeData {F : Type} (c : Codec F) (binary vertex : Bool) (ids : List Nat) (timesteps : List F) (d : Data F) : Except Exn Bytes := do
  let name := rstrip d.description
  let real ← concatAll (fun i => do
    let t ← item timesteps i
    writeArray c binary vertex ids (match d.imag with | none => name | some _ => name ++ ascii " (real)") d.components (d.real.getD i []) t i)
    (List.range d.real.length)
  match d.imag with
  | none => return real
  | some im =>
    let imag ← concatAll (fun i => do
      let t ← item timesteps i
      writeArray c binary vertex ids (name ++ ascii " (imag)") d.components (im.getD i []) t i) (List.range d.real.length)
    return real ++ imag

/-- `$Nodes` and `$Elements` of one file (`gmsh.py:326-383`). -/
def writeGrid {F : Type} (c : Codec F) (binary : Bool) (g : GenericGrid F) (vertexIds elementIds : List Nat) : Except Exn Bytes := do
  let one ← packInt 1
  let nodes ← concatAll (fun i => do
    let id ← item vertexIds i
    let v ← item g.vertices i
    if binary then
      let b ← packInt id
      return b ++ c.pack v.x ++ c.pack v.y ++ c.pack v.z
    else return showNat id ++ [32] ++ c.text v.x ++ [32] ++ c.text v.y ++ [32] ++ c.text v.z ++ [10]) (List.range g.vertices.length)
  let header ← if binary then concatAll packInt [2, (g.elements.length : Int), 2] else pure []
  let elements ← concatAll (fun i => do
    let e ← item g.elements i
    let v0 ← item vertexIds (e.getD 0 0)
    let v1 ← item vertexIds (e.getD 1 0)
    let v2 ← item vertexIds (e.getD 2 0)
    let d ← item g.domainIndices i
    let id ← item elementIds i
    if binary then concatAll packInt [(id : Int), d, 0, (v0 : Int), (v1 : Int), (v2 : Int)]
    else return showNat id ++ ascii " 2 2 " ++ showNat d.toNat ++ ascii " 0 " ++ showNat v0 ++ [32] ++ showNat v1 ++ [32] ++ showNat v2 ++ [10])
    (List.range g.elements.length)
  return ascii "$MeshFormat\n" ++ (if binary then ascii "2.2 1 8\n" ++ one ++ [10] else ascii "2.2 0 8\n") ++ ascii "$EndMeshFormat\n" ++
    ascii "$Nodes\n" ++ (showNat g.vertices.length ++ [10]) ++ nodes ++ (if binary then [10] else []) ++ ascii "$EndNodes\n" ++
    ascii "$Elements\n" ++ (showNat g.elements.length ++ [10]) ++ header ++ elements ++ (if binary then [10] else []) ++ ascii "$EndElements\n"

/-- `range(1, n + 1)`. -/
def range1 (n : Nat) : List Nat := (List.range n).map (· + 1)

/-- One file (`gmsh.py:315-383`). -/
def writeDataSet {F : Type} (c : Codec F) (binary : Bool) (d : GridDataSet F) (vertexIds elementIds : List Nat) : Except Exn Bytes := do
  let grid ← writeGrid c binary d.grid vertexIds elementIds
  let vertexData ← concatAll (writeData c binary true vertexIds d.timesteps) d.vertexData
  let elementData ← concatAll (writeData c binary false elementIds d.timesteps) d.elementData
  return grid ++ vertexData ++ elementData

/-- The loop over the data sets: `vertex_ids` and `element_ids` of the first set are kept (`gmsh.py:331-332, 354-355`). -/
def exportLoop {F : Type} (c : Codec F) (binary : Bool) : Option (List Nat) → Option (List Nat) → List (GridDataSet F) → Except Exn (List Bytes)
  | _, _, [] => .ok []
  | vertexIds, elementIds, d :: l => do
    let v := vertexIds.getD (range1 d.grid.vertices.length)
    let e := elementIds.getD (range1 d.grid.elements.length)
    let file ← writeDataSet c binary d v e
    let files ← exportLoop c binary (some v) (some e) l
    return file :: files

/-- `export_data_sets` (`gmsh.py:238-383`): the contents of the files. -/
def exportDataSets {F : Type} (c : Codec F) (binary : Bool) (vertexIds elementIds : Option (List Nat)) (sets : List (GridDataSet F)) :
    Except Exn (List Bytes) :=
  if sets = [] then .error .ValueError else exportLoop c binary vertexIds elementIds sets

/-- `export(file_name, grid=..., vertex_ids=..., element_ids=...)` for a name that ends in `.msh` (`general_interface.py:66-135, 843-882`): a
`GenericGrid` without the domain indices of the grid, and an exporter that is not given the numbers. -/
def exportGrid {F : Type} (c : Codec F) (binary : Bool) (vertices : List (P3 F)) (elements : List (List Nat)) (_domainIndices : List Int)
    (vertexIds elementIds : Option (List Nat)) : Except Exn Bytes :=
  let grid : GenericGrid F := ⟨vertices, elements, (vertexIds.getD (List.range vertices.length)).map fun i : Nat => (i : Int),
    (elementIds.getD (List.range elements.length)).map fun i : Nat => (i : Int), List.replicate elements.length 0⟩
  if (vertexIds.getD (List.range vertices.length)).length ≠ vertices.length then .error .ValueError
  else do
    let files ← exportDataSets c binary none none [⟨grid, [], [], []⟩]
    item files 0

end Verif.Gmsh
