import Verif.Model.Gmsh
import Mathlib.Data.List.Basic
/-
Round trips through Gmsh files.
-/
namespace Verif.Gmsh
open Verif.Grid

/-- Double precision numbers survive being written and read, as text and in binary form; the text consists of printable characters
without `$`. -/
structure Codec.Lawful {F : Type} (c : Codec F) : Prop where
  text_ne : ∀ x, c.text x ≠ []
  text_printable : ∀ x, ∀ b ∈ c.text x, 33 ≤ b ∧ b < 127 ∧ b ≠ 36
  text_read : ∀ x, c.ofText (c.text x) = some x
  pack_length : ∀ x, (c.pack x).length = 8
  pack_read : ∀ x, c.unpack (c.pack x) = x

/-- A grid of triangles with at least one element. -/
structure GenericGrid.Valid {F : Type} (g : GenericGrid F) : Prop where
  triangles : ∀ e ∈ g.elements, e.length = 3
  nodes : ∀ e ∈ g.elements, ∀ i ∈ e, i < g.vertices.length
  some : g.elements ≠ []
  domains : g.domainIndices.length = g.elements.length
  domains_nonneg : ∀ d ∈ g.domainIndices, 0 ≤ d

/-- The numbers fit into 32 bit integers. -/
structure GenericGrid.Small {F : Type} (g : GenericGrid F) : Prop where
  vertices : g.vertices.length < 2 ^ 31
  elements : g.elements.length < 2 ^ 31
  domains : ∀ d ∈ g.domainIndices, d < 2 ^ 31

/-- `order` lists the members of `l` in the order of their first occurrences. -/
structure FirstUse (l order : List Nat) : Prop where
  nodup : order.Nodup
  mem : ∀ x, x ∈ order ↔ x ∈ l
  sorted : order.Pairwise fun a b => l.idxOf a < l.idxOf b

/-- `g'` is `g` with the vertices that are used by elements, in the order of their first use; the numbers of vertices and elements in the file
count from 1. -/
structure Imported {F : Type} (g g' : GenericGrid F) (order : List Nat) : Prop where
  used : FirstUse g.elements.flatten order
  vertices : g'.vertices.map some = order.map fun i => g.vertices[i]?
  vertexIds : g'.vertexIds = order.map fun i : Nat => (i : Int) + 1
  elements : g'.elements.map (fun e => e.map fun i => order[i]?) = g.elements.map fun e => e.map some
  elementIds : g'.elementIds = (List.range g.elements.length).map fun i : Nat => (i : Int) + 1
  domains : g'.domainIndices = g.domainIndices

/-- A description that fits into a line of ASCII text. -/
def Data.OneLine {F : Type} (d : Data F) : Prop := ∀ b ∈ d.description, 32 ≤ b ∧ b < 127

/-- A section of data: row `i` holds the values of vertex (or element) number `i + 1`. -/
structure Section (F : Type) where
  vertex : Bool
  name : Bytes
  time : F
  step : Nat
  components : Nat
  rows : List (List F)

/-- The four bytes of a number, lowest first. -/
def little (n : Nat) : Bytes := (List.range 4).map fun k => n / 256 ^ k % 256

/-- A row of a section. -/
def rowBytes {F : Type} (c : Codec F) (binary : Bool) (number : Nat) (row : List F) : Bytes :=
  if binary then little number ++ (row.map c.pack).flatten
  else List.intercalate [32] (showNat number :: row.map c.text) ++ [10]

/-- The bytes of a section as the Gmsh format has them: one string tag (the name), one real tag (the time), three integer tags (the step, the number
of components, the number of rows), the rows. -/
def Section.bytes {F : Type} (c : Codec F) (binary : Bool) (s : Section F) : Bytes :=
  let lines : List Bytes := [ascii (if s.vertex then "$NodeData" else "$ElementData"), ascii "1", [34] ++ s.name ++ [34], ascii "1", c.text s.time,
    ascii "3", showNat s.step, showNat s.components, showNat s.rows.length]
  (lines.map fun l => l ++ [10]).flatten ++ (s.rows.mapIdx fun i row => rowBytes c binary (i + 1) row).flatten ++ (if binary then [10] else []) ++
    ascii (if s.vertex then "$EndNodeData" else "$EndElementData") ++ [10]

/-- One section for every time step. -/
def sectionsOf {F : Type} (vertex : Bool) (name : Bytes) (components : Nat) (timesteps : List F) (arrays : List (List (List F))) : List (Section F) :=
  (arrays.zip timesteps).mapIdx fun step p => ⟨vertex, name, p.2, step, components, p.1⟩

/-- The sections of data: the real parts, then the imaginary parts. -/
def Data.sections {F : Type} (vertex : Bool) (timesteps : List F) (d : Data F) : List (Section F) :=
  match d.imag with
  | none => sectionsOf vertex (rstrip d.description) d.components timesteps d.real
  | some imag => sectionsOf vertex (rstrip d.description ++ ascii " (real)") d.components timesteps d.real ++
      sectionsOf vertex (rstrip d.description ++ ascii " (imag)") d.components timesteps imag

/-- There is a time for every array, real and imaginary parts have the same number of arrays, and no array has more than `n` rows. -/
structure Data.Complete {F : Type} (d : Data F) (timesteps : List F) (n : Nat) : Prop where
  times : d.real.length ≤ timesteps.length
  imag : ∀ im ∈ d.imag, im.length = d.real.length
  rows : ∀ a ∈ d.real, a.length ≤ n
  imag_rows : ∀ im ∈ d.imag, ∀ a ∈ im, a.length ≤ n

end Verif.Gmsh
