import Verif.Model.Json
/-
Round trips through JSON files.
-/
namespace Verif.Json
open Verif.Gmsh (Bytes Exn)

/-- The values `R`, which the type represents, survive being packed. -/
structure DType.Lawful {α : Type} (t : DType α) (R : α → Prop) : Prop where
  pos : 0 < t.size
  length : ∀ x, R x → (t.pack x).length = t.size
  bytes : ∀ x, R x → ∀ b ∈ t.pack x, b < 256
  read : ∀ x, R x → t.unpack (t.pack x) = x

/-- The arrays of a grid have the right shapes and hold double precision coordinates and 32 bit numbers. -/
structure Grid.Valid {F : Type} (R : F → Prop) (g : Grid F) : Prop where
  vertices : HasShape g.vertices 3 g.nvertices
  elements : HasShape g.elements 3 g.nelements
  vertexIds : g.vertexIds.length = g.nvertices
  elementIds : g.elementIds.length = g.nelements
  domainIndices : g.domainIndices.length = g.nelements
  represented : ∀ r ∈ g.vertices, ∀ x ∈ r, R x
  small : (∀ r ∈ g.elements, ∀ x ∈ r, x < 2 ^ 32) ∧ (∀ x ∈ g.vertexIds, x < 2 ^ 32) ∧ (∀ x ∈ g.elementIds, x < 2 ^ 32) ∧
    ∀ x ∈ g.domainIndices, x < 2 ^ 32

/-- A number that is neither infinite nor not-a-number. -/
def Num.IsFinite : Num → Prop
  | .fin _ => True
  | _ => False

/-- Arrays of the right shape with double precision numbers; complex data has an array at least, and its imaginary parts are finite. -/
structure Data.Valid (R : Num → Prop) (d : Data) : Prop where
  real : ∀ a ∈ d.real, HasShape a d.components d.npoints ∧ ∀ r ∈ a, ∀ x ∈ r, R x
  imag : ∀ l, d.imag = some l → l.length = d.real.length ∧ l ≠ [] ∧ ∀ a ∈ l, HasShape a d.components d.npoints ∧ ∀ r ∈ a, ∀ x ∈ r, R x ∧ x.IsFinite

/-- Everything in a data set is valid. -/
structure DataSet.Valid (R : Num → Prop) (d : DataSet) : Prop where
  grid : d.grid.Valid R
  elementData : ∀ x ∈ d.elementData, x.Valid R
  vertexData : ∀ x ∈ d.vertexData, x.Valid R
  timesteps : ∀ x ∈ d.timesteps, R x

end Verif.Json
