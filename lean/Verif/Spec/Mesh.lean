import Verif.Model.DataContainer
import Mathlib.Data.Sym.Sym2
/-
Specification vocabulary for triangular meshes.
-/
namespace Verif.Grid

/-- The three sides of a triangle as unordered pairs of vertices, in Dune's order of the local edges. -/
def Tri.sides (t : Tri) : List (Sym2 Nat) := [s(t.a, t.b), s(t.a, t.c), s(t.b, t.c)]

/-- The three vertices are different. -/
def Tri.Proper (t : Tri) : Prop := t.a ≠ t.b ∧ t.a ≠ t.c ∧ t.b ≠ t.c

/-- The unordered pair of vertices of an edge. -/
def side (p : Nat × Nat) : Sym2 Nat := s(p.1, p.2)

/-- A valid connectivity list over `n` vertices. -/
structure MeshOk (n : Nat) (ts : List Tri) : Prop where
  range : ∀ t ∈ ts, ∀ v ∈ t.verts, v < n
  proper : ∀ t ∈ ts, t.Proper

end Verif.Grid
