import Verif.Model.Assembly
import Verif.Model.PyGridView
/-
Model of `assemble_singular_part` (python/bempp/api/assembly/assembler.py).

The iteration order of Python sets is arbitrary.  The local assembler is a pure function `form` (property C64: a list of
pairs), `form e f a b` is entry `(a, b)` of the local matrix of test element `e` and trial element `f`.  `none` is a Python
exception.
-/
namespace Verif.Assembly
open Verif.Space Verif.HMat Verif.Grid Verif.PyGrid

/-- Entry `(e, f)` of `vertex_to_element_matrix.transpose().dot(vertex_to_element_matrix)` (`assembler.py:139-141`) for a
grid with `n` vertices. -/
def elementToElement (d : DataContainer) (es : List Nat) (n e f : Nat) : Nat :=
  ((List.range n).map fun v => vertexToElement d es v e * vertexToElement d es v f).sum

/-- `index_pairs`: the positions of the nonzero entries (`assembler.py:143-144`). -/
def nonzeroPairs (d : DataContainer) (es : List Nat) (n : Nat) : List (Nat × Nat) :=
  (List.range d.elements.length).flatMap fun e =>
    ((List.range d.elements.length).filter fun f => elementToElement d es n e f != 0).map fun f => (e, f)

section
variable {K : Type} [CommRing K] [StarRing K]

/-- The pairs of global dofs of the pairs of elements (`assembler.py:149-164`). -/
def functionPairs (T U : ASpace K) (pairs : List (Nat × Nat)) : List (Nat × Nat) :=
  pairs.flatMap fun p => (T.gdofs p.1).flatMap fun i =>
    if i > -1 then (U.gdofs p.2).flatMap fun j => if j > -1 then [(i.toNat, j.toNat)] else [] else []

/-- The pairs of elements of the pairs of functions (`assembler.py:171-182`). -/
def integrationPairs (T U : ASpace K) (pairs : List (Nat × Nat)) : List (Nat × Nat) :=
  pairs.flatMap fun p => (T.maps.globalToLocal p.1).flatMap fun a =>
    (U.maps.globalToLocal p.2).map fun b => (a.entityIndex, b.entityIndex)

/-- `l = list(set(s))`, in any order. -/
def IsListOfSet (l s : List (Nat × Nat)) : Prop := l.Nodup ∧ ∀ x, x ∈ l ↔ x ∈ s

/-- `dict(zip(keys, values)).get(key)` (`assembler.py:191-198`): the last value of a key counts. -/
def dictGet {V : Type} (keys : List (Nat × Nat)) (values : List V) (key : Nat × Nat) : Option V :=
  ((keys.zip values).reverse.find? fun q => q.1 == key).map Prod.snd

/-- `data[index]` (`assembler.py:29-44`): the loops over the local dofs of a pair of functions. -/
def pairValue (T U : ASpace K) (lookup : Nat × Nat → Option (Nat → Nat → K)) (p : Nat × Nat) : Option K :=
  (T.maps.globalToLocal p.1).zipIdx.foldlM (fun (acc : K) a =>
    (U.maps.globalToLocal p.2).zipIdx.foldlM (fun (acc : K) b =>
      (lookup (a.1.entityIndex, b.1.entityIndex)).bind fun m =>
      ((T.dofWeights.getD p.1 [])[a.2]?).bind fun w =>
      ((U.dofWeights.getD p.2 [])[b.2]?).map fun v =>
        acc + m a.1.dofIndex b.1.dofIndex * star w * star v) acc) 0

/-- `assemble_singular_part` (`assembler.py:115-210`) with `_matrix_from_integration_pairs` (`:3-48`); `csc_matrix` adds
duplicates.  `sameGrid`: the two spaces have the same grid, with the data `d`, `n` vertices and the iteration order `es`. -/
def SingularPartRun (sameGrid : Bool) (d : DataContainer) (es : List Nat) (n : Nat) (T U : ASpace K)
    (form : Nat → Nat → Nat → Nat → K) (out : Option (Mx K)) : Prop :=
  if sameGrid then
    ∃ functions elements : List (Nat × Nat),
      IsListOfSet functions (functionPairs T U (nonzeroPairs d es n)) ∧
      IsListOfSet elements (integrationPairs T U functions) ∧
      out = (functions.mapM (pairValue T U (dictGet elements (elements.map fun q => form q.1 q.2)))).bind fun data =>
        addAll (Mx.zero T.globalDofCount U.globalDofCount)
          ((functions.zip data).map fun q => ((q.1.1 : Int), (q.1.2 : Int), q.2))
  else out = some (Mx.zero T.globalDofCount U.globalDofCount)

end

end Verif.Assembly
