import Verif.Model.Assembly
/-
Model of the entry generator of H-matrix assembly: `LocalDofListsCache` without its cache
(lib/assembly/local_dof_lists_cache.cpp) and `WeakFormHMatAssemblyHelper::computeMatrixBlock`
(lib/assembly/weak_form_hmat_assembly_helper.cpp).
-/
namespace Verif.Assembly
open Verif.Space Verif.HMat

/-- `std::map::operator[]` on a map kept as a sorted association list: the value at key `k` is replaced by `f` of the
old value (`none` if there was none). -/
def mapAt {κ V : Type} (lt : κ → κ → Bool) (k : κ) (f : Option V → V) : List (κ × V) → List (κ × V)
  | [] => [(k, f none)]
  | x :: r =>
    if lt k x.1 then (k, f none) :: x :: r
    else if lt x.1 k then x :: mapAt lt k f r
    else (x.1, f (some x.2)) :: r

/-- `operator<` of `std::pair<LocalDofIndex, int>`. -/
def pairLt (p q : Nat × Nat) : Bool := decide (p.1 < q.1 ∨ (p.1 = q.1 ∧ p.2 < q.2))

/-- `LocalDofLists` (`local_dof_lists_cache.hpp:45-55`).  The four parallel vectors `elementIndices`,
`localDofIndices`, `localDofWeights`, `arrayIndices` are one list of rows (element, [(local dof, weight, array
index)]). -/
structure LocalDofLists (K : Type) where
  originalIndices : List Nat
  rows : List (Nat × List (Nat × K × Nat))

section
variable {K : Type}

/-- What `global2localDofs` returns for one global dof: its local dofs with their weights; an index outside the
vectors is undefined behaviour (`none`). -/
def ASpace.global2local (sp : ASpace K) (g : Nat) : Option (List (LocalDof × K)) := do
  let lds ← sp.maps.global2local[g]?
  let ws ← sp.dofWeights[g]?
  return lds.zip ws

/-- `requiredLocalDofs[entityIndex][make_pair(dofIndex, arrayIndex)] = weight`
(`local_dof_lists_cache.cpp:126-129`). -/
def requireDof (m : List (Nat × List ((Nat × Nat) × K))) (arrayIndex : Nat) (x : LocalDof × K) :
    List (Nat × List ((Nat × Nat) × K)) :=
  mapAt (fun a b : Nat => decide (a < b)) x.1.entityIndex
    (fun row => mapAt pairLt (x.1.dofIndex, arrayIndex) (fun _ => x.2) (row.getD [])) m

/-- `findLocalDofs(start, indexCount, ...)` with `indexWithGlobalDofs`
(`local_dof_lists_cache.cpp:88-173`). -/
def findLocalDofs (sp : ASpace K) (p2o : List Nat) (start count : Nat) : Option (LocalDofLists K) := do
  let orig ← (List.range count).mapM fun i => p2o[start + i]?
  let dofs ← orig.mapM sp.global2local
  let m := dofs.zipIdx.foldl (fun (m : List (Nat × List ((Nat × Nat) × K))) d =>
    d.1.foldl (fun (m : List (Nat × List ((Nat × Nat) × K))) x => requireDof m d.2 x) m) []
  return ⟨orig, m.map fun r => (r.1, r.2.map fun q => (q.1.1, q.2, q.1.2))⟩

/-- `findLocalDofs(index, ...)` with `indexWithGlobalDofs` (`local_dof_lists_cache.cpp:176-226`): one row with one entry
for each local dof. -/
def findLocalDofsOfIndex (sp : ASpace K) (p2o : List Nat) (index : Nat) : Option (LocalDofLists K) := do
  let g ← p2o[index]?
  let dofs ← sp.global2local g
  return ⟨[g], dofs.map fun x => (x.1.entityIndex, [(x.1.dofIndex, x.2, 0)])⟩

/-- `LocalDofListsCache::get` without the cache (`local_dof_lists_cache.cpp:47-57, 66-70`). -/
def computeDofLists (sp : ASpace K) (p2o : List Nat) (start count : Nat) : Option (LocalDofLists K) :=
  if count = 1 then findLocalDofsOfIndex sp p2o start else findLocalDofs sp p2o start count

variable [CommRing K] [StarRing K] {D : Type}

/-- One term of the operator: `m_denseTermsMultipliers[nTerm]` and `m_assemblers[nTerm]`; `form d e e' a b` is the
local integral evaluated with nominal distance `d` for test element `e`, trial element `e'`, local test dof
`a` and local trial dof `b`.  All variants of `evaluateLocalWeakForms` deliver entries of this form. -/
abbrev Term (K D : Type) := K × (D → Nat → Nat → Nat → Nat → K)

/-- The additions to `data` in the four branches (`weak_form_hmat_assembly_helper.cpp:203-316`), in the order of the
loops. -/
def blockAdditions (terms : List (Term K D)) (minDist : D) (test trial : LocalDofLists K)
    (testCount trialCount : Nat) : List (Int × Int × K) :=
  if trialCount = 1 then
    trial.rows.flatMap fun u => u.2.flatMap fun y => terms.flatMap fun μ =>
      test.rows.flatMap fun t => t.2.map fun x =>
        ((x.2.2 : Int), (0 : Int), μ.1 * star x.2.1 * y.2.1 * μ.2 minDist t.1 u.1 x.1 y.1)
  else if testCount = 1 then
    test.rows.flatMap fun t => t.2.flatMap fun x => terms.flatMap fun μ =>
      trial.rows.flatMap fun u => u.2.map fun y =>
        ((0 : Int), (y.2.2 : Int), μ.1 * star x.2.1 * y.2.1 * μ.2 minDist t.1 u.1 x.1 y.1)
  else if testCount ≤ 32 ∧ trialCount ≤ 32 then
    terms.flatMap fun μ => trial.rows.flatMap fun u => u.2.flatMap fun y =>
      test.rows.flatMap fun t => t.2.map fun x =>
        ((x.2.2 : Int), (y.2.2 : Int), μ.1 * star x.2.1 * y.2.1 * μ.2 minDist t.1 u.1 x.1 y.1)
  else
    test.rows.flatMap fun t => t.2.flatMap fun x => terms.flatMap fun μ =>
      trial.rows.flatMap fun u => u.2.map fun y =>
        ((x.2.2 : Int), (y.2.2 : Int), μ.1 * star x.2.1 * y.2.1 * μ.2 minDist t.1 u.1 x.1 y.1)

/-- `WeakFormHMatAssemblyHelper::computeMatrixBlock` (`weak_form_hmat_assembly_helper.cpp:157-325`) for an empty list
of sparse terms (what the only caller passes, `hmat_global_assembler.cpp`).  `p2oRow`, `p2oCol` are the maps
`hMatDofToOriginalDofMap` of the two cluster trees; `minDist` is the distance of the bounding boxes of the
block's clusters. -/
def computeMatrixBlock (T U : ASpace K) (p2oRow p2oCol : List Nat) (terms : List (Term K D)) (minDist : D)
    (r0 r1 c0 c1 : Nat) : Option (Mx K) := do
  let test ← computeDofLists T p2oRow r0 (r1 - r0)
  let trial ← computeDofLists U p2oCol c0 (c1 - c0)
  addAll (Mx.zero (r1 - r0) (c1 - c0)) (blockAdditions terms minDist test trial (r1 - r0) (c1 - c0))

end
end Verif.Assembly
