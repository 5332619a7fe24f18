import Verif.Model.HMatAssembly
/-
Model of H-matrix assembly of potential operators: `ComponentListsCache` without its cache
(lib/assembly/component_lists_cache.cpp), `PotentialGeometryInterface` (lib/assembly/hmat_global_assembler.cpp:64-112),
`PotentialOperatorHMatAssemblyHelper` (lib/assembly/potential_operator_hmat_assembly_helper.cpp) and the function
`dofVolumes` of both assembly helpers.
-/
namespace Verif.Assembly
open Verif.Space Verif.HMat

/-- `ComponentLists` (`component_lists_cache.hpp`): rows (point, [(component, array index)]) instead of the three
parallel vectors `pointIndices`, `componentIndices`, `arrayIndices`. -/
structure ComponentLists where
  rows : List (Nat × List (Nat × Nat))

/-- `findComponents(start, indexCount, ...)` (`component_lists_cache.cpp:76-129`).  The map of sets
`requiredComponents` is kept like the map of `findLocalDofs`, with trivial weights.  Division by zero and
reads outside `m_p2o` are undefined behaviour (`none`). -/
def findComponents (p2o : List Nat) (componentCount start count : Nat) : Option ComponentLists := do
  if componentCount = 0 ∧ count ≠ 0 then none
  let orig ← (List.range count).mapM fun i => p2o[start + i]?
  let m := orig.zipIdx.foldl (fun (m : List (Nat × List ((Nat × Nat) × Unit))) g =>
    requireDof m g.2 (⟨g.1 / componentCount, g.1 % componentCount⟩, ())) []
  return ⟨m.map fun r => (r.1, r.2.map fun q => q.1)⟩

/-- `findComponents(index, ...)` (`component_lists_cache.cpp:131-149`). -/
def findComponentsOfIndex (p2o : List Nat) (componentCount index : Nat) : Option ComponentLists := do
  if componentCount = 0 then none
  let g ← p2o[index]?
  return ⟨[(g / componentCount, [(g % componentCount, 0)])]⟩

/-- `ComponentListsCache::get` without the cache (`component_lists_cache.cpp:40-74`). -/
def computeComponentLists (p2o : List Nat) (componentCount start count : Nat) : Option ComponentLists :=
  if count = 1 then findComponentsOfIndex p2o componentCount start else findComponents p2o componentCount start count

/-- Successive results of `PotentialGeometryInterface::next()` from the state `(m_p, m_c)`
(`hmat_global_assembler.cpp:75-95`) as collected by `fillGeometry` (`geometry_impl.hpp:13-20`), as point indices; the
loop is cut off after `fuel` calls.  (`c == m_componentCount - 1` is `c + 1 = componentCount` for
`componentCount > 0`; for 0 the converted right-hand side is the largest `size_t`.) -/
def nextEntities (pointCount componentCount : Nat) : Nat → Nat → Nat → List Nat
  | 0, _, _ => []
  | fuel + 1, p, c =>
    if p = pointCount then []
    else p :: (if c + 1 = componentCount then nextEntities pointCount componentCount fuel (p + 1) 0
      else nextEntities pointCount componentCount fuel p (c + 1))

section
variable {K : Type} [CommRing K] [StarRing K] {D : Type}

/-- The additions to `data` in the three branches (`potential_operator_hmat_assembly_helper.cpp:124-186`).
`form d p e c b` is the local integral for point `p`, element `e`, component `c` and local dof `b` with nominal
distance `d`.  `pointIndices[0]`, `componentIndices[0][0]` of the second branch are the first entries of the
lists; if they did not exist, that would be undefined behaviour. -/
def potentialBlockAdditions (form : D → Nat → Nat → Nat → Nat → K) (minDist : D) (comps : ComponentLists)
    (trial : LocalDofLists K) (testCount trialCount : Nat) : Option (List (Int × Int × K)) :=
  if trialCount = 1 then
    some (trial.rows.flatMap fun u => u.2.flatMap fun y => comps.rows.flatMap fun p => p.2.map fun x =>
      ((x.2 : Int), (0 : Int), y.2.1 * form minDist p.1 u.1 x.1 y.1))
  else if testCount = 1 then do
    let p ← comps.rows[0]?
    let x ← p.2[0]?
    return trial.rows.flatMap fun u => u.2.map fun y =>
      ((0 : Int), (y.2.2 : Int), y.2.1 * form minDist p.1 u.1 x.1 y.1)
  else
    some (trial.rows.flatMap fun u => u.2.flatMap fun y => comps.rows.flatMap fun p => p.2.map fun x =>
      ((x.2 : Int), (y.2.2 : Int), y.2.1 * form minDist p.1 u.1 x.1 y.1))

/-- `PotentialOperatorHMatAssemblyHelper::computeMatrixBlock`
(`potential_operator_hmat_assembly_helper.cpp:85-187`). -/
def potentialMatrixBlock (U : ASpace K) (componentCount : Nat) (p2oRow p2oCol : List Nat)
    (form : D → Nat → Nat → Nat → Nat → K) (minDist : D) (r0 r1 c0 c1 : Nat) : Option (Mx K) := do
  let comps ← computeComponentLists p2oRow componentCount r0 (r1 - r0)
  let trial ← computeDofLists U p2oCol c0 (c1 - c0)
  let us ← potentialBlockAdditions form minDist comps trial (r1 - r0) (c1 - c0)
  addAll (Mx.zero (r1 - r0) (c1 - c0)) us

/-- `volumes[k] = std::min(volumes[k], volume)`. -/
def lowerVolume {V : Type} [LinearOrder V] (vs : List V) (x : Nat × V) : Option (List V) := do
  let old ← vs[x.1]?
  return vs.set x.1 (min old x.2)

/-- The loops of `dofVolumes` over the dof lists of all `n` indices of a space
(`weak_form_hmat_assembly_helper.cpp:117-154`, `potential_operator_hmat_assembly_helper.cpp:44-68`): `vol e` is the
volume of element `e`, `maxV` is `std::numeric_limits<double>::max()`. -/
def spaceVolumes {V : Type} [LinearOrder V] (sp : ASpace K) (p2o : List Nat) (vol : Nat → V) (maxV : V) :
    Option (List V) := do
  let L ← computeDofLists sp p2o 0 sp.globalDofCount
  (L.rows.flatMap fun r => r.2.map fun q => (q.2.2, vol r.1)).foldlM lowerVolume
    (List.replicate sp.globalDofCount maxV)

/-- `testVolumes` of the potential assembly helper: `testVolumes.resize(m_points.cols())`, all ones
(`potential_operator_hmat_assembly_helper.cpp:56-59`). -/
def potentialTestVolumes {V : Type} [One V] (pointCount : Nat) : List V := List.replicate pointCount 1

end
end Verif.Assembly
