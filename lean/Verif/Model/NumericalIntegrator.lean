import Verif.Model.LocalAssembler
import Verif.Model.ScalarKernelIntegral
/-
Model of lib/fiber/separable_numerical_test_kernel_trial_integrator_imp.hpp (without OpenCL) and
lib/fiber/nonseparable_numerical_test_kernel_trial_integrator_imp.hpp: `integrate` for lists of elements and for lists of pairs
of elements, with the thread-local geometrical data that are reused from one element to the next and from one call to the
next, and the caches of geometrical and basis data.

Abstract types: `S` shapesets (by address), `V` the content of one field of geometrical data, `B` basis data, `W` transformed
values, `L` kernel values, `K` numbers.  The quadrature points are fixed for an integrator and are part of the functions.
-/
namespace Verif.Integrator

open Verif.HMat Verif.LocalAsm

/-- The fields of `GeometricalData` (`lib/fiber/geometrical_data.hpp:32-39, 50-57`); a set of `GeometricalDataType` flags is a
`Field → Bool`. -/
inductive Field where
  | GLOBALS | INTEGRATION_ELEMENTS | NORMALS | JACOBIANS_TRANSPOSED | JACOBIAN_INVERSES_TRANSPOSED | DOMAIN_INDEX
deriving DecidableEq, Repr

/-- `GeometricalData`. -/
abbrev GeomData (V : Type) := Field → V

/-- `geometry->getData(what, points, data)` (`lib/grid/concrete_geometry.hpp:385-406`) followed by the assignment of
`domainIndex` where it is asked for: the other fields keep what they hold.  `NORMALS` also overwrites the Jacobians. -/
def fill {V : Type} (what : Field → Bool) (element : Field → V) (data : GeomData V) : GeomData V := fun f =>
  match f with
  | .JACOBIANS_TRANSPOSED => if what .JACOBIANS_TRANSPOSED || what .NORMALS then element f else data f
  | f => if what f then element f else data f

/-- What an integrator is made of.  `testGeom e f` is the content of field `f` for element `e` at the test points;
`testBasis s dof` is what `shapeset.evaluate(deps, points, dof)` yields (`none`: `ALL_DOFS`). -/
structure Parts (S V B W L K : Type) where
  testPointCount : Nat
  trialPointCount : Nat
  testGeom : Nat → Field → V
  trialGeom : Nat → Field → V
  size : S → Nat
  testBasis : S → Option Nat → B
  trialBasis : S → Option Nat → B
  testTransformation : B → GeomData V → W
  trialTransformation : B → GeomData V → W
  kernels : GeomData V → GeomData V → L
  integral : GeomData V → GeomData V → W → W → L → Nat → Nat → K
  testTransformationDeps : Field → Bool
  trialTransformationDeps : Field → Bool
  kernelTestDeps : Field → Bool
  kernelTrialDeps : Field → Bool
  integralTestDeps : Field → Bool
  integralTrialDeps : Field → Bool

/-- The thread-local `m_testGeomData.local()` and `m_trialGeomData.local()`. -/
structure Local (V : Type) where
  testGeomData : GeomData V
  trialGeomData : GeomData V

/-- `std::vector<GeometricalData>` of a separable integrator with cached geometrical data, `none` without. -/
structure GeomCache (V : Type) where
  test : Nat → GeomData V
  trial : Nat → GeomData V

section
variable {S V B W L K : Type}

/-- The flags gathered by `addDependencies` and `addGeometricalDependencies` (`:218-224` of the separable integrator). -/
def Parts.testGeomDeps (I : Parts S V B W L K) (f : Field) : Bool :=
  I.testTransformationDeps f || I.kernelTestDeps f || I.integralTestDeps f

def Parts.trialGeomDeps (I : Parts S V B W L K) (f : Field) : Bool :=
  I.trialTransformationDeps f || I.kernelTrialDeps f || I.integralTrialDeps f

/-- `precalculateGeometricalData` (`:125-165`): default-constructed data `blank`, filled for each element. -/
def Parts.precalculate (I : Parts S V B W L K) (blank : GeomData V) : GeomCache V where
  test := fun e => fill I.testGeomDeps (I.testGeom e) blank
  trial := fun e => fill I.trialGeomDeps (I.trialGeom e) blank

/-- The test data of element `e`: from the cache, or computed in the thread-local object.  Yields the data to use and the
thread-local data. -/
def Parts.testData (I : Parts S V B W L K) (cache : Option (GeomCache V)) (e : Nat) (l : Local V) : GeomData V × Local V :=
  match cache with
  | some c => (c.test e, l)
  | none =>
    let d := fill I.testGeomDeps (I.testGeom e) l.testGeomData
    (d, { l with testGeomData := d })

def Parts.trialData (I : Parts S V B W L K) (cache : Option (GeomCache V)) (e : Nat) (l : Local V) : GeomData V × Local V :=
  match cache with
  | some c => (c.trial e, l)
  | none =>
    let d := fill I.trialGeomDeps (I.trialGeom e) l.trialGeomData
    (d, { l with trialGeomData := d })

/-- The loop over the elements A for `TEST_TRIAL` (`:275-317`; nonseparable: `:247-274`).  The data `trialData`, `trialValues`
of element B were computed before the loop. -/
def Parts.loopTestTrial (I : Parts S V B W L K) (cache : Option (GeomCache V)) (testBasisData : B)
    (trialGeomData : GeomData V) (trialValues : W) (rows cols : Nat) : List Nat → Local V → List (Mx K) × Local V
  | [], l => ([], l)
  | a :: as, l =>
    let (testGeomData, l) := I.testData cache a l
    let testValues := I.testTransformation testBasisData testGeomData
    let m := I.integral testGeomData trialGeomData testValues trialValues (I.kernels testGeomData trialGeomData)
    let (ms, l) := I.loopTestTrial cache testBasisData trialGeomData trialValues rows cols as l
    (⟨rows, cols, m⟩ :: ms, l)

/-- The same loop for `TRIAL_TEST`. -/
def Parts.loopTrialTest (I : Parts S V B W L K) (cache : Option (GeomCache V)) (trialBasisData : B)
    (testGeomData : GeomData V) (testValues : W) (rows cols : Nat) : List Nat → Local V → List (Mx K) × Local V
  | [], l => ([], l)
  | a :: as, l =>
    let (trialGeomData, l) := I.trialData cache a l
    let trialValues := I.trialTransformation trialBasisData trialGeomData
    let m := I.integral testGeomData trialGeomData testValues trialValues (I.kernels testGeomData trialGeomData)
    let (ms, l) := I.loopTrialTest cache trialBasisData testGeomData testValues rows cols as l
    (⟨rows, cols, m⟩ :: ms, l)

/-- `integrate(callVariant, elementIndicesA, elementIndexB, basisA, basisB, localDofIndexB, result)`: `integrateCpu` of the
separable integrator (`:186-318`; `cache` is the cache of geometrical data, if there is one) and `integrate` of the nonseparable
one (`:149-275`; `cache = none` and equal numbers of points).  `result` holds the matrices before the call; the matrices are
different objects.  `none`: an exception. -/
def Parts.integrateList (I : Parts S V B W L K) (cache : Option (GeomCache V)) (callVariant : CallVariant)
    (elementsA : List Nat) (elementB : Nat) (basisA basisB : S) (localDofB : Option Nat) (result : List (Mx K))
    (l : Local V) : Option (List (Mx K) × Local V) :=
  if result.length ≠ elementsA.length then none
  else if I.testPointCount = 0 ∨ I.trialPointCount = 0 ∨ elementsA.length = 0 then some (result, l)
  else
    let dofCountA := I.size basisA
    let dofCountB := if localDofB = none then I.size basisB else 1
    match callVariant with
    | .TEST_TRIAL =>
      let testBasisData := I.testBasis basisA none
      let trialBasisData := I.trialBasis basisB localDofB
      let (trialGeomData, l) := I.trialData cache elementB l
      let trialValues := I.trialTransformation trialBasisData trialGeomData
      some (I.loopTestTrial cache testBasisData trialGeomData trialValues dofCountA dofCountB elementsA l)
    | .TRIAL_TEST =>
      let trialBasisData := I.trialBasis basisA none
      let testBasisData := I.testBasis basisB localDofB
      let (testGeomData, l) := I.testData cache elementB l
      let testValues := I.testTransformation testBasisData testGeomData
      some (I.loopTrialTest cache trialBasisData testGeomData testValues dofCountB dofCountA elementsA l)

/-- The loop over the pairs (`:748-786`; nonseparable: `:324-349`). -/
def Parts.loopPairs (I : Parts S V B W L K) (cache : Option (GeomCache V)) (testBasisData trialBasisData : B)
    (rows cols : Nat) : List (Nat × Nat) → Local V → List (Mx K) × Local V
  | [], l => ([], l)
  | p :: ps, l =>
    let (testGeomData, l) := I.testData cache p.1 l
    let (trialGeomData, l) := I.trialData cache p.2 l
    let testValues := I.testTransformation testBasisData testGeomData
    let trialValues := I.trialTransformation trialBasisData trialGeomData
    let m := I.integral testGeomData trialGeomData testValues trialValues (I.kernels testGeomData trialGeomData)
    let (ms, l) := I.loopPairs cache testBasisData trialBasisData rows cols ps l
    (⟨rows, cols, m⟩ :: ms, l)

/-- `integrate(elementIndexPairs, testShapeset, trialShapeset, result)` (`:693-787`; nonseparable: `:277-350`) with the basis
data it uses. -/
def Parts.integratePairs (I : Parts S V B W L K) (cache : Option (GeomCache V)) (pairs : List (Nat × Nat))
    (testShapeset trialShapeset : S) (testBasisData trialBasisData : B) (result : List (Mx K)) (l : Local V) :
    Option (List (Mx K) × Local V) :=
  if result.length ≠ pairs.length then none
  else if I.testPointCount = 0 ∨ I.trialPointCount = 0 ∨ pairs.length = 0 then some (result, l)
  else some (I.loopPairs cache testBasisData trialBasisData (I.size testShapeset) (I.size trialShapeset) pairs l)

/-! ### The cache of basis data of the nonseparable integrator (`:103-147`) -/

/-- `m_cachedTestBasisData`: a concurrent map from shapesets. -/
abbrev BasisCache (S B : Type) := S → Option B

/-- `cache.insert(make_pair(&shapeset, ptr))`: keeps an existing entry; yields the entry and whether it is the new one. -/
def BasisCache.insert [DecidableEq S] (c : BasisCache S B) (s : S) (b : B) : BasisCache S B × B × Bool :=
  match c s with
  | some b' => (c, b', false)
  | none => (Function.update c s (some b), b, true)

/-- `basisData(type, shapeset)` by one thread: `seen` is the cache when it looks the shapeset up, `later` the cache when it
inserts (other threads may have inserted in between).  Yields the cache after the call, the data returned, and the number of
objects allocated and deleted. -/
def basisData [DecidableEq S] (evaluate : S → Option Nat → B) (s : S) (seen later : BasisCache S B) :
    BasisCache S B × B × Nat × Nat :=
  match seen s with
  | some b => (later, b, 0, 0)
  | none =>
    let (c, b, inserted) := later.insert s (evaluate s none)
    (c, b, 1, if inserted then 0 else 1)

end

end Verif.Integrator
