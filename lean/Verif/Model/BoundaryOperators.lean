import Verif.Model.PotentialOperators
import Verif.Model.NumericalIntegrator
import Verif.Model.Duffy
import Verif.Spec.NumericalIntegrator
import Verif.Model.Assembly
/-
Model of the boundary integral operators: laplace_operators_imp.hpp, modified_helmholtz_operators_imp.hpp, helmholtz_operators.hpp and
maxwell_operators_imp.hpp of lib/operators, the integrand functors of lib/fiber they use, default_test_kernel_trial_integral_imp.hpp with
any functor, default_collection_of_kernels_imp.hpp, default_double_quadrature_rule_family.cpp and `getIntegrator` of
default_local_assembler_for_integral_operators_on_surfaces_imp.hpp.  The parts modelled elsewhere (integrators, local assembler, dense
assembler, BLAS version of the integral, kernels, transformations, rules) are put together here.

Real and complex numbers instead of floating point; shape functions have real values (`BasisFunctionType` is `double` in the Python
interface); kernels are not interpolated.
-/
namespace Verif.Bio
open Verif.Grid Verif.Shape Verif.SingleQuad Verif.HMat Verif.LocalOps Verif.GridFun Verif.Kernel Verif.Pot Verif.Integral Verif.Integrator
noncomputable section

/-! ### Integrand functors -/

/-- An integrand functor: `addGeometricalDependencies` (the same for test and trial data) and `evaluate`; the arguments are the data at
the two points, `testValues[i](d)`, `trialValues[i](d)` and `kernelValues[i](r, 0)`. -/
structure IntegrandFunctor where
  deps : Deps
  evaluate : Data → Data → (Nat → Nat → ℂ) → (Nat → Nat → ℂ) → (Nat → Nat → ℂ) → ℂ

/-- `SimpleTestScalarKernelTrialIntegrandFunctorExt` (`simple_test_scalar_kernel_trial_integrand_functor.hpp:88-132`). -/
def simple (transformationDim : Nat) : IntegrandFunctor := ⟨{}, fun _ _ test trial kernels =>
  (List.range transformationDim).foldl (fun dotProduct dim => dotProduct + star (test 0 dim) * trial 0 dim) 0 * kernels 0 0⟩

/-- `ModifiedHelmholtz3dHypersingularIntegrandFunctor2` (`modified_helmholtz_3d_hypersingular_integrand_functor_2.hpp:44-103`). -/
def hypersingularFunctor : IntegrandFunctor := ⟨{ geom := { normals := true } }, fun testGeom trialGeom test trial kernels =>
  let dotProduct0 := (List.range 3).foldl (fun s dim => s + star (test 1 dim) * trial 1 dim) 0
  let term0 := kernels 0 0 * dotProduct0
  let dotProduct1 : ℝ := (List.range 3).foldl (fun s dim => s + comp testGeom.geom.normal dim * comp trialGeom.geom.normal dim) 0
  let term1 := kernels 1 0 * ((dotProduct1 : ℂ) * star (test 0 0) * trial 0 0)
  term0 + term1⟩

/-- `ModifiedMaxwell3dSingleLayerBoundaryOperatorIntegrandFunctor`
(`modified_maxwell_3d_single_layer_boundary_operator_integrand_functor.hpp:43-96`). -/
def electricFunctor : IntegrandFunctor := ⟨{}, fun _ _ test trial kernels =>
  let sum := (List.range 3).foldl (fun s dim => s + star (test 0 dim) * trial 0 dim) 0
  let term0 := sum * kernels 0 0
  let term1 := (star (test 1 0) * trial 1 0) * kernels 1 0
  term0 + term1⟩

/-- `ModifiedMaxwell3dDoubleLayerBoundaryOperatorIntegrandFunctor`
(`modified_maxwell_3d_double_layer_boundary_operator_integrand_functor.hpp:43-83`). -/
def magneticFunctor : IntegrandFunctor := ⟨{}, fun _ _ test trial kernels =>
  kernels 0 0 * (star (test 0 1) * trial 0 2 - star (test 0 2) * trial 0 1) +
  kernels 0 1 * (star (test 0 2) * trial 0 0 - star (test 0 0) * trial 0 2) +
  kernels 0 2 * (star (test 0 0) * trial 0 1 - star (test 0 1) * trial 0 0)⟩

/-! ### Operators -/

/-- `TestKernelTrialIntegral`: `DefaultTestKernelTrialIntegral` with a functor or `TypicalTestScalarKernelTrialIntegral`. -/
inductive TestKernelTrialIntegral where
  | default (functor : IntegrandFunctor)
  | typical

/-- What an `ElementaryIntegralOperator` consists of: `kernels()`, `testTransformations()`, `trialTransformations()` and `integral()`;
`realKernel`: whether `KernelType` is `double`. -/
structure BoundaryOperator where
  kernels : Kernel.Functor
  realKernel : Bool
  testTransformations : List Transformation
  trialTransformations : List Transformation
  integral : TestKernelTrialIntegral

/-- The choice of the integral in all Laplace and Helmholtz operators but the last (e.g. `laplace_operators_imp.hpp:78-87`); `blas` is
`shouldUseBlasInQuadrature` (`blas_quadrature_helper.hpp:31-47`). -/
def chooseIntegral (blas : Bool) (transformationDim : Nat) : TestKernelTrialIntegral :=
  if blas then .typical else .default (simple transformationDim)

/-- `laplaceSingleLayerBoundaryOperator` (`laplace_operators_imp.hpp:53-92`). -/
def laplaceSingle (blas : Bool) : BoundaryOperator :=
  ⟨laplaceSLFunctor, true, [scalarValueT], [scalarValueT], chooseIntegral blas 1⟩
/-- `laplaceDoubleLayerBoundaryOperator` (`laplace_operators_imp.hpp:94-136`). -/
def laplaceDouble (blas : Bool) : BoundaryOperator :=
  ⟨laplaceDLFunctor, true, [scalarValueT], [scalarValueT], chooseIntegral blas 1⟩
/-- `laplaceAdjointDoubleLayerBoundaryOperator` (`laplace_operators_imp.hpp:138-179`). -/
def laplaceAdjoint (blas : Bool) : BoundaryOperator :=
  ⟨laplaceADLFunctor, true, [scalarValueT], [scalarValueT], chooseIntegral blas 1⟩
/-- `laplaceHypersingularBoundaryOperator` (`laplace_operators_imp.hpp:181-222`). -/
def laplaceHypersingular (blas : Bool) : BoundaryOperator :=
  ⟨laplaceSLFunctor, true, [surfaceCurlT], [surfaceCurlT], chooseIntegral blas 3⟩

/-- `modifiedHelmholtzSingleLayerBoundaryOperator` (`modified_helmholtz_operators_imp.hpp:61-118`); `realKernel`: `KernelType` is
`double`. -/
def modifiedHelmholtzSingle (realKernel blas : Bool) (k : ℂ) : BoundaryOperator :=
  ⟨helmholtzSLFunctor k, realKernel, [scalarValueT], [scalarValueT], chooseIntegral blas 1⟩
/-- `modifiedHelmholtzDoubleLayerBoundaryOperator` (`modified_helmholtz_operators_imp.hpp:120-179`). -/
def modifiedHelmholtzDouble (realKernel blas : Bool) (k : ℂ) : BoundaryOperator :=
  ⟨helmholtzDLFunctor k, realKernel, [scalarValueT], [scalarValueT], chooseIntegral blas 1⟩
/-- `modifiedHelmholtzAdjointDoubleLayerBoundaryOperator` (`modified_helmholtz_operators_imp.hpp:181-239`). -/
def modifiedHelmholtzAdjoint (realKernel blas : Bool) (k : ℂ) : BoundaryOperator :=
  ⟨helmholtzADLFunctor k, realKernel, [scalarValueT], [scalarValueT], chooseIntegral blas 1⟩
/-- `modifiedHelmholtzHypersingularBoundaryOperator` (`modified_helmholtz_operators_imp.hpp:241-323`): other transformations with BLAS
(`modified_helmholtz_3d_hypersingular_transformation_functor.hpp:38-45` and `…_functor_2.hpp:38-45`). -/
def modifiedHelmholtzHypersingular (realKernel blas : Bool) (k : ℂ) : BoundaryOperator :=
  if blas then
    ⟨helmholtzHypPairFunctor k, realKernel, [surfaceCurlT, valueTimesNormalT], [surfaceCurlT, valueTimesNormalT], .typical⟩
  else
    ⟨helmholtzHypPairFunctor k, realKernel, [scalarValueT, surfaceCurlT], [scalarValueT, surfaceCurlT], .default hypersingularFunctor⟩

/-- `helmholtzSingleLayerBoundaryOperator` (`helmholtz_operators.hpp:43-65`). -/
def helmholtzSingle (blas : Bool) (waveNumber : ℂ) : BoundaryOperator := modifiedHelmholtzSingle false blas (waveNumber / Complex.I)
/-- `helmholtzDoubleLayerBoundaryOperator` (`helmholtz_operators.hpp:67-89`). -/
def helmholtzDouble (blas : Bool) (waveNumber : ℂ) : BoundaryOperator := modifiedHelmholtzDouble false blas (waveNumber / Complex.I)
/-- `helmholtzAdjointDoubleLayerBoundaryOperator` (`helmholtz_operators.hpp:91-113`). -/
def helmholtzAdjoint (blas : Bool) (waveNumber : ℂ) : BoundaryOperator := modifiedHelmholtzAdjoint false blas (waveNumber / Complex.I)
/-- `helmholtzHypersingularBoundaryOperator` (`helmholtz_operators.hpp:115-136`). -/
def helmholtzHypersingular (blas : Bool) (waveNumber : ℂ) : BoundaryOperator :=
  modifiedHelmholtzHypersingular false blas (waveNumber / Complex.I)

/-- `maxwellElectricFieldBoundaryOperator` (`maxwell_operators_imp.hpp:39-91`). -/
def maxwellElectric (waveNumber : ℂ) : BoundaryOperator :=
  ⟨maxwellSLFunctor (waveNumber / Complex.I), false, [hdivT, surfaceDivT], [hdivT, surfaceDivT], .default electricFunctor⟩
/-- `maxwellMagneticFieldBoundaryOperator` (`maxwell_operators_imp.hpp:93-143`). -/
def maxwellMagnetic (waveNumber : ℂ) : BoundaryOperator :=
  ⟨maxwellDLFunctor (waveNumber / Complex.I), false, [hdivT], [hdivT], .default magneticFunctor⟩

/-- All of them. -/
def boundaryOperators (realKernel blas : Bool) (k : ℂ) : List BoundaryOperator :=
  [laplaceSingle blas, laplaceDouble blas, laplaceAdjoint blas, laplaceHypersingular blas, modifiedHelmholtzSingle realKernel blas k,
   modifiedHelmholtzDouble realKernel blas k, modifiedHelmholtzAdjoint realKernel blas k, modifiedHelmholtzHypersingular realKernel blas k,
   helmholtzSingle blas k, helmholtzDouble blas k, helmholtzAdjoint blas k, helmholtzHypersingular blas k, maxwellElectric k,
   maxwellMagnetic k]

/-! ### Data at the points of a rule -/

/-- One field of `GeometricalData` for all points: here a whole record for each point, of which `at` takes the part that belongs to the
field. -/
abbrev Values := Nat → Data

/-- `geomData.const_slice(point)` (`geometrical_data.hpp:64-140`). -/
def dataAt (g : Integrator.GeomData Values) (point : Nat) : Data :=
  ⟨⟨(g .JACOBIANS_TRANSPOSED point).geom.jt0, (g .JACOBIANS_TRANSPOSED point).geom.jt1,
    (g .JACOBIAN_INVERSES_TRANSPOSED point).geom.jit0, (g .JACOBIAN_INVERSES_TRANSPOSED point).geom.jit1,
    (g .INTEGRATION_ELEMENTS point).geom.integrationElement, (g .NORMALS point).geom.normal⟩,
   (g .GLOBALS point).global, (g .DOMAIN_INDEX point).domainIndex⟩

/-- All flags of `GeometricalDataType`. -/
def allDeps : Deps := ⟨⟨true, true, true, true⟩, true, true⟩

/-- Flags as a set of fields. -/
def fieldsOf (d : Deps) : Field → Bool
  | .GLOBALS => d.globals
  | .INTEGRATION_ELEMENTS => d.geom.integrationElements
  | .NORMALS => d.geom.normals
  | .JACOBIANS_TRANSPOSED => d.geom.jacobiansTransposed
  | .JACOBIAN_INVERSES_TRANSPOSED => d.geom.jacobianInversesTransposed
  | .DOMAIN_INDEX => d.domainIndex

/-- The content of a field for an element at the points of a rule: what `geometry->getData` writes if all is asked for. -/
def contents (mesh : FMesh) (points : Nat → ℝ × ℝ) (e : Nat) (_ : Field) : Values := fun p =>
  mesh.fill e (points p) allDeps ⟨⟨⟨0, 0, 0⟩, ⟨0, 0, 0⟩, ⟨0, 0, 0⟩, ⟨0, 0, 0⟩, 0, ⟨0, 0, 0⟩⟩, ⟨0, 0, 0⟩, 0⟩

/-- `BasisData`: the number of functions and their values and derivatives, by function and point. -/
structure Basis where
  count : Nat
  at_ : Nat → Nat → BasisAt

/-- `shapeset.evaluate(what, points, localDofIndex, data)` (`shapeset.hpp:47-76`): all functions or one. -/
def evaluateBasis (s : Shapeset) (points : Nat → ℝ × ℝ) (localDofIndex : Option Nat) : Basis :=
  ⟨dofCount s localDofIndex, fun dof p => s.shape (dofAt localDofIndex dof) (points p)⟩

/-- An array with these extents, filled through `operator()` (`_3d_array_imp.hpp:97-114`). -/
def tab3 {K : Type} (n0 n1 n2 : Nat) (f : Nat → Nat → Nat → K) : Array3 K :=
  ⟨n0, n1, n2, fun o => f (o % n0) (o / n0 % n1) (o / (n0 * n1))⟩

/-- The same with four indices (`_4d_array_imp.hpp:118-127`). -/
def tab4 {K : Type} (n0 n1 n2 n3 : Nat) (f : Nat → Nat → Nat → Nat → K) : Array4 K :=
  ⟨n0, n1, n2, n3, fun o => f (o % n0) (o / n0 % n1) (o / (n0 * n1) % n2) (o / (n0 * n1 * n2))⟩

/-- `DefaultCollectionOfShapesetTransformations::evaluate` (`default_collection_of_shapeset_transformations_imp.hpp:49-66`). -/
def transform (ts : List Transformation) (points : Nat) (b : Basis) (g : Integrator.GeomData Values) : List (Array3 ℝ) :=
  ts.map fun t => tab3 t.dim b.count points fun d dof p => t.evaluate (b.at_ dof p) (dataAt g p).geom d

/-- The part of the data that kernels read. -/
def sliceOf (d : Data) : Slice := ⟨d.global, d.geom.normal⟩

/-- `evaluateAtPointPairs` (`default_collection_of_kernels_imp.hpp:124-142`). -/
def kernelsAtPairs (F : Kernel.Functor) (points : Nat) (g g' : Integrator.GeomData Values) : List (Array3 ℂ) :=
  (List.range F.kernelCount).map fun k => tab3 (F.kernelRowCount k) 1 points fun r _ p =>
    kernelValues F (sliceOf (dataAt g p)) (sliceOf (dataAt g' p)) k r

/-- `evaluateOnGrid` (`default_collection_of_kernels_imp.hpp:144-164`). -/
def kernelsOnGrid (F : Kernel.Functor) (testPoints trialPoints : Nat) (g g' : Integrator.GeomData Values) : List (Array4 ℂ) :=
  (List.range F.kernelCount).map fun k => tab4 (F.kernelRowCount k) 1 testPoints trialPoints fun r _ p q =>
    kernelValues F (sliceOf (dataAt g p)) (sliceOf (dataAt g' q)) k r

/-- `values.const_slice(dof, point)[i](d)`, converted to `ResultType`. -/
def valueAt (values : List (Array3 ℝ)) (dof point i d : Nat) : ℂ :=
  (((values[i]?).map fun a => a.get d dof point).getD 0 : ℝ)

/-! ### The integrals -/

/-- `DefaultTestKernelTrialIntegral::evaluateWithTensorQuadratureRule` (`default_test_kernel_trial_integral_imp.hpp:42-98`): the entry
`result(testDof, trialDof)`. -/
def defaultOnGrid (functor : IntegrandFunctor) (testWeights trialWeights : List ℝ) (g g' : Integrator.GeomData Values)
    (test trial : List (Array3 ℝ)) (kernels : List (Array4 ℂ)) (testDof trialDof : Nat) : ℂ :=
  trialWeights.zipIdx.foldl (fun sum w' =>
    let trialWeight := (dataAt g' w'.2).geom.integrationElement * w'.1
    let partialSum := testWeights.zipIdx.foldl (fun partialSum w =>
      let testWeight := (dataAt g w.2).geom.integrationElement * w.1
      partialSum + functor.evaluate (dataAt g w.2) (dataAt g' w'.2) (valueAt test testDof w.2) (valueAt trial trialDof w'.2)
        (fun i r => ((kernels[i]?).map fun a => a.get r 0 w.2 w'.2).getD 0) * (testWeight : ℂ)) 0
    sum + partialSum * (trialWeight : ℂ)) 0

/-- `DefaultTestKernelTrialIntegral::evaluateWithNontensorQuadratureRule` (`default_test_kernel_trial_integral_imp.hpp:100-144`). -/
def defaultAtPairs (functor : IntegrandFunctor) (weights : List ℝ) (g g' : Integrator.GeomData Values)
    (test trial : List (Array3 ℝ)) (kernels : List (Array3 ℂ)) (testDof trialDof : Nat) : ℂ :=
  weights.zipIdx.foldl (fun sum w =>
    sum + functor.evaluate (dataAt g w.2) (dataAt g' w.2) (valueAt test testDof w.2) (valueAt trial trialDof w.2)
      (fun i r => ((kernels[i]?).map fun a => a.get r 0 w.2).getD 0) *
      (((dataAt g w.2).geom.integrationElement * (dataAt g' w.2).geom.integrationElement * w.1 : ℝ) : ℂ)) 0

/-- What the temporary buffers of the BLAS version hold before they are written. -/
structure Memory where
  loop : LoopState ℂ
  split : SplitState

/-- An array of real numbers converted to complex ones. -/
def toComplex (a : Array3 ℝ) : Array3 ℂ := ⟨a.ext0, a.ext1, a.ext2, fun k => (a.data k : ℂ)⟩

/-- The integration elements as complex numbers. -/
def elementsC (g : Integrator.GeomData Values) (p : Nat) : ℂ := ((dataAt g p).geom.integrationElement : ℝ)

/-- `evaluateWithTensorQuadratureRule` of `TypicalTestScalarKernelTrialIntegral` (`typical_test_scalar_kernel_trial_integral.cpp:228-380`;
an index out of range gives 0 here). -/
def typicalOnGrid (mem : Memory) (testWeights trialWeights : List ℝ) (g g' : Integrator.GeomData Values)
    (test trial : List (Array3 ℝ)) (kernels : List (Array4 ℂ)) : Nat → Nat → ℂ :=
  (tensor (elementsC g) (elementsC g') (fun p => ((testWeights.getD p 0 : ℝ) : ℂ)) (fun p => ((trialWeights.getD p 0 : ℝ) : ℂ))
    testWeights.length trialWeights.length (test.map toComplex) (trial.map toComplex) kernels mem.loop).getD fun _ _ => 0

/-- `evaluateWithNontensorQuadratureRule` of `TypicalTestScalarKernelTrialIntegral`: the general version for real kernels, the
specialisation for real basis functions and complex kernels (`typical_test_scalar_kernel_trial_integral.cpp:154-226, 382-488`). -/
def typicalAtPairs (realKernel : Bool) (mem : Memory) (weights : List ℝ) (g g' : Integrator.GeomData Values)
    (test trial : List (Array3 ℝ)) (kernels : List (Array3 ℂ)) : Nat → Nat → ℂ :=
  if realKernel then
    (nontensor (elementsC g) (elementsC g') (fun p => ((weights.getD p 0 : ℝ) : ℂ)) weights.length
      (test.map toComplex) (trial.map toComplex) kernels mem.loop).getD fun _ _ => 0
  else
    (splitNontensor (fun p => (dataAt g p).geom.integrationElement) (fun p => (dataAt g' p).geom.integrationElement)
      (fun p => weights.getD p 0) weights.length test trial kernels mem.split).getD fun _ _ => 0

/-- `m_integral.evaluateWithTensorQuadratureRule`. -/
def BoundaryOperator.onGrid (op : BoundaryOperator) (mem : Memory) (testWeights trialWeights : List ℝ) :
    Integrator.GeomData Values → Integrator.GeomData Values → List (Array3 ℝ) → List (Array3 ℝ) → List (Array4 ℂ) → Nat → Nat → ℂ :=
  match op.integral with
  | .default f => defaultOnGrid f testWeights trialWeights
  | .typical => typicalOnGrid mem testWeights trialWeights

/-- `m_integral.evaluateWithNontensorQuadratureRule`. -/
def BoundaryOperator.atPairs (op : BoundaryOperator) (mem : Memory) (weights : List ℝ) :
    Integrator.GeomData Values → Integrator.GeomData Values → List (Array3 ℝ) → List (Array3 ℝ) → List (Array3 ℂ) → Nat → Nat → ℂ :=
  match op.integral with
  | .default f => defaultAtPairs f weights
  | .typical => typicalAtPairs op.realKernel mem weights

/-- `m_integral.addGeometricalDependencies` (`default_test_kernel_trial_integral_imp.hpp:32-40`,
`typical_test_scalar_kernel_trial_integral.cpp:349-353`). -/
def BoundaryOperator.integralDeps (op : BoundaryOperator) : Deps :=
  match op.integral with
  | .default f => Deps.or ⟨{ integrationElements := true }, false, false⟩ f.deps
  | .typical => ⟨{ integrationElements := true }, false, false⟩

/-- `addDependencies` of a collection of transformations (`default_collection_of_shapeset_transformations_imp.hpp:25-29`). -/
def transformationDeps (ts : List Transformation) : Deps := ts.foldl (fun d t => d.or ⟨t.deps, false, false⟩) {}

/-! ### Rules and integrators -/

/-- `testPoints`, `trialPoints`, `testWeights`, `trialWeights` and `isTensor`. -/
inductive DoubleRule where
  | tensor (test trial : List QPoint)
  | nontensor (test trial : List (ℝ × ℝ)) (weights : List ℝ)

/-- `reallyFillPointsAndWeightsSingular<TRIANGLE, …>` (`numerical_quadrature.cpp:178-247`): the rule on the square (for
`numPointsIn1d <= 0` its tables are read out of range), the points and weights, and the remapping, which may throw. -/
def fillSingularRule (c : Verif.Quad.Config) (order : Int) : Outcome DoubleRule :=
  let numPointsIn1d := Int.tdiv (order + 1 + 1) 2
  if numPointsIn1d ≤ 0 then .undefined
  else
    match tensorRule numPointsIn1d.toNat with
    | .undefined => .undefined
    | .throws m => .throws m
    | .ok rule =>
      match collect rule.numOfPoints (tensorPoint rule) (tensorWeight rule) id with
      | .undefined => .undefined
      | .throws m => .throws m
      | .ok square =>
        let filled := Verif.Quad.fillSingular c
          ⟨square.length, fun i => ((square.map fun q => (q.x, q.y)).getD i (0, 0)), fun i => (square.map QPoint.w).getD i 0⟩
        match (List.range filled.total).mapM filled.test, (List.range filled.total).mapM filled.trial with
        | some test, some trial => .ok (.nontensor test trial ((List.range filled.total).map filled.weight))
        | _, _ => .throws "remapping of points"

/-- `fillQuadraturePointsAndWeights` (`default_double_quadrature_rule_family.cpp:30-52`) with
`fillDoubleSingularQuadraturePointsAndWeights` (`numerical_quadrature.cpp:268-310`); the singular rules for quadrilaterals are not
modelled. -/
def fillDouble (desc : Verif.Quad.Descriptor) : Outcome DoubleRule :=
  if desc.topology.type = .Disjoint then
    match fillSingle desc.topology.testVertexCount desc.testOrder with
    | .undefined => .undefined
    | .throws m => .throws m
    | .ok test =>
      match fillSingle desc.topology.trialVertexCount desc.trialOrder with
      | .undefined => .undefined
      | .throws m => .throws m
      | .ok trial => .ok (.tensor test trial)
  else if desc.topology.testVertexCount = 3 ∧ desc.topology.trialVertexCount = 3 then
    match desc.topology.config with
    | some c => fillSingularRule c (max desc.testOrder desc.trialOrder)
    | none => .throws "Invalid element configuration"
  else .throws "Singular quadrature rules for mixed meshes are not implemented yet."

/-- The coordinates of the points of a rule. -/
def coordinates (points : List (ℝ × ℝ)) (p : Nat) : ℝ × ℝ := points.getD p (0, 0)

/-- The operator with the meshes on which its spaces are defined and the shapesets, which live at addresses. -/
structure Setting (addr : Type) where
  op : BoundaryOperator
  testMesh : FMesh
  trialMesh : FMesh
  shapeset : addr → Shapeset
  memory : Memory

variable {addr : Type}

/-- What is common to both integrators. -/
def Setting.parts (s : Setting addr) {L : Type} (testPoints trialPoints : List (ℝ × ℝ))
    (kernels : Integrator.GeomData Values → Integrator.GeomData Values → L)
    (integral : Integrator.GeomData Values → Integrator.GeomData Values → List (Array3 ℝ) → List (Array3 ℝ) → L → Nat → Nat → ℂ) :
    Parts addr Values Basis (List (Array3 ℝ)) L ℂ where
  testPointCount := testPoints.length
  trialPointCount := trialPoints.length
  testGeom := contents s.testMesh (coordinates testPoints)
  trialGeom := contents s.trialMesh (coordinates trialPoints)
  size := fun a => (s.shapeset a).size
  testBasis := fun a => evaluateBasis (s.shapeset a) (coordinates testPoints)
  trialBasis := fun a => evaluateBasis (s.shapeset a) (coordinates trialPoints)
  testTransformation := transform s.op.testTransformations testPoints.length
  trialTransformation := transform s.op.trialTransformations trialPoints.length
  kernels := kernels
  integral := integral
  testTransformationDeps := fieldsOf (transformationDeps s.op.testTransformations)
  trialTransformationDeps := fieldsOf (transformationDeps s.op.trialTransformations)
  kernelTestDeps := fieldsOf ⟨{ normals := s.op.kernels.testNormals }, true, false⟩
  kernelTrialDeps := fieldsOf ⟨{ normals := s.op.kernels.trialNormals }, true, false⟩
  integralTestDeps := fieldsOf s.op.integralDeps
  integralTrialDeps := fieldsOf s.op.integralDeps

/-- The `SeparableNumericalTestKernelTrialIntegrator` of a tensor rule
(`default_local_assembler_for_integral_operators_on_surfaces_imp.hpp:629-637`). -/
def Setting.separable (s : Setting addr) (test trial : List QPoint) : Parts addr Values Basis (List (Array3 ℝ)) (List (Array4 ℂ)) ℂ :=
  s.parts (test.map fun q => (q.x, q.y)) (trial.map fun q => (q.x, q.y)) (kernelsOnGrid s.op.kernels test.length trial.length)
    (s.op.onGrid s.memory (test.map QPoint.w) (trial.map QPoint.w))

/-- The `NonseparableNumericalTestKernelTrialIntegrator` of another rule (`:638-648`). -/
def Setting.nonseparable (s : Setting addr) (test trial : List (ℝ × ℝ)) (weights : List ℝ) :
    Parts addr Values Basis (List (Array3 ℝ)) (List (Array3 ℂ)) ℂ :=
  s.parts test trial (kernelsAtPairs s.op.kernels weights.length) (s.op.atPairs s.memory weights)

/-- The matrix of integrals over a pair of elements that the integrator of a rule computes. -/
def Setting.matrix (s : Setting addr) : DoubleRule → addr → addr → Nat → Nat → Mx ℂ
  | .tensor test trial => (s.separable test trial).matrix
  | .nontensor test trial weights => (s.nonseparable test trial weights).matrix

/-- `DefaultLocalAssemblerForIntegralOperatorsOnSurfaces` for the operator: descriptors come from the default selector, integrators from
`getIntegrator` (`:600-668`); no descriptor or no rule is an exception (or worse). -/
def Setting.assembler (s : Setting addr) (selector : Verif.Quad.Selector) (vertexCount : Nat) (testShapeset trialShapeset : Nat → addr) :
    LocalAsm.Assembler Verif.Quad.Descriptor addr ℂ where
  testGrid := selector.test
  trialGrid := selector.trial
  vertexCount := vertexCount
  identical := selector.identical
  testShapeset := testShapeset
  trialShapeset := trialShapeset
  select := fun e t nominal =>
    match selector.descriptor e t nominal with
    | none => none
    | some d =>
      match fillDouble d with
      | .ok _ => some d
      | _ => none
  form := fun d =>
    match fillDouble d with
    | .ok rule => s.matrix rule
    | _ => fun _ _ _ _ => ⟨0, 0, fun _ _ => 0⟩

/-- The order in which a call of `evaluateLocalWeakForms` for a trial element goes through the set of its variants
(`default_local_assembler_for_integral_operators_on_surfaces_imp.hpp: evaluateLocalWeakForms`). -/
def Visits (A : LocalAsm.Assembler Verif.Quad.Descriptor addr ℂ) (cache : LocalAsm.Cache ℂ) (testElements : List Nat) (t : Nat)
    (order : List (Option (Verif.Quad.Descriptor × addr))) : Prop :=
  ∀ vs, A.listVariants cache .TEST_TRIAL testElements t (-1) = some vs → ∀ v ∈ vs, v ∈ order

/-- `form` holds the local matrices that the dense assembler obtains: for each trial element one call of
`evaluateLocalWeakForms(TEST_TRIAL, m_testIndices, trialElement, ALL_DOFS, localResult)` (`dense_global_assembler.cpp:97-102`). -/
def LocalResults (A : LocalAsm.Assembler Verif.Quad.Descriptor addr ℂ) [DecidableEq addr] (cache : LocalAsm.Cache ℂ)
    (testElements trialElements : List Nat) (form : Nat → Nat → Nat → Nat → ℂ) : Prop :=
  ∀ t ∈ trialElements, ∃ (order : List (Option (Verif.Quad.Descriptor × addr))) (init r : Nat → Mx ℂ), Visits A cache testElements t order ∧
    A.evaluateList cache .TEST_TRIAL testElements t none (-1) order init = some r ∧
    ∀ (i : Nat) (hi : i < testElements.length) (a b : Nat), form testElements[i] t a b = (r i).e a b

/-- `out` is a possible outcome of the dense assembly of the weak form of the operator (`dense_global_assembler.cpp:262-343`, with the
construction of the local assembler, which may cache singular integrals); `none`: an exception (or worse). -/
def Setting.Assembles (s : Setting addr) [DecidableEq addr] (selector : Verif.Quad.Selector) (vertexCount : Nat)
    (testShapeset trialShapeset : Nat → addr) (T U : Assembly.ASpace ℂ) (caching : Bool) (out : Option (Mx ℂ)) : Prop :=
  let A := s.assembler selector vertexCount testShapeset trialShapeset
  let trialElements := (List.range U.elementCount).filter fun t => Assembly.contributes (U.gdofs t)
  ∃ r, A.Constructed caching r ∧
    match r with
    | none => out = none
    | some cache =>
      (out = none ∧ ∃ t ∈ trialElements, ∃ order init, Visits A cache (Assembly.testIndices T) t order ∧
        A.evaluateList cache .TEST_TRIAL (Assembly.testIndices T) t none (-1) order init = none) ∨
      ∃ form, LocalResults A cache (Assembly.testIndices T) trialElements form ∧ Assembly.DenseRun T U form out

end
end Verif.Bio
