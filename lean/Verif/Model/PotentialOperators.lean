import Verif.Model.GridFunctions
import Verif.Model.Kernels
/-
Model of the evaluation of potential operators: lib/fiber/default_local_assembler_for_potential_operators_on_surfaces_imp.hpp,
numerical_kernel_trial_integrator_imp.hpp, default_kernel_trial_integral_imp.hpp,
default_quadrature_descriptor_selector_for_potential_operators.cpp, the integrand functors *_kernel_trial_integrand_functor.hpp and
modified_maxwell_3d_*_potential_operator_integrand_functor.hpp and the potential operators of lib/operators.  Real and complex
numbers instead of floating point; shape functions have real values.  Indices of points and elements are assumed to be in range.
-/
namespace Verif.Pot
open Verif.Grid Verif.Shape Verif.SingleQuad Verif.HMat Verif.LocalOps Verif.GridFun Verif.Kernel
noncomputable section

/-! ### Integrand functors -/

/-- An integrand functor: `addGeometricalDependencies`, `resultDimension` and `evaluate`; the arguments are `kernelValues[i](r, 0)`
(all kernels of the library have one column) and `trialValues[i](d)`. -/
structure TrialFunctor where
  deps : Deps
  dim : Nat
  evaluate : Data → (Nat → Nat → ℂ) → (Nat → Nat → ℂ) → Nat → ℂ

/-- `SimpleScalarKernelTrialIntegrandFunctor` (`simple_scalar_kernel_trial_integrand_functor.hpp:43-75`). -/
def simpleScalar : TrialFunctor := ⟨{}, 1, fun _ kernels trial _ => trial 0 0 * kernels 0 0⟩

/-- `SimpleVectorialKernelTrialIntegrandFunctor` (`simple_vectorial_kernel_trial_integrand_functor.hpp:43-77`). -/
def simpleVectorial : TrialFunctor := ⟨{}, 3, fun _ kernels trial d =>
  if d = 0 then trial 0 0 * kernels 0 0 else if d = 1 then trial 0 0 * kernels 0 1 else trial 0 0 * kernels 0 2⟩

/-- `ModifiedMaxwell3dDoubleLayerPotentialOperatorIntegrandFunctor`
(`modified_maxwell_3d_double_layer_potential_operator_integrand_functor.hpp:45-81`). -/
def maxwellDoubleFunctor : TrialFunctor := ⟨{}, 3, fun _ kernels trial d =>
  if d = 0 then kernels 0 1 * trial 0 2 - kernels 0 2 * trial 0 1
  else if d = 1 then kernels 0 2 * trial 0 0 - kernels 0 0 * trial 0 2
  else kernels 0 0 * trial 0 1 - kernels 0 1 * trial 0 0⟩

/-- `ModifiedMaxwell3dSingleLayerPotentialOperatorIntegrandFunctor`
(`modified_maxwell_3d_single_layer_potential_operator_integrand_functor.hpp:45-86`). -/
def maxwellSingleFunctor : TrialFunctor := ⟨{}, 3, fun _ kernels trial d =>
  -kernels 0 0 * trial 0 d + kernels 1 d * trial 1 0⟩

/-! ### Potential operators -/

/-- `kernels()`, `trialTransformations()` and `integral()` of a potential operator. -/
structure PotentialOperator where
  kernels : Kernel.Functor
  transformations : List Transformation
  functor : TrialFunctor

/-- `Laplace3dSingleLayerPotentialOperator` (`laplace_3d_single_layer_potential_operator.cpp:47-57`). -/
def laplaceSingle : PotentialOperator := ⟨laplaceSLFunctor, [scalarValueT], simpleScalar⟩
/-- `Laplace3dDoubleLayerPotentialOperator` (`laplace_3d_double_layer_potential_operator.cpp:47-57`). -/
def laplaceDouble : PotentialOperator := ⟨laplaceDLFunctor, [scalarValueT], simpleScalar⟩
/-- `Laplace3dSingleLayerGradientPotentialOperator` (`laplace_3d_single_layer_gradient_potential_operator.cpp:47-57`). -/
def laplaceSingleGradient : PotentialOperator := ⟨laplaceSLGradFunctor, [scalarValueT], simpleVectorial⟩
/-- `Laplace3dDoubleLayerGradientPotentialOperator` (`laplace_3d_double_layer_gradient_potential_operator.cpp:47-57`). -/
def laplaceDoubleGradient : PotentialOperator := ⟨laplaceDLGradFunctor, [scalarValueT], simpleVectorial⟩
/-- `ModifiedHelmholtz3dSingleLayerPotentialOperator` (`modified_helmholtz_3d_single_layer_potential_operator.cpp:46-57`). -/
def modifiedHelmholtzSingle (k : ℂ) : PotentialOperator := ⟨helmholtzSLFunctor k, [scalarValueT], simpleScalar⟩
/-- `ModifiedHelmholtz3dDoubleLayerPotentialOperator` (`modified_helmholtz_3d_double_layer_potential_operator.cpp:46-57`). -/
def modifiedHelmholtzDouble (k : ℂ) : PotentialOperator := ⟨helmholtzDLFunctor k, [scalarValueT], simpleScalar⟩
/-- `helmholtzSingleLayerPotentialOperator` (`helmholtz_operators.hpp:138-155`). -/
def helmholtzSingle (waveNumber : ℂ) : PotentialOperator := modifiedHelmholtzSingle (waveNumber / Complex.I)
/-- `helmholtzDoubleLayerPotentialOperator` (`helmholtz_operators.hpp:157-173`). -/
def helmholtzDouble (waveNumber : ℂ) : PotentialOperator := modifiedHelmholtzDouble (waveNumber / Complex.I)
/-- `Helmholtz3dFarFieldSingleLayerPotentialOperator` (`helmholtz_3d_far_field_single_layer_potential_operator.cpp:47-57`). -/
def helmholtzFarSingle (waveNumber : ℂ) : PotentialOperator := ⟨farSLFunctor (waveNumber / Complex.I), [scalarValueT], simpleScalar⟩
/-- `Helmholtz3dFarFieldDoubleLayerPotentialOperator` (`helmholtz_3d_far_field_double_layer_potential_operator.cpp:47-57`). -/
def helmholtzFarDouble (waveNumber : ℂ) : PotentialOperator := ⟨farDLFunctor (waveNumber / Complex.I), [scalarValueT], simpleScalar⟩
/-- `Maxwell3dSingleLayerPotentialOperator` (`maxwell_3d_single_layer_potential_operator.cpp:46-56`). -/
def maxwellSingle (waveNumber : ℂ) : PotentialOperator :=
  ⟨maxwellSLPotFunctor (waveNumber / Complex.I), [hdivT, surfaceDivT], maxwellSingleFunctor⟩
/-- `Maxwell3dDoubleLayerPotentialOperator` (`maxwell_3d_double_layer_potential_operator.cpp:46-55`). -/
def maxwellDouble (waveNumber : ℂ) : PotentialOperator := ⟨maxwellDLFunctor (waveNumber / Complex.I), [hdivT], maxwellDoubleFunctor⟩
/-- `Maxwell3dFarFieldSingleLayerPotentialOperator` (`maxwell_3d_far_field_single_layer_potential_operator.cpp:47-58`). -/
def maxwellFarSingle (waveNumber : ℂ) : PotentialOperator :=
  ⟨maxwellFarSLFunctor (waveNumber / Complex.I), [hdivT, surfaceDivT], maxwellSingleFunctor⟩
/-- `Maxwell3dFarFieldDoubleLayerPotentialOperator` (`maxwell_3d_far_field_double_layer_potential_operator.cpp:47-57`). -/
def maxwellFarDouble (waveNumber : ℂ) : PotentialOperator :=
  ⟨maxwellFarDLFunctor (waveNumber / Complex.I), [hdivT], maxwellDoubleFunctor⟩

/-- All of them, for a wave number. -/
def potentialOperators (k : ℂ) : List PotentialOperator :=
  [laplaceSingle, laplaceDouble, laplaceSingleGradient, laplaceDoubleGradient, modifiedHelmholtzSingle k, modifiedHelmholtzDouble k,
   helmholtzSingle k, helmholtzDouble k, helmholtzFarSingle k, helmholtzFarDouble k, maxwellSingle k, maxwellDouble k,
   maxwellFarSingle k, maxwellFarDouble k]

/-! ### Integration -/

/-- `trialGeomDeps` (`numerical_kernel_trial_integrator_imp.hpp:99-101`, `default_kernel_trial_integral_imp.hpp:54-59`); all kernels ask
for `GLOBALS`. -/
def PotentialOperator.trialGeomDeps (op : PotentialOperator) : Deps :=
  (((op.transformations.foldl (fun (d : Deps) t => d.or ⟨t.deps, false, false⟩) {}).or
    ⟨{ normals := op.kernels.trialNormals }, true, false⟩).or ⟨{ integrationElements := true }, false, false⟩).or op.functor.deps

/-- `kernelValues[i](r, 0)` at one pair of points (`default_collection_of_kernels_imp.hpp:144-164`). -/
def kernelValues (F : Kernel.Functor) (test trial : Slice) (i r : Nat) : ℂ := ((F.evaluate test trial).getD i []).getD r 0

/-- `trialValues[i](d)` for one function at one point (`m_trialTransformations.evaluate`). -/
def transformed (ts : List Transformation) (b : BasisAt) (g : GeomData) (i d : Nat) : ℂ :=
  (((ts.map fun t => t.evaluate b g).getD i fun _ => 0) d : ℝ)

/-- `DefaultKernelTrialIntegral::evaluateWithPureWeights` (`default_kernel_trial_integral_imp.hpp:101-140`) for one component, function
and point: `geomData n` are the data at quadrature point `n`, `shape` the function, `point` the evaluation point (its normals are not
set). -/
def PotentialOperator.integral (op : PotentialOperator) (points : List QPoint) (shape : ℝ × ℝ → BasisAt) (geomData : Nat → Data)
    (point : Slice) (dim : Nat) : ℂ :=
  points.zipIdx.foldl (fun sum qn =>
    sum + op.functor.evaluate (geomData qn.2)
      (kernelValues op.kernels point ⟨(geomData qn.2).global, (geomData qn.2).geom.normal⟩)
      (transformed op.transformations (shape (qn.1.x, qn.1.y)) (geomData qn.2).geom) dim *
      ((geomData qn.2).geom.integrationElement : ℂ) * (qn.1.w : ℂ)) 0

/-- `trialGeometry->getData(trialGeomDeps, m_localQuadPoints, trialGeomData)` and the domain index
(`numerical_kernel_trial_integrator_imp.hpp:114-119, 184-189, 256-262`). -/
def PotentialOperator.fill (op : PotentialOperator) (mesh : FMesh) (points : List QPoint) (e : Nat) (geomData : Nat → Data) (n : Nat) :
    Data :=
  match points[n]? with
  | some q => mesh.fill e (q.x, q.y) op.trialGeomDeps (geomData n)
  | none => geomData n

/-- `trialShapeset.size()` or 1 (`numerical_kernel_trial_integrator_imp.hpp:80-81`); `none` is `ALL_DOFS`. -/
def dofCount (s : Shapeset) : Option Nat → Nat
  | none => s.size
  | some _ => 1

/-- Function number `j` that `trialShapeset.evaluate(…, localTrialDofIndex, …)` evaluates. -/
def dofAt (localTrialDofIndex : Option Nat) (j : Nat) : Nat := localTrialDofIndex.getD j

/-- `integrate(pointIndices, trialElementIndex, trialShapeset, localTrialDofIndex, result)`
(`numerical_kernel_trial_integrator_imp.hpp:73-131`); `result` holds the matrices before the call. -/
def PotentialOperator.integratePoints (op : PotentialOperator) (mesh : FMesh) (xs : Nat → P3 ℝ) (unset : P3 ℝ) (points : List QPoint)
    (e : Nat) (s : Shapeset) (localTrialDofIndex : Option Nat) (blank : Nat → Data) (pointIndices : List Nat) (result : List (Mx ℂ)) :
    Outcome (List (Mx ℂ)) :=
  if result.length ≠ pointIndices.length then .throws "arrays 'result' and 'pointCount' must have the same number of elements"
  else if pointIndices.length = 0 ∨ points.length = 0 then .ok result
  else .ok (pointIndices.map fun p => ⟨op.functor.dim, dofCount s localTrialDofIndex, fun c j =>
    op.integral points (s.shape (dofAt localTrialDofIndex j)) (op.fill mesh points e blank) ⟨xs p, unset⟩ c⟩)

/-- The loop over the elements (`numerical_kernel_trial_integrator_imp.hpp:182-204`): `trialGeomData` is reused. -/
def PotentialOperator.elementLoop (op : PotentialOperator) (mesh : FMesh) (point : Slice) (points : List QPoint) (s : Shapeset)
    (componentIndex : Option Nat) : List Nat → (Nat → Data) → List (Mx ℂ)
  | [], _ => []
  | e :: es, geomData =>
    let geomData := op.fill mesh points e geomData
    let result3d := fun c j => op.integral points (s.shape j) geomData point c
    (match componentIndex with
      | none => ⟨op.functor.dim, s.size, result3d⟩
      | some c => ⟨1, s.size, fun _ j => result3d c j⟩) :: op.elementLoop mesh point points s componentIndex es geomData

/-- `integrate(pointIndex, componentIndex, trialElementIndices, trialShapeset, result)`
(`numerical_kernel_trial_integrator_imp.hpp:137-205`); reading a component that does not exist is undefined. -/
def PotentialOperator.integrateElements (op : PotentialOperator) (mesh : FMesh) (point : Slice) (points : List QPoint) (s : Shapeset)
    (componentIndex : Option Nat) (blank : Nat → Data) (elements : List Nat) (result : List (Mx ℂ)) : Outcome (List (Mx ℂ)) :=
  if result.length ≠ elements.length then .throws "arrays 'result' and 'pointCount' must have the same number of elements"
  else if elements.length = 0 ∨ points.length = 0 then .ok result
  else if op.functor.dim ≤ componentIndex.getD 0 then .undefined
  else .ok (op.elementLoop mesh point points s componentIndex elements blank)

/-- The loop over the pairs (`numerical_kernel_trial_integrator_imp.hpp:251-269`). -/
def PotentialOperator.pairLoop (op : PotentialOperator) (mesh : FMesh) (xs : Nat → P3 ℝ) (unset : P3 ℝ) (points : List QPoint)
    (s : Shapeset) : List (Nat × Nat) → (Nat → Data) → List (Mx ℂ)
  | [], _ => []
  | p :: ps, geomData =>
    let geomData := op.fill mesh points p.2 geomData
    ⟨op.functor.dim, s.size, fun c j => op.integral points (s.shape j) geomData ⟨xs p.1, unset⟩ c⟩ ::
      op.pairLoop mesh xs unset points s ps geomData

/-- `integrate(pointElementIndexPairs, trialShapeset, result)` (`numerical_kernel_trial_integrator_imp.hpp:211-270`). -/
def PotentialOperator.integratePairs (op : PotentialOperator) (mesh : FMesh) (xs : Nat → P3 ℝ) (unset : P3 ℝ) (points : List QPoint)
    (s : Shapeset) (blank : Nat → Data) (pairs : List (Nat × Nat)) (result : List (Mx ℂ)) : Outcome (List (Mx ℂ)) :=
  if result.length ≠ pairs.length then .throws "arrays 'result' and 'pointCount' must have the same number of elements"
  else if pairs.length = 0 ∨ points.length = 0 then .ok result
  else .ok (op.pairLoop mesh xs unset points s pairs blank)

/-! ### Choice of the rule -/

/-- A point as a vector. -/
def toPoint (p : P3 ℝ) : Verif.Quad.Point := ![p.x, p.y, p.z]

/-- `DefaultQuadratureDescriptorSelectorForPotentialOperators`: its grid, the orders of the shapesets and `m_singleRegular` of the
accuracy options. -/
structure Selector where
  grid : Verif.Quad.RawGeometry
  shapeOrder : Nat → Int
  singleRegular : Verif.Quad.Ranges

/-- The normalised distance (`default_quadrature_descriptor_selector_for_potential_operators.cpp:75-85, 95-101`). -/
def Selector.normalisedDistance (s : Selector) (point : P3 ℝ) (e : Nat) (nominalDistance : ℝ) : ℝ :=
  if nominalDistance < 0 then √(Verif.Quad.distSq (toPoint point) (s.grid.center e) / s.grid.sizeSq e)
  else nominalDistance / s.grid.averageSize

/-- `quadratureDescriptor` (`default_quadrature_descriptor_selector_for_potential_operators.cpp:53-90`). -/
def Selector.descriptor (s : Selector) (point : P3 ℝ) (e : Nat) (nominalDistance : ℝ) : Outcome Descriptor :=
  match Verif.Quad.regularOptions s.singleRegular (s.normalisedDistance point e nominalDistance) with
  | some o => .ok ⟨(s.grid.corners e).length, o.quadratureOrder (2 * s.shapeOrder e)⟩
  | none => .throws "AccuracyOptions::singleRegular(): internal error"

/-! ### The local assembler -/

/-- `DefaultLocalAssemblerForPotentialOperatorsOnSurfaces`: shapesets live at addresses; `unset` is what normals of evaluation points
hold, `blank` what new geometrical data hold. -/
structure Assembler (addr : Type) where
  op : PotentialOperator
  mesh : FMesh
  points : Nat → P3 ℝ
  shapeset : addr → Shapeset
  trialAt : Nat → addr
  grid : Verif.Quad.RawGeometry
  singleRegular : Verif.Quad.Ranges
  unset : P3 ℝ
  blank : Nat → Data

/-- The descriptor selector of the assembler. -/
def Assembler.selector {addr : Type} (A : Assembler addr) : Selector :=
  ⟨A.grid, fun e => (A.shapeset (A.trialAt e)).order, A.singleRegular⟩

/-- `selectIntegrator` (`default_local_assembler_for_potential_operators_on_surfaces_imp.hpp:302-371`): the descriptor stands for the
integrator (there is one integrator for each descriptor). -/
def Assembler.selectIntegrator {addr : Type} (A : Assembler addr) (p e : Nat) (nominalDistance : ℝ) : Outcome Descriptor :=
  match A.selector.descriptor (A.points p) e nominalDistance with
  | .undefined => .undefined
  | .throws m => .throws m
  | .ok d =>
    match fillSingle d.vertexCount d.order with
    | .undefined => .undefined
    | .throws m => .throws m
    | .ok _ => .ok d

/-- The loop that selects the variants of all items (`:110-114, 170-176, 233-241`). -/
def selectVariants {I V : Type} (select : I → Outcome V) : List I → Outcome (List V)
  | [] => .ok []
  | i :: is =>
    match select i with
    | .undefined => .undefined
    | .throws m => .throws m
    | .ok v =>
      match selectVariants select is with
      | .undefined => .undefined
      | .throws m => .throws m
      | .ok vs => .ok (v :: vs)

/-- The entries of a list whose variant is the active one (`:139-143, 202-206, 270-276`). -/
def active {I V : Type} [DecidableEq V] (v : V) (variants : List V) (items : List I) : List I :=
  ((items.zip variants).filter fun p => decide (p.2 = v)).map Prod.fst

/-- The loop over the variants (`:130-149, 192-212, 260-281`): `integrate` gets the active items and what the pointers to their results
point to, and writes the new matrices there. -/
def batchLoop {I V M : Type} [DecidableEq V] (integrate : V → List I → List M → Outcome (List M)) (items : List I) (variants : List V) :
    List V → List M → Outcome (List M)
  | [], result => .ok result
  | v :: order, result =>
    match integrate v (active v variants items) (active v variants result) with
    | .undefined => .undefined
    | .throws m => .throws m
    | .ok new =>
      match distribute v variants result new with
      | none => .undefined
      | some result => batchLoop integrate items variants order result

/-- Selection of variants followed by the batches; `order variants` is the order of the set of variants. -/
def evaluate {I V M : Type} [DecidableEq V] (select : I → Outcome V) (integrate : V → List I → List M → Outcome (List M)) (items : List I)
    (order : List V) (old : List M) : Outcome (List M) :=
  match selectVariants select items with
  | .undefined => .undefined
  | .throws m => .throws m
  | .ok variants => batchLoop integrate items variants order old

/-- `evaluateLocalContributions(pointIndices, trialElementIndex, localTrialDofIndex, result, nominalDistance)` (`:86-150`).  `old` is
`result` after `resize`. -/
def Assembler.atPoints {addr : Type} (A : Assembler addr) (pointIndices : List Nat) (e : Nat) (localTrialDofIndex : Option Nat)
    (nominalDistance : ℝ) (order : List Descriptor) (old : List (Mx ℂ)) : Outcome (List (Mx ℂ)) :=
  evaluate (fun p => A.selectIntegrator p e nominalDistance)
    (fun v => A.op.integratePoints A.mesh A.points A.unset (rulePoints v) e (A.shapeset (A.trialAt e)) localTrialDofIndex A.blank)
    pointIndices order old

/-- `evaluateLocalContributions(pointIndex, componentIndex, trialElementIndices, result, nominalDistance)` (`:152-213`). -/
def Assembler.overElements {addr : Type} [DecidableEq addr] (A : Assembler addr) (p : Nat) (componentIndex : Option Nat)
    (elements : List Nat) (nominalDistance : ℝ) (order : List (Descriptor × addr)) (old : List (Mx ℂ)) : Outcome (List (Mx ℂ)) :=
  evaluate (fun e => match A.selectIntegrator p e nominalDistance with
      | .undefined => .undefined
      | .throws m => .throws m
      | .ok d => .ok (d, A.trialAt e))
    (fun v => A.op.integrateElements A.mesh ⟨A.points p, A.unset⟩ (rulePoints v.1) (A.shapeset v.2) componentIndex A.blank)
    elements order old

/-- The pairs in the order of the loops (`:270-271`): `result(pointIndex, trialIndex)` is entry `pointIndex + pointCount * trialIndex`. -/
def gridPairs (pointIndices elements : List Nat) : List (Nat × Nat) := elements.flatMap fun e => pointIndices.map fun p => (p, e)

/-- `evaluateLocalContributions(pointIndices, trialElementIndices, result, nominalDistance)` (`:215-282`). -/
def Assembler.onGrid {addr : Type} [DecidableEq addr] (A : Assembler addr) (pointIndices elements : List Nat) (nominalDistance : ℝ)
    (order : List (Descriptor × addr)) (old : List (Mx ℂ)) : Outcome (List (Mx ℂ)) :=
  evaluate (fun q => match A.selectIntegrator q.1 q.2 nominalDistance with
      | .undefined => .undefined
      | .throws m => .throws m
      | .ok d => .ok (d, A.trialAt q.2))
    (fun v => A.op.integratePairs A.mesh A.points A.unset (rulePoints v.1) (A.shapeset v.2) A.blank)
    (gridPairs pointIndices elements) order old

end
end Verif.Pot
