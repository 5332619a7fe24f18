import Verif.Model.Quadrature
import Verif.Model.ShapeTransformation
import Verif.Model.MatData
import Verif.Model.SpaceVector
import Mathlib.Algebra.Star.Basic
import Mathlib.Data.Real.Star
/-
Model of the assembly of local operators (identity, Maxwell identity, Laplace–Beltrami):
lib/fiber/default_local_assembler_for_local_operators_on_surfaces_imp.hpp, numerical_test_trial_integrator_imp.hpp,
default_test_trial_integral_imp.hpp, default_quadrature_descriptor_selector_for_local_operators.cpp and the integrand functors.
Real numbers instead of floating point; shape functions have real values (all shapesets of the library do), except that the
integrand functors are stated for any ring with a conjugation.
-/
namespace Verif.LocalOps
open Verif.Grid Verif.Shape Verif.SingleQuad Verif.HMat
noncomputable section

/-! ### Integrand functors (`D` components) -/

/-- `SimpleTestTrialIntegrandFunctor::evaluate` (`simple_test_trial_integrand_functor.hpp:52-71`). -/
def simpleIntegrand {K : Type} [CommRing K] [StarRing K] (transformationDim : Nat) (test trial : Nat → K) : K :=
  (List.range transformationDim).foldl (fun result dim => result + star (test dim) * trial dim) 0

/-- `SingleComponentTestTrialIntegrandFunctor::evaluate` (`single_component_test_trial_integrand_functor.hpp:55-70`). -/
def singleComponentIntegrand {K : Type} [CommRing K] [StarRing K] (testComponent trialComponent : Nat) (test trial : Nat → K) : K :=
  star (test testComponent) * trial trialComponent

/-- `Maxwell3dTestTrialIntegrandFunctor::evaluate` (`maxwell_3d_test_trial_integrand_functor.hpp:50-75`); `normal` has real
components, embedded in the ring. -/
def maxwellIntegrand {K : Type} [CommRing K] [StarRing K] (normal : Nat → K) (test trial : Nat → K) : K :=
  -((star (test 1) * normal 2 - star (test 2) * normal 1) * trial 0 +
    (star (test 2) * normal 0 - star (test 0) * normal 2) * trial 1 +
    (star (test 0) * normal 1 - star (test 1) * normal 0) * trial 2)

/-- Component `i` of a vector. -/
def comp (p : P3 ℝ) (i : Nat) : ℝ := if i = 0 then p.x else if i = 1 then p.y else p.z

/-- An integrand functor for real values with its geometrical dependencies. -/
structure IntegrandFunctor where
  deps : GeomDeps
  evaluate : GeomData → Nat → (Nat → ℝ) → (Nat → ℝ) → ℝ

/-- `SimpleTestTrialIntegrandFunctor` (no dependencies, `:48-50`). -/
def simpleFunctor : IntegrandFunctor := ⟨{}, fun _ dim test trial => simpleIntegrand dim test trial⟩

/-- `Maxwell3dTestTrialIntegrandFunctor` (needs the normals, `:46-48`). -/
def maxwellFunctor : IntegrandFunctor :=
  ⟨{ normals := true }, fun g _ test trial => maxwellIntegrand (comp g.normal) test trial⟩

/-- `SingleComponentTestTrialIntegrandFunctor` (no dependencies, `single_component_test_trial_integrand_functor.hpp:51-53`).  Reading a
component that does not exist is outside the model (the assertions allow the component equal to the extent). -/
def singleComponentFunctor (testComponent trialComponent : Nat) : IntegrandFunctor :=
  ⟨{}, fun _ _ test trial => singleComponentIntegrand testComponent trialComponent test trial⟩

/-! ### Transformations -/

/-- A shape function transformation: `addDependencies`, `resultDimension` and `evaluate`. -/
structure Transformation where
  deps : GeomDeps
  dim : Nat
  evaluate : BasisAt → GeomData → Nat → ℝ

/-- `ScalarFunctionValueFunctor` (`scalar_function_value_functor.hpp:33-50`). -/
def scalarValueT : Transformation := ⟨{}, 1, fun b _ _ => b.v0⟩

/-- `HdivFunctionValueFunctor`. -/
def hdivT : Transformation := ⟨hdivValueDeps, 3, fun b g => comp (hdivValue b g)⟩

/-- `HcurlFunctionValueFunctor`. -/
def hcurlT : Transformation := ⟨hcurlValueDeps, 3, fun b g => comp (hcurlValue b g)⟩

/-- `SurfaceGrad3dFunctor`. -/
def surfaceGradT : Transformation := ⟨surfaceGradDeps, 3, fun b g => comp (surfaceGrad b g)⟩

/-- `SurfaceDiv3dFunctor` (`surface_div_3d_functor.hpp:40-60`). -/
def surfaceDivT : Transformation := ⟨surfaceDivDeps, 1, fun b g _ => surfaceDiv b g⟩

/-- `SurfaceCurl3dFunctor` (`surface_curl_3d_functor.hpp:40-70`). -/
def surfaceCurlT : Transformation := ⟨surfaceCurlDeps, 3, fun b g => comp (surfaceCurl b g)⟩

/-- `HcurlSurfaceCurlFunctor` (`hcurl_surface_curl_functor.hpp:40-75`). -/
def hcurlSurfaceCurlT : Transformation := ⟨hcurlSurfaceCurlDeps, 1, fun b g _ => hcurlSurfaceCurl b g⟩

/-- `ScalarFunctionValueTimesNormalFunctor` (`scalar_function_value_times_normal_functor.hpp:40-60`). -/
def valueTimesNormalT : Transformation := ⟨valueTimesNormalDeps, 3, fun b g => comp (valueTimesNormal b g)⟩

/-! ### Shapesets and operators -/

/-- A shapeset: `size()`, `order()` and what `evaluate(what, points, ALL_DOFS, data)` stores for a function at a point. -/
structure Shapeset where
  size : Nat
  order : Int
  shape : Nat → ℝ × ℝ → BasisAt

/-- `ConstantScalarShapeset` (`constant_scalar_shapeset.hpp:40-66`). -/
def constantShapeset : Shapeset := ⟨1, 0, fun _ _ => ⟨1, 0, 0, 0, 0, 0⟩⟩

/-- `LinearScalarShapeset<3, …>` (`linear_scalar_shapeset.hpp:64-98`): Dune's `P1LocalBasis` (external, trusted). -/
def linearShapeset : Shapeset :=
  ⟨3, 1, fun k p => if k = 0 then ⟨1 - p.1 - p.2, 0, -1, -1, 0, 0⟩ else if k = 1 then ⟨p.1, 0, 1, 0, 0, 0⟩ else ⟨p.2, 0, 0, 1, 0, 0⟩⟩

/-- `RaviartThomas0Shapeset<3, …>` (`raviart_thomas_0_shapeset.hpp:60-90`). -/
def raviartThomasShapeset : Shapeset := ⟨3, 1, Verif.Space.rtShape⟩

/-- What a local operator consists of: `testTransformations()`, `trialTransformations()`, `integral()`. -/
structure Operator where
  test : Transformation
  trial : Transformation
  functor : IntegrandFunctor

/-- `AbstractIdentityOperator` (`abstract_identity_operator.cpp:66-118`): the transformations are the `basisFunctionValue()` of the
spaces. -/
def identityOperator (testValue trialValue : Transformation) : Operator := ⟨testValue, trialValue, simpleFunctor⟩

/-- `AbstractMaxwellIdentityOperator` (`abstract_maxwell_identity_operator.cpp:32-75`). -/
def maxwellIdentityOperator (testValue trialValue : Transformation) : Operator := ⟨testValue, trialValue, maxwellFunctor⟩

/-- `laplaceBeltramiOperator` (`sparse_operators.hpp:79-120`). -/
def laplaceBeltramiOperator : Operator := ⟨surfaceGradT, surfaceGradT, simpleFunctor⟩

/-- The geometry an assembler works with: the number of corners of each element, and `geometry->getData(what, points, data)` at one
point (`concrete_geometry.hpp:385-407`; for a flat triangle `Verif.Shape.getData`). -/
structure Mesh where
  cornerCount : Nat → Int
  getData : Nat → ℝ × ℝ → GeomDeps → GeomData → GeomData

/-! ### Integration -/

/-- `geomDeps` (`numerical_test_trial_integrator_imp.hpp:87-92`, `default_test_trial_integral_imp.hpp:54-59`). -/
def Operator.geomDeps (op : Operator) : GeomDeps :=
  ((op.test.deps.or op.trial.deps).or { integrationElements := true }).or op.functor.deps

/-- `DefaultTestTrialIntegral::evaluate` (`default_test_trial_integral_imp.hpp:61-91`) for one pair of functions, with the
transformed values of `numerical_test_trial_integrator_imp.hpp:115-116`; `geomData n` holds the data at point `n`. -/
def Operator.integral (op : Operator) (points : List QPoint) (testShapeset trialShapeset : Shapeset) (geomData : Nat → GeomData)
    (testDof trialDof : Nat) : ℝ :=
  points.zipIdx.foldl (fun sum qn =>
    let g := geomData qn.2
    sum + op.functor.evaluate g op.test.dim (op.test.evaluate (testShapeset.shape testDof (qn.1.x, qn.1.y)) g)
      (op.trial.evaluate (trialShapeset.shape trialDof (qn.1.x, qn.1.y)) g) * g.integrationElement * qn.1.w) 0

/-- The loop over the elements (`numerical_test_trial_integrator_imp.hpp:107-120`).  `geomData` is reused from element to element. -/
def Operator.loop (op : Operator) (mesh : Mesh) (points : List QPoint) (test trial : Shapeset) :
    List Nat → (Nat → GeomData) → List (Mx ℝ)
  | [], _ => []
  | e :: es, geomData =>
    let geomData := fun n => match points[n]? with
      | some q => mesh.getData e (q.x, q.y) op.geomDeps (geomData n)
      | none => geomData n
    ⟨test.size, trial.size, op.integral points test trial geomData⟩ :: op.loop mesh points test trial es geomData

/-- `NumericalTestTrialIntegrator::integrate` (`numerical_test_trial_integrator_imp.hpp:64-121`) with an empty `result`; `blank` is
the content of a new `GeometricalData`. -/
def Operator.integrate (op : Operator) (mesh : Mesh) (points : List QPoint) (elementIndices : List Nat) (test trial : Shapeset)
    (blank : Nat → GeomData) : List (Mx ℝ) :=
  if points.length = 0 ∨ elementIndices.length = 0 then []
  else op.loop mesh points test trial elementIndices blank

/-! ### The local assembler -/

/-- `SingleQuadratureDescriptor` (`single_quadrature_descriptor.hpp`). -/
structure Descriptor where
  vertexCount : Int
  order : Int
deriving DecidableEq

/-- `DefaultQuadratureDescriptorSelectorForLocalOperators::quadratureDescriptor`
(`default_quadrature_descriptor_selector_for_local_operators.cpp:48-64`). -/
def quadratureDescriptor (mesh : Mesh) (test trial : Nat → Shapeset) (elementIndex : Nat) : Descriptor :=
  ⟨mesh.cornerCount elementIndex, (test elementIndex).order + (trial elementIndex).order⟩

/-- The points and weights of the integrator of a descriptor (`:161-163`), where making them neither throws nor is undefined. -/
def rulePoints (d : Descriptor) : List QPoint :=
  match fillSingle d.vertexCount d.order with
  | .ok p => p
  | _ => []

/-- The loop that distributes the integrals of one variant (`:131-136`): arguments are the variants of the elements, `result` and the
rest of `localResult` from position `i` on.  `none`: a read beyond its end. -/
def distribute {V M : Type} [DecidableEq V] (active : V) : List V → List M → List M → Option (List M)
  | v :: vs, r :: rs, loc =>
    if v = active then
      match loc with
      | [] => none
      | l :: loc => (distribute active vs rs loc).map (l :: ·)
    else (distribute active vs rs loc).map (r :: ·)
  | _, _, _ => some []

/-- The loop over the unique variants (`:110-136`), in the order of the set; `integrate v es` are the integrals over the elements `es`
for variant `v`. -/
def variantLoop {V M : Type} [DecidableEq V] (integrate : V → List Nat → List M) (elements : List Nat) (variants : List V) :
    List V → List M → Option (List M)
  | [], result => some result
  | v :: order, result =>
    let activeElementIndices := ((elements.zip variants).filter fun p => decide (p.2 = v)).map Prod.fst
    (distribute v variants result (integrate v activeElementIndices)).bind fun result =>
      variantLoop integrate elements variants order result

/-- `evaluateLocalWeakForms` (`default_local_assembler_for_local_operators_on_surfaces_imp.hpp:79-137`).  Shapesets are compared by
address: `addr` is the type of addresses, `shapeset` what is stored there.  `getIntegrator` (`:152-184`) makes the integrator of a
descriptor from the points of the rule, once; `order` is the order of the set of variants (by addresses: any).  `old` is `result`
after `resize`, `blank` the content of new geometrical data. -/
def evaluateLocalWeakForms {addr : Type} [DecidableEq addr] (op : Operator) (mesh : Mesh) (shapeset : addr → Shapeset)
    (testShapesets trialShapesets : Nat → addr) (elementIndices : List Nat) (order : List (Descriptor × addr × addr))
    (old : List (Mx ℝ)) (blank : Nat → GeomData) : Outcome (List (Mx ℝ)) :=
  let desc := quadratureDescriptor mesh (fun e => shapeset (testShapesets e)) (fun e => shapeset (trialShapesets e))
  let rec integrators : List Nat → Outcome Unit
    | [] => .ok ()
    | e :: es => match fillSingle (desc e).vertexCount (desc e).order with
      | .undefined => .undefined
      | .throws m => .throws m
      | .ok _ => integrators es
  match integrators elementIndices with
  | .undefined => .undefined
  | .throws m => .throws m
  | .ok _ =>
    match variantLoop (fun v es => op.integrate mesh (rulePoints v.1) es (shapeset v.2.1) (shapeset v.2.2) blank) elementIndices
      (elementIndices.map fun e => (desc e, testShapesets e, trialShapesets e)) order old with
    | some r => .ok r
    | none => .undefined

end
end Verif.LocalOps
