import Verif.Model.LocalOperators
import Verif.Model.QuadratureSelector
import Verif.Model.Assembly
import Mathlib.Analysis.Complex.Basic
/-
Model of the projection of a function on a space: lib/fiber/default_local_assembler_for_grid_functions_on_surfaces_imp.hpp,
numerical_test_function_integrator_imp.hpp, default_quadrature_descriptor_selector_for_grid_functions.cpp, the four classes
*_function.hpp of lib/fiber and cython/bempp/core/assembly/function_projector.hpp.  Complex and real numbers instead of floating
point.  Shape functions have real values, the function has complex values (as in `function_projector.pyx:14`).
-/
namespace Verif.GridFun
open Verif.Grid Verif.Shape Verif.SingleQuad Verif.HMat Verif.LocalOps Verif.Assembly
noncomputable section

/-- `GeometricalDataType` (`geometrical_data.hpp:34-41`) with the bits `GLOBALS` and `DOMAIN_INDEX`. -/
structure Deps where
  geom : GeomDeps := {}
  globals : Bool := false
  domainIndex : Bool := false

/-- `geomDeps |= …`. -/
def Deps.or (a b : Deps) : Deps := ⟨a.geom.or b.geom, a.globals || b.globals, a.domainIndex || b.domainIndex⟩

/-- `GeometricalData` at one point, with `globals` and `domainIndex` (`geometrical_data.hpp:53-61`; the domain index, which the code
stores once for all points, is repeated). -/
structure Data where
  geom : GeomData
  global : P3 ℝ
  domainIndex : Int

/-- `Function`: `addGeometricalDependencies`, `codomainDimension` and `evaluate` at one point (`function.hpp:40-92`). -/
structure UserFunction where
  deps : Deps
  dim : Nat
  evaluate : Data → Nat → ℂ

/-- `SurfaceNormalIndependentFunction` (`surface_normal_independent_function.hpp:62-104`). -/
def normalIndependent (dim : Nat) (f : P3 ℝ → Nat → ℂ) : UserFunction := ⟨{ globals := true }, dim, fun d => f d.global⟩

/-- `SurfaceNormalDependentFunction` (`surface_normal_dependent_function.hpp:63-103`). -/
def normalDependent (dim : Nat) (f : P3 ℝ → P3 ℝ → Nat → ℂ) : UserFunction :=
  ⟨{ geom := { normals := true }, globals := true }, dim, fun d => f d.global d.geom.normal⟩

/-- `DomainIndexDependentFunction` (`domain_index_dependent_function.hpp:62-103`). -/
def domainIndexDependent (dim : Nat) (f : P3 ℝ → Int → Nat → ℂ) : UserFunction :=
  ⟨{ globals := true, domainIndex := true }, dim, fun d => f d.global d.domainIndex⟩

/-- `SurfaceNormalAndDomainIndexDependentFunction` (`surface_normal_and_domain_index_dependent_function.hpp:66-112`). -/
def normalAndDomainIndexDependent (dim : Nat) (f : P3 ℝ → P3 ℝ → Int → Nat → ℂ) : UserFunction :=
  ⟨{ geom := { normals := true }, globals := true, domainIndex := true }, dim, fun d => f d.global d.geom.normal d.domainIndex⟩

/-- A mesh with `local2global` and `RawGridGeometry::domainIndex`. -/
structure FMesh extends Mesh where
  local2global : Nat → ℝ × ℝ → P3 ℝ
  domainIndex : Nat → Int

/-- `geometry->getData(geomDeps, m_localQuadPoints, geomData)` at one point and the line after it
(`numerical_test_function_integrator_imp.hpp:110-114`, `concrete_geometry.hpp:396-397`). -/
def FMesh.fill (mesh : FMesh) (e : Nat) (p : ℝ × ℝ) (what : Deps) (old : Data) : Data :=
  ⟨mesh.getData e p what.geom old.geom, if what.globals then mesh.local2global e p else old.global,
    if what.domainIndex then mesh.domainIndex e else old.domainIndex⟩

/-- `geomDeps` (`numerical_test_function_integrator_imp.hpp:92-96`). -/
def geomDeps (test : Transformation) (function : UserFunction) : Deps :=
  (Deps.or ⟨GeomDeps.or { integrationElements := true } test.deps, false, false⟩) function.deps

/-- The sum for one test dof (`numerical_test_function_integrator_imp.hpp:119-125`). -/
def weakForm (test : Transformation) (function : UserFunction) (points : List QPoint) (testShapeset : Shapeset)
    (geomData : Nat → Data) (testDof : Nat) : ℂ :=
  points.zipIdx.foldl (fun sum qn =>
    (List.range test.dim).foldl (fun sum dim =>
      sum + (qn.1.w : ℂ) * ((geomData qn.2).geom.integrationElement : ℂ) *
        star ((test.evaluate (testShapeset.shape testDof (qn.1.x, qn.1.y)) (geomData qn.2).geom dim : ℝ) : ℂ) *
        function.evaluate (geomData qn.2) dim) sum) 0

/-- A column of the result: the number of its rows and its elements. -/
structure Column where
  size : Nat
  e : Nat → ℂ

/-- The loop over the elements (`numerical_test_function_integrator_imp.hpp:107-128`). -/
def elementLoop (test : Transformation) (function : UserFunction) (mesh : FMesh) (points : List QPoint) (testShapeset : Shapeset) :
    List Nat → (Nat → Data) → List Column
  | [], _ => []
  | e :: es, geomData =>
    let geomData := fun n => match points[n]? with
      | some q => mesh.fill e (q.x, q.y) (geomDeps test function) (geomData n)
      | none => geomData n
    ⟨testShapeset.size, weakForm test function points testShapeset geomData⟩ ::
      elementLoop test function mesh points testShapeset es geomData

/-- `NumericalTestFunctionIntegrator::integrate` (`numerical_test_function_integrator_imp.hpp:67-129`) with an empty `result`; `blank`
is the content of a new `GeometricalData`. -/
def integrate (test : Transformation) (function : UserFunction) (mesh : FMesh) (points : List QPoint) (elementIndices : List Nat)
    (testShapeset : Shapeset) (blank : Nat → Data) : Outcome (List Column) :=
  if points.length = 0 ∨ elementIndices.length = 0 then .ok []
  else if function.dim ≠ test.dim then .throws "test functions and the \"arbitrary\" function must have the same number of components"
  else .ok (elementLoop test function mesh points testShapeset elementIndices blank)

/-- `quadratureDescriptor` (`default_quadrature_descriptor_selector_for_grid_functions.cpp:46-59`). -/
def quadratureDescriptor (mesh : FMesh) (o : Verif.Quad.QuadOpts) (test : Nat → Shapeset) (elementIndex : Nat) : Descriptor :=
  ⟨mesh.cornerCount elementIndex, o.quadratureOrder (2 * (test elementIndex).order + 1)⟩

/-- The loop over the unique variants (`default_local_assembler_for_grid_functions_on_surfaces_imp.hpp:112-137`). -/
def variantLoop {V M : Type} [DecidableEq V] (integrate : V → List Nat → Outcome (List M)) (elements : List Nat) (variants : List V) :
    List V → List M → Outcome (List M)
  | [], result => .ok result
  | v :: order, result =>
    match integrate v (((elements.zip variants).filter fun p => decide (p.2 = v)).map Prod.fst) with
    | .undefined => .undefined
    | .throws m => .throws m
    | .ok localResult =>
      match distribute v variants result localResult with
      | none => .undefined
      | some result => variantLoop integrate elements variants order result

/-- `evaluateLocalWeakForms` (`default_local_assembler_for_grid_functions_on_surfaces_imp.hpp:80-138`).  `addr` are the addresses of
shapesets, `order` is the order of the set of variants, `old` is `result` after `resize`. -/
def evaluateLocalWeakForms {addr : Type} [DecidableEq addr] (test : Transformation) (function : UserFunction) (mesh : FMesh)
    (o : Verif.Quad.QuadOpts) (shapeset : addr → Shapeset) (testShapesets : Nat → addr) (elementIndices : List Nat)
    (order : List (Descriptor × addr)) (old : List Column) (blank : Nat → Data) : Outcome (List Column) :=
  let desc := quadratureDescriptor mesh o fun e => shapeset (testShapesets e)
  match LocalOps.evaluateLocalWeakForms.integrators desc elementIndices with
  | .undefined => .undefined
  | .throws m => .throws m
  | .ok _ =>
    variantLoop (fun v es => integrate test function mesh (rulePoints v.1) es (shapeset v.2) blank) elementIndices
      (elementIndices.map fun e => (desc e, testShapesets e)) order old

/-- The updates of the loop over the elements (`function_projector.hpp:174-186`); `localResult e a` is `localResult[e](a)`. -/
def projectionUpdates (sp : ASpace ℂ) (localResult : Nat → Nat → ℂ) : List (Int × Int × ℂ) :=
  (List.range sp.elementCount).flatMap fun e => (sp.gdofs e).zipIdx.flatMap fun p =>
    if p.1 ≥ 0 then [(p.1, 0, star (sp.weight e p.2) * localResult e p.2)] else []

/-- `reallyCalculateProjections` (`function_projector.hpp:136-190`): the result is a matrix with one column; a read or write outside an
array is undefined behaviour.  `run` is the call of `evaluateLocalWeakForms` for the list of all elements. -/
def calculateProjections (sp : ASpace ℂ) (run : List Nat → Outcome (List Column)) : Outcome (Mx ℂ) :=
  match run (List.range sp.elementCount) with
  | .undefined => .undefined
  | .throws m => .throws m
  | .ok localResult =>
    if ∀ e < sp.elementCount, ∀ a < (sp.gdofs e).length, 0 ≤ (sp.gdofs e).getD a (-1) → a < (localResult.map Column.size).getD e 0 then
      match addAll (Mx.zero sp.globalDofCount 1) (projectionUpdates sp fun e a => (localResult.map Column.e).getD e (fun _ => 0) a) with
      | some m => .ok m
      | none => .undefined
    else .undefined

end
end Verif.GridFun
