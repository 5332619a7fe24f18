import Verif.Model.PotentialOperators
/-
Model of `DefaultEvaluatorForIntegralOperators` (lib/fiber/default_evaluator_for_integral_operators_imp.hpp) with
`DefaultKernelTrialIntegral::evaluate` (default_kernel_trial_integral_imp.hpp:66-98) and `farFieldQuadratureDescriptor`
(default_quadrature_descriptor_selector_for_potential_operators.cpp:104-121).  Real and complex numbers instead of floating point,
natural numbers instead of `size_t`.  Shape functions have real values; an argument with complex coefficients is kept as real and
imaginary part, and the transformations, whose formulas are linear in the function, are applied to both.  Not modelled: OpenCL, the
arrays of Jacobians (no kernel asks for them) and the domain index, which no integrand functor reads.
-/
namespace Verif.Pot
open Verif.Grid Verif.Shape Verif.SingleQuad Verif.HMat Verif.LocalOps Verif.GridFun Verif.Kernel
noncomputable section

/-- What the constructor gets (`:104-133`), with `sizeof(KernelType)`.  `corners e` is column `e` of `elementCornerIndices`;
`trialShapesets` are addresses; `unset` and `blank` are what new geometrical data hold. -/
structure Evaluator (addr : Type) where
  op : PotentialOperator
  mesh : FMesh
  elementCount : Nat
  corners : Nat → List Int
  auxRows : Nat
  auxCols : Nat
  trialShapesets : List addr
  shapeset : addr → Shapeset
  coefficients : List (List ℂ)
  singleRegular : Verif.Quad.Ranges
  sizeOfKernel : Nat
  unset : P3 ℝ
  blank : Data

/-- What the cached arrays hold for one quadrature point: `trialGeomData`, `trialTransfValues` and `weights`. -/
structure Column where
  data : Data
  values : Nat → Nat → ℂ
  weight : ℝ

section
variable {addr : Type} [DecidableEq addr]

/-- `elementCornerCount` of a shapeset (`:288-304`): of the first element that uses it. -/
def Evaluator.cornerCount (E : Evaluator addr) (a : addr) : Nat :=
  match (List.range E.elementCount).find? fun e => decide (E.trialShapesets[e]? = some a) with
  | some e => ((E.corners e).takeWhile fun i => decide (0 ≤ i)).length
  | none => 0

/-- `farFieldQuadratureDescriptor` (`default_quadrature_descriptor_selector_for_potential_operators.cpp:104-121`) and `singleRegular()`
(`accuracy_options.cpp:62-64`); `back()` of an empty vector is undefined. -/
def Evaluator.farField (E : Evaluator addr) (a : addr) : Option Descriptor :=
  match E.singleRegular.getLast? with
  | some r => some ⟨E.cornerCount a, r.2.quadratureOrder (2 * (E.shapeset a).order)⟩
  | none => none

/-- The rule of a shapeset (`:304-313`). -/
def Evaluator.rule (E : Evaluator addr) (a : addr) : Outcome (List QPoint) :=
  match E.farField a with
  | some d => fillSingle d.vertexCount d.order
  | none => .undefined

/-- The argument at one point, for real coefficients (`:339-363`); the code computes only what the transformations ask for. -/
def superpose (s : Shapeset) (co : List ℝ) (p : ℝ × ℝ) : BasisAt :=
  let sum := fun (x : BasisAt → ℝ) => (List.range s.size).foldl (fun v f => v + x (s.shape f p) * co.getD f 0) 0
  ⟨sum BasisAt.v0, sum BasisAt.v1, sum BasisAt.d00, sum BasisAt.d01, sum BasisAt.d10, sum BasisAt.d11⟩

/-- `trialGeomDeps` (`:262-265`); all kernels ask for `GLOBALS`.  The integrand functor is not asked. -/
def Evaluator.geomDeps (E : Evaluator addr) : Deps :=
  ((E.op.transformations.foldl (fun (d : Deps) t => d.or ⟨t.deps, false, false⟩) ⟨{ normals := E.op.kernels.trialNormals }, true, false⟩).or
    ⟨{ integrationElements := true }, false, false⟩)

/-- The data of element `e` for a quadrature point (`:365-410`), with the part of the geometrical data that the kernels ask for, which
is what is copied to the big arrays (`:423-433, 447-461`). -/
def Evaluator.column (E : Evaluator addr) (e : Nat) (s : Shapeset) (co : List ℂ) (q : QPoint) : Column :=
  let d := E.mesh.fill e (q.x, q.y) E.geomDeps E.blank
  { data := ⟨{ E.blank.geom with normal := if E.op.kernels.trialNormals then d.geom.normal else E.blank.geom.normal }, d.global,
      E.blank.domainIndex⟩
    values := fun i c => transformed E.op.transformations (superpose s (co.map Complex.re) (q.x, q.y)) d.geom i c +
      transformed E.op.transformations (superpose s (co.map Complex.im) (q.x, q.y)) d.geom i c * Complex.I
    weight := q.w * d.geom.integrationElement }

/-- The loop over the elements that use the shapeset (`:330-413`): what is kept per element, and `quadPointCount`.  Too few
coefficients: undefined (an assertion, otherwise a read out of range). -/
def Evaluator.elementLoop (E : Evaluator addr) (a : addr) (rule : List QPoint) :
    List Nat → (Nat → List Column) × Nat → Outcome ((Nat → List Column) × Nat)
  | [], st => .ok st
  | e :: es, st =>
    if E.trialShapesets[e]? = some a then
      match E.coefficients[e]? with
      | none => .undefined
      | some co =>
        if co.length < (E.shapeset a).size then .undefined
        else E.elementLoop a rule es
          (Function.update st.1 e (rule.map (E.column e (E.shapeset a) co)), st.2 + rule.length)
    else E.elementLoop a rule es st

/-- The loop over the unique shapesets (`:282-414`), in the order of the set. -/
def Evaluator.shapesetLoop (E : Evaluator addr) : List addr → (Nat → List Column) × Nat → Outcome ((Nat → List Column) × Nat)
  | [], st => .ok st
  | a :: order, st =>
    match E.rule a with
    | .undefined => .undefined
    | .throws m => .throws m
    | .ok rule =>
      match E.elementLoop a rule (List.range E.elementCount) st with
      | .undefined => .undefined
      | .throws m => .throws m
      | .ok st => E.shapesetLoop order st

/-- The copy of the data of one element into the big arrays (`:449-494`). -/
def copyAt (startCol : Nat) (cols : List Column) (big : List Column) : List Column :=
  cols.zipIdx.foldl (fun big cn => big.set (startCol + cn.2) cn.1) big

/-- The loop over the elements that fills the big arrays (`:447-495`). -/
def concatLoop (perElement : Nat → List Column) : List Nat → Nat → List Column → List Column
  | [], _, big => big
  | e :: es, startCol, big => concatLoop perElement es (startCol + (perElement e).length) (copyAt startCol (perElement e) big)

/-- `calcTrialData` (`:244-496`).  The number of columns of an element is that of the values of its first transformation: reading it is
undefined if there is none. -/
def Evaluator.calcTrialData (E : Evaluator addr) (order : List addr) : Outcome (List Column) :=
  match E.shapesetLoop order (fun _ => [], 0) with
  | .undefined => .undefined
  | .throws m => .throws m
  | .ok (perElement, quadPointCount) =>
    if E.elementCount ≠ 0 ∧ E.op.transformations.length = 0 then .undefined
    else .ok (concatLoop perElement (List.range E.elementCount) 0
      (List.replicate quadPointCount ⟨E.blank, fun _ _ => 0, 0⟩))

/-- The cached data. -/
structure Cached where
  far : List Column
  near : List Column

/-- The constructor (`:104-151`) with `cacheTrialData` (`:219-242`); the kernels' test data other than `GLOBALS` are the normals. -/
def Evaluator.construct (E : Evaluator addr) (order : List addr) : Outcome Cached :=
  if 0 < E.auxRows ∧ E.auxCols ≠ E.elementCount then .throws "number of columns of auxData must match that of elementCornerIndices"
  else if E.trialShapesets.length ≠ E.elementCount then
    .throws "size of testShapesetss must match the number of columns of elementCornerIndices"
  else if E.op.kernels.testNormals then
    .throws "potentials cannot contain kernels that depend on other test data than global coordinates"
  else
    match E.calcTrialData order with
    | .undefined => .undefined
    | .throws m => .throws m
    | .ok far =>
      match E.calcTrialData order with
      | .undefined => .undefined
      | .throws m => .throws m
      | .ok near => .ok ⟨far, near⟩

/-- `EvaluatorForIntegralOperators::Region`. -/
inductive Region where
  | near | far
deriving DecidableEq, Repr

/-- `trialGeomData`, `trialTransfValues` and `weights` in `evaluate` (`:166-177`). -/
def Cached.region (d : Cached) : Region → List Column
  | .near => d.near
  | .far => d.far

/-- `chunkSize` (`:184-187`); `none`: division by zero. -/
def Evaluator.chunkSize (E : Evaluator addr) (columns : List Column) : Option Nat :=
  if columns.length * E.sizeOfKernel = 0 then none else some (max 1 (10 * 1024 * 1024 / (columns.length * E.sizeOfKernel)))

/-- The chunks with their columns (`:188, 71-77`): the number of the chunk and that of the point in it. -/
def tasks (chunkSize pointCount : Nat) : List (Nat × Nat) :=
  (List.range ((pointCount + chunkSize - 1) / chunkSize)).flatMap fun i =>
    (List.range (min (chunkSize * i + chunkSize) pointCount - chunkSize * i)).map fun j => (i, j)

/-- `result(dim, evalPoint)` (`default_kernel_trial_integral_imp.hpp:87-97`). -/
def Evaluator.valueAt (E : Evaluator addr) (columns : List Column) (x : P3 ℝ) (dim : Nat) : ℂ :=
  columns.foldl (fun sum q => sum + E.op.functor.evaluate q.data
    (kernelValues E.op.kernels ⟨x, E.unset⟩ ⟨q.data.global, q.data.geom.normal⟩) q.values dim * (q.weight : ℂ)) 0

/-- One point of one chunk (`:70-84`): its column of the result is written. -/
def Evaluator.task (E : Evaluator addr) (columns : List Column) (chunkSize : Nat) (points : Nat → P3 ℝ) (result : Nat → Nat → ℂ)
    (t : Nat × Nat) : Nat → Nat → ℂ := fun dim p =>
  if p = chunkSize * t.1 + t.2 then E.valueAt columns (points p) dim else result dim p

/-- `evaluate` (`:153-197`): the points of the chunks are treated in any order (the chunks run in parallel, and their columns of the
result are different).  `out` is what happens. -/
def Evaluator.Run (E : Evaluator addr) (cached : Cached) (region : Region) (pointCount : Nat) (points : Nat → P3 ℝ)
    (out : Outcome (Mx ℂ)) : Prop :=
  match E.chunkSize (cached.region region) with
  | none => out = .undefined
  | some size => ∃ order : List (Nat × Nat), order.Perm (tasks size pointCount) ∧
    out = .ok ⟨E.op.functor.dim, pointCount, order.foldl (E.task (cached.region region) size points) fun _ _ => 0⟩

end
end
end Verif.Pot
