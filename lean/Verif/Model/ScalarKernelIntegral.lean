import Mathlib.Algebra.Star.BigOperators
import Mathlib.Algebra.BigOperators.Intervals
import Mathlib.Data.Complex.Basic
import Mathlib.Data.Real.Star
/-
Model of lib/fiber/typical_test_scalar_kernel_trial_integral.cpp, lib/fiber/default_test_kernel_trial_integral_imp.hpp and
lib/fiber/test_scalar_kernel_trial_integrand_functor.hpp: the quadrature sums behind the local matrices of boundary integral
operators, with the memory layout of the arrays and of the temporary buffers.

The three C++ number types are all embedded in `K`, a commutative ring with conjugation (`star`): a real C++ type is one whose
values are fixed by `star`.  A block of memory is a function of the offset; what it holds where nothing has been written is
arbitrary, so a result that does not depend on it is one that is computed from initialised and in-range memory only.  An
`Option` is `none` where a collection of arrays is indexed out of range.
-/
namespace Verif.Integral

open Finset

/-- `_3dArray` (`lib/fiber/_3d_array.hpp:46-97`): extents and storage. -/
structure Array3 (K : Type) where
  ext0 : Nat
  ext1 : Nat
  ext2 : Nat
  data : Nat → K

/-- `operator()` (`lib/fiber/_3d_array_imp.hpp:97-114`). -/
def Array3.get {K : Type} (a : Array3 K) (i j k : Nat) : K := a.data (i + a.ext0 * j + a.ext0 * a.ext1 * k)

/-- `_4dArray` (`lib/fiber/_4d_array.hpp`). -/
structure Array4 (K : Type) where
  ext0 : Nat
  ext1 : Nat
  ext2 : Nat
  ext3 : Nat
  data : Nat → K

/-- `operator()` (`lib/fiber/_4d_array_imp.hpp:118-127`). -/
def Array4.get {K : Type} (a : Array4 K) (i j k l : Nat) : K :=
  a.data (i + a.ext0 * j + a.ext0 * a.ext1 * k + a.ext0 * a.ext1 * a.ext2 * l)

/-- `Eigen::Map<Matrix<...>>(begin, rows, cols)` is column-major: entry `(i, j)`. -/
def mapped {K : Type} (begin : Nat → K) (rows i j : Nat) : K := begin (i + rows * j)

section
variable {K : Type} [CommRing K] [StarRing K]

/-- The entry `(i, j)` of `A * B.adjoint()`, where `A` and `B` have `n` columns. -/
def mulAdjoint (n : Nat) (A B : Nat → Nat → K) (i j : Nat) : K := ∑ c ∈ range n, A i c * star (B j c)

/-- The entry `(i, j)` of `A * B`, where `A` has `n` columns. -/
def mulPlain (n : Nat) (A B : Nat → Nat → K) (i j : Nat) : K := ∑ c ∈ range n, A i c * B c j

/-- The loop of `outOfPlaceConjugateTransposeDimAndDofDimensions` and of the two functions
`outOfPlaceMultiplyByWeightsAndConjugateTransposeDimAndDofDimensions` (`:43-143`): for each point the `transDim × dofCount`
slice `origMat` of `values` is written, transposed, to the slice `transposedMat` of `tmp`; `g point x` is what becomes of the
entry `x` (its conjugate, times the weight of the point). -/
def transposeSlices (values : Array3 K) (g : Nat → K → K) (tmp : Nat → K) : Nat → K :=
  let transDim := values.ext0
  let dofCount := values.ext1
  let sliceSize := transDim * dofCount
  (List.range values.ext2).foldl (fun (dest : Nat → K) point => fun k =>
      let start := sliceSize * point
      if start ≤ k ∧ k < start + sliceSize then
        let dof := (k - start) % dofCount
        let dim := (k - start) / dofCount
        g point (mapped (fun o => values.data (start + o)) transDim dim dof)
      else dest k) tmp

/-- What the loop over `transIndex` carries from one iteration to the next. -/
structure LoopState (K : Type) where
  products : Nat → K
  tmpTest : Nat → K
  tmpTrial : Nat → K
  result : Nat → Nat → K

/-- `products`: recomputed in the first iteration, and in the others if there are several kernels (`:199-206`). -/
def newProducts (testJ trialJ quadWeights : Nat → K) (pointCount : Nat) (kernelValues : List (Array3 K))
    (products : Nat → K) (transIndex : Nat) : Option (Nat → K) :=
  if transIndex = 0 ∨ 1 < kernelValues.length then
    (kernelValues[transIndex]?).map fun kernel => fun point => if point < pointCount then
      star (kernel.get 0 0 point) * testJ point * trialJ point * quadWeights point else products point
  else some products

/-- One iteration of `evaluateWithNontensorQuadratureRuleStandardImpl` (`:195-224`). -/
def nontensorStep (testJ trialJ quadWeights : Nat → K) (pointCount testDofCount trialDofCount : Nat)
    (testValues trialValues kernelValues : List (Array3 K)) (s : LoopState K) (transIndex : Nat) : Option (LoopState K) := do
  let test ← testValues[transIndex]?
  let trial ← trialValues[transIndex]?
  let transDim := test.ext0
  let products ← newProducts testJ trialJ quadWeights pointCount kernelValues s.products transIndex
  let tmpTest := transposeSlices test (fun _ x => star x) s.tmpTest
  let tmpTrial := transposeSlices trial (fun point x => products point * star x) s.tmpTrial
  let matTest := mapped tmpTest testDofCount
  let matTrial := mapped tmpTrial trialDofCount
  return ⟨products, tmpTest, tmpTrial,
    fun i j => s.result i j + mulAdjoint (pointCount * transDim) matTest matTrial i j⟩

/-- `evaluateWithNontensorQuadratureRuleStandardImpl` (`:154-226`).  `uninit` is what the temporary buffers hold at first;
`result.setZero()` is the zero of the initial state. -/
def nontensor (testJ trialJ quadWeights : Nat → K) (pointCount : Nat)
    (testValues trialValues kernelValues : List (Array3 K)) (uninit : LoopState K) : Option (Nat → Nat → K) := do
  let transCount := testValues.length
  let test0 ← testValues[0]?
  let trial0 ← trialValues[0]?
  let s ← (List.range transCount).foldlM
    (nontensorStep testJ trialJ quadWeights pointCount test0.ext1 trial0.ext1 testValues trialValues kernelValues)
    { uninit with result := fun _ _ => 0 }
  return s.result

/-- One iteration of `evaluateWithTensorQuadratureRuleImpl` (`:287-345`).  The buffers are called `tmpReordered` and
`tmpIntermediate` in the code, here `tmpTest` and `tmpTrial`. -/
def tensorStep (testJ trialJ testWeights trialWeights : Nat → K) (testPointCount trialPointCount testDofCount trialDofCount : Nat)
    (testValues trialValues : List (Array3 K)) (kernelValues : List (Array4 K)) (s : LoopState K) (transIndex : Nat) :
    Option (LoopState K) := do
  let test ← testValues[transIndex]?
  let trial ← trialValues[transIndex]?
  let transDim := test.ext0
  let kernel ← kernelValues[if kernelValues.length = 1 then 0 else transIndex]?
  let matKernel := mapped kernel.data testPointCount
  let weightedTest := fun (point : Nat) (x : K) => (testJ point * testWeights point) * star x
  let weightedTrial := fun (point : Nat) (x : K) => (trialJ point * trialWeights point) * star x
  if trialDofCount ≤ testDofCount then
    let tmpReordered := transposeSlices trial weightedTrial s.tmpTest
    let matTrial := mapped tmpReordered (trialDofCount * transDim)
    -- matTmp = matTrial * matKernel.adjoint(), stored column by column
    let tmpIntermediate := fun k => if k < trialDofCount * transDim * testPointCount then
        mulAdjoint trialPointCount matTrial matKernel (k % (trialDofCount * transDim)) (k / (trialDofCount * transDim))
      else s.tmpTrial k
    let shuffledMatTmp := mapped tmpIntermediate trialDofCount
    let tmpReordered := transposeSlices test weightedTest tmpReordered
    let matTest := mapped tmpReordered testDofCount
    return ⟨s.products, tmpReordered, tmpIntermediate,
      fun i j => s.result i j + mulAdjoint (transDim * testPointCount) matTest shuffledMatTmp i j⟩
  else
    let tmpReordered := transposeSlices test weightedTest s.tmpTest
    let matTest := mapped tmpReordered (testDofCount * transDim)
    -- matTmp = matTest * matKernel, stored column by column
    let tmpIntermediate := fun k => if k < testDofCount * transDim * trialPointCount then
        mulPlain testPointCount matTest matKernel (k % (testDofCount * transDim)) (k / (testDofCount * transDim))
      else s.tmpTrial k
    let shuffledMatTmp := mapped tmpIntermediate testDofCount
    let tmpReordered := transposeSlices trial weightedTrial tmpReordered
    let matTrial := mapped tmpReordered trialDofCount
    return ⟨s.products, tmpReordered, tmpIntermediate,
      fun i j => s.result i j + mulAdjoint (transDim * trialPointCount) shuffledMatTmp matTrial i j⟩

/-- `evaluateWithTensorQuadratureRuleImpl` (`:228-346`). -/
def tensor (testJ trialJ testWeights trialWeights : Nat → K) (testPointCount trialPointCount : Nat)
    (testValues trialValues : List (Array3 K)) (kernelValues : List (Array4 K)) (uninit : LoopState K) :
    Option (Nat → Nat → K) := do
  let transCount := testValues.length
  let test0 ← testValues[0]?
  let trial0 ← trialValues[0]?
  let s ← (List.range transCount).foldlM
    (tensorStep testJ trialJ testWeights trialWeights testPointCount trialPointCount test0.ext1 trial0.ext1
      testValues trialValues kernelValues)
    { uninit with result := fun _ _ => 0 }
  return s.result

/-! ### The integrand functor and the default integral -/

/-- `TestScalarKernelTrialIntegrandFunctor::evaluate` (`lib/fiber/test_scalar_kernel_trial_integrand_functor.hpp:55-92`).
`test t dim`, `trial t dim` are the slices of the values at a dof and a point, `dims[t]` the dimension of the transformation,
`kernels[t]` the value of the kernel. -/
def functor (dims : List Nat) (test trial : Nat → Nat → K) (kernels : List K) : Option K :=
  (List.range dims.length).foldlM (fun result transIndex => do
    let transDim ← dims[transIndex]?
    let dotProduct := (List.range transDim).foldl (fun s dim => s + star (test transIndex dim) * trial transIndex dim) 0
    let kernel ← kernels[if dims.length = 1 then 0 else transIndex]?
    return result + dotProduct * kernel) 0

/-- The value of the functor at a dof pair and a pair of points (`const_slice` of the collections). -/
def functorAt (testValues trialValues : List (Array3 K)) (kernels : List K) (testDof testPoint trialDof trialPoint : Nat) :
    Option K :=
  functor (testValues.map Array3.ext0)
    (fun t dim => ((testValues[t]?).map fun a => a.get dim testDof testPoint).getD 0)
    (fun t dim => ((trialValues[t]?).map fun a => a.get dim trialDof trialPoint).getD 0) kernels

/-- `DefaultTestKernelTrialIntegral::evaluateWithNontensorQuadratureRule` with this functor: the entry
`result(testDof, trialDof)` (`lib/fiber/default_test_kernel_trial_integral_imp.hpp:100-144`). -/
def defaultNontensor (testJ trialJ quadWeights : Nat → K) (pointCount : Nat)
    (testValues trialValues kernelValues : List (Array3 K)) (testDof trialDof : Nat) : Option K :=
  (List.range pointCount).foldlM (fun sum point => do
    let v ← functorAt testValues trialValues (kernelValues.map fun a => a.get 0 0 point) testDof point trialDof point
    return sum + v * (testJ point * trialJ point * quadWeights point)) 0

/-- `DefaultTestKernelTrialIntegral::evaluateWithTensorQuadratureRule` with this functor (`:42-98`). -/
def defaultTensor (testJ trialJ testWeights trialWeights : Nat → K) (testPointCount trialPointCount : Nat)
    (testValues trialValues : List (Array3 K)) (kernelValues : List (Array4 K)) (testDof trialDof : Nat) : Option K :=
  (List.range trialPointCount).foldlM (fun sum trialPoint => do
    let partialSum ← (List.range testPointCount).foldlM (fun partialSum testPoint => do
      let v ← functorAt testValues trialValues (kernelValues.map fun a => a.get 0 0 testPoint trialPoint)
        testDof testPoint trialDof trialPoint
      return partialSum + v * (testJ testPoint * testWeights testPoint)) 0
    return sum + partialSum * (trialJ trialPoint * trialWeights trialPoint)) 0

end

/-! ### Real basis functions and a complex kernel -/

/-- What the loop over `transIndex` carries from one iteration to the next. -/
structure SplitState where
  productsReal : Nat → ℝ
  productsImag : Nat → ℝ
  tmpTest : Nat → ℝ
  tmpTrial : Nat → ℝ
  matResultReal : Nat → Nat → ℝ
  matResultImag : Nat → Nat → ℝ

/-- `productsReal` and `productsImag` (`:436-446`). -/
noncomputable def newSplitProducts (testJ trialJ quadWeights : Nat → ℝ) (pointCount : Nat) (kernelValues : List (Array3 ℂ))
    (products : (Nat → ℝ) × (Nat → ℝ)) (transIndex : Nat) : Option ((Nat → ℝ) × (Nat → ℝ)) :=
  if transIndex = 0 ∨ 1 < kernelValues.length then
    (kernelValues[transIndex]?).map fun kernel =>
      let partialProduct := fun point => testJ point * trialJ point * quadWeights point
      (fun point => if point < pointCount then (kernel.get 0 0 point).re * partialProduct point else products.1 point,
        fun point => if point < pointCount then (kernel.get 0 0 point).im * partialProduct point else products.2 point)
  else some products

/-- One iteration of the specialisation of `evaluateWithNontensorQuadratureRule` for real basis functions and complex kernels
(`:432-482`). -/
noncomputable def splitStep (testJ trialJ quadWeights : Nat → ℝ) (pointCount testDofCount trialDofCount : Nat)
    (testValues trialValues : List (Array3 ℝ)) (kernelValues : List (Array3 ℂ)) (s : SplitState) (transIndex : Nat) :
    Option SplitState := do
  let test ← testValues[transIndex]?
  let trial ← trialValues[transIndex]?
  let transDim := test.ext0
  let products ← newSplitProducts testJ trialJ quadWeights pointCount kernelValues (s.productsReal, s.productsImag) transIndex
  let tmpTest := transposeSlices test (fun _ x => star x) s.tmpTest
  let matTest := mapped tmpTest testDofCount
  let tmpTrialR := transposeSlices trial (fun point x => products.1 point * star x) s.tmpTrial
  let real := fun i j => mulAdjoint (pointCount * transDim) matTest (mapped tmpTrialR trialDofCount) i j
  let tmpTrialI := transposeSlices trial (fun point x => products.2 point * star x) tmpTrialR
  let imag := fun i j => mulAdjoint (pointCount * transDim) matTest (mapped tmpTrialI trialDofCount) i j
  return ⟨products.1, products.2, tmpTest, tmpTrialI,
    if transIndex = 0 then real else fun i j => s.matResultReal i j + real i j,
    if transIndex = 0 then imag else fun i j => s.matResultImag i j + imag i j⟩

/-- `evaluateWithNontensorQuadratureRule` for real basis functions and complex kernels (`:382-488`). -/
noncomputable def splitNontensor (testJ trialJ quadWeights : Nat → ℝ) (pointCount : Nat)
    (testValues trialValues : List (Array3 ℝ)) (kernelValues : List (Array3 ℂ)) (uninit : SplitState) :
    Option (Nat → Nat → ℂ) := do
  let transCount := testValues.length
  let test0 ← testValues[0]?
  let trial0 ← trialValues[0]?
  let s ← (List.range transCount).foldlM
    (splitStep testJ trialJ quadWeights pointCount test0.ext1 trial0.ext1 testValues trialValues kernelValues) uninit
  return fun i j => ⟨s.matResultReal i j, s.matResultImag i j⟩

end Verif.Integral
