import Mathlib.Analysis.SpecialFunctions.Exp
import Mathlib.Analysis.SpecialFunctions.Sqrt
import Mathlib.Analysis.SpecialFunctions.Trigonometric.Basic
import Verif.Model.Inside
/-
Model of the kernel functors of lib/fiber.  Floating-point numbers are real (complex) numbers; functors with
`ValueType = double` are those with complex values and a real wave number.  Loops over the three coordinates are written out, in
the order of the loops.
-/
namespace Verif.Kernel
open Verif.Grid
noncomputable section

/-- The part of `ConstGeometricalDataSlice` that kernels read: a point and the normal at it
(lib/fiber/geometrical_data.hpp). -/
structure Slice where
  global : P3 ℝ
  normal : P3 ℝ

/-- `sum += diff * diff` over the coordinates (as in laplace_3d_single_layer_potential_kernel_functor.hpp:66-71). -/
def sumSq (d : P3 ℝ) : ℝ := 0 + d.x * d.x + d.y * d.y + d.z * d.z

/-- `sum += a * b` over the coordinates (as in laplace_3d_double_layer_potential_kernel_functor.hpp:67-73). -/
def sumMul (a b : P3 ℝ) : ℝ := 0 + a.x * b.x + a.y * b.y + a.z * b.z

/-- laplace_3d_single_layer_potential_kernel_functor.hpp:59-73. -/
def laplaceSL (test trial : Slice) : ℝ :=
  let sum := sumSq (test.global.sub trial.global)
  1 / (4 * Real.pi) / Real.sqrt sum

/-- laplace_3d_double_layer_potential_kernel_functor.hpp:59-77. -/
def laplaceDL (test trial : Slice) : ℝ :=
  let diff := trial.global.sub test.global
  let distanceSq := sumSq diff
  let numeratorSum := sumMul diff trial.normal
  let distance := Real.sqrt distanceSq
  (-numeratorSum) / (4 * Real.pi * distance * distanceSq)

/-- laplace_3d_adjoint_double_layer_potential_kernel_functor.hpp:60-78. -/
def laplaceADL (test trial : Slice) : ℝ :=
  let diff := test.global.sub trial.global
  let distanceSq := sumSq diff
  let numeratorSum := sumMul diff test.normal
  let distance := Real.sqrt distanceSq
  (-numeratorSum) / (4 * Real.pi * distanceSq * distance)

/-- laplace_3d_hypersingular_off_diagonal_kernel_functor.hpp:61-89. -/
def laplaceHyp (test trial : Slice) : ℝ :=
  let diff := trial.global.sub test.global
  let distanceSq := sumSq diff
  let nTestDiff := sumMul diff test.normal
  let nTrialDiff := sumMul diff trial.normal
  let nTestNTrial := sumMul test.normal trial.normal
  let distance := Real.sqrt distanceSq
  let commonFactor := -1 / (4 * Real.pi) / (distance * distanceSq * distanceSq)
  commonFactor * (nTestNTrial * distanceSq - 3 * nTestDiff * nTrialDiff)

/-- laplace_3d_single_layer_gradient_potential_kernel_functor.hpp:60-80. -/
def laplaceSLGrad (test trial : Slice) : P3 ℝ :=
  let diff := test.global.sub trial.global
  let sum := sumSq diff
  let sqrtSum := Real.sqrt sum
  let factor := -(1 / (4 * Real.pi)) / (sqrtSum * sqrtSum * sqrtSum)
  ⟨diff.x * factor, diff.y * factor, diff.z * factor⟩

/-- laplace_3d_double_layer_gradient_potential_kernel_functor.hpp:60-100 (the values; for the assertion on line 66 see
`laplaceDLGradFunctor`). -/
def laplaceDLGrad (test trial : Slice) : P3 ℝ :=
  let normal := trial.normal
  let diff := test.global.sub trial.global
  let sum := sumSq diff
  let sqrtSum := Real.sqrt sum
  let factor := 0 + normal.x * diff.x * 3 / sum + normal.y * diff.y * 3 / sum + normal.z * diff.z * 3 / sum
  ⟨1 / (4 * Real.pi) * (normal.x - factor * diff.x) / (sum * sqrtSum),
   1 / (4 * Real.pi) * (normal.y - factor * diff.y) / (sum * sqrtSum),
   1 / (4 * Real.pi) * (normal.z - factor * diff.z) / (sum * sqrtSum)⟩

/-- modified_helmholtz_3d_single_layer_potential_kernel_functor.hpp:69-82. -/
def helmholtzSL (k : ℂ) (test trial : Slice) : ℂ :=
  let sum := sumSq (test.global.sub trial.global)
  let distance := Real.sqrt sum
  ((1 / (4 * Real.pi) : ℝ) : ℂ) / (distance : ℂ) * Complex.exp (-k * distance)

/-- modified_helmholtz_3d_double_layer_potential_kernel_functor.hpp:69-88. -/
def helmholtzDL (k : ℂ) (test trial : Slice) : ℂ :=
  let diff := trial.global.sub test.global
  let denominatorSum := sumSq diff
  let numeratorSum := sumMul diff trial.normal
  let distance := Real.sqrt denominatorSum
  ((-numeratorSum / (4 * Real.pi * denominatorSum) : ℝ) : ℂ) * (k + ((1 / distance : ℝ) : ℂ)) * Complex.exp (-k * distance)

/-- modified_helmholtz_3d_adjoint_double_layer_potential_kernel_functor.hpp:70-89. -/
def helmholtzADL (k : ℂ) (test trial : Slice) : ℂ :=
  let diff := test.global.sub trial.global
  let denominatorSum := sumSq diff
  let numeratorSum := sumMul diff test.normal
  let distance := Real.sqrt denominatorSum
  ((-numeratorSum / (4 * Real.pi * denominatorSum) : ℝ) : ℂ) * (k + ((1 / distance : ℝ) : ℂ)) * Complex.exp (-k * distance)

/-- modified_helmholtz_3d_hypersingular_off_diagonal_kernel_functor.hpp:68-97. -/
def helmholtzHyp (k : ℂ) (test trial : Slice) : ℂ :=
  let diff := trial.global.sub test.global
  let distanceSq := sumSq diff
  let nTestDiff := sumMul diff test.normal
  let nTrialDiff := sumMul diff trial.normal
  let nTestNTrial := sumMul test.normal trial.normal
  let distance := Real.sqrt distanceSq
  let kr := k * distance
  ((1 / (4 * Real.pi) / (distance * distanceSq * distanceSq) : ℝ) : ℂ) *
    (((-distanceSq * nTestNTrial : ℝ) : ℂ) * (1 + kr) + ((nTestDiff * nTrialDiff : ℝ) : ℂ) * (3 + 3 * kr + kr * kr)) *
    Complex.exp (-kr)

/-- modified_helmholtz_3d_hypersingular_kernel_functor.hpp:70-77: two kernels. -/
def helmholtzHypPair (k : ℂ) (test trial : Slice) : ℂ × ℂ :=
  let r0 := helmholtzSL k test trial
  (r0, r0 * k * k)

/-- modified_helmholtz_3d_far_field_single_layer_potential_kernel_functor.hpp:67-77. -/
def farSL (k : ℂ) (test trial : Slice) : ℂ :=
  let xy := sumMul test.global trial.global
  ((1 / (4 * Real.pi) : ℝ) : ℂ) * Complex.exp (k * xy)

/-- modified_helmholtz_3d_far_field_double_layer_potential_kernel_functor.hpp:67-81. -/
def farDL (k : ℂ) (test trial : Slice) : ℂ :=
  let xy := sumMul test.global trial.global
  let xny := sumMul test.global trial.normal
  ((1 / (4 * Real.pi) : ℝ) : ℂ) * k * xny * Complex.exp (k * xy)

/-- modified_maxwell_3d_double_layer_operators_kernel_functor.hpp:74-95. -/
def maxwellDL (k : ℂ) (test trial : Slice) : ℂ × ℂ × ℂ :=
  let diff := test.global.sub trial.global
  let distanceSq := sumSq diff
  let distance := Real.sqrt distanceSq
  let commonFactor := ((-1 / (4 * Real.pi) : ℝ) : ℂ) * (1 + k * distance) / ((distance * distanceSq : ℝ) : ℂ) *
    Complex.exp (-k * distance)
  (commonFactor * (diff.x : ℂ), commonFactor * (diff.y : ℂ), commonFactor * (diff.z : ℂ))

/-- modified_maxwell_3d_single_layer_boundary_operator_kernel_functor.hpp:72-79: two kernels. -/
def maxwellSL (k : ℂ) (test trial : Slice) : ℂ × ℂ :=
  let r0 := helmholtzSL k test trial
  (r0 * k, r0 / k)

/-- modified_maxwell_3d_single_layer_potential_operator_kernel_functor.hpp:74-98: a scalar and a vector kernel. -/
def maxwellSLPot (k : ℂ) (test trial : Slice) : ℂ × ℂ × ℂ × ℂ :=
  let diff := test.global.sub trial.global
  let distanceSq := sumSq diff
  let distance := Real.sqrt distanceSq
  let scaledExponential := Complex.exp (-k * distance) / ((4 * Real.pi * distance : ℝ) : ℂ)
  let commonFactor := -scaledExponential / (k * distanceSq) * (1 + k * distance)
  (k * scaledExponential, commonFactor * (diff.x : ℂ), commonFactor * (diff.y : ℂ), commonFactor * (diff.z : ℂ))

/-- modified_maxwell_3d_far_field_double_layer_potential_operator_kernel_functor.hpp:66-79. -/
def maxwellFarDL (k : ℂ) (test trial : Slice) : ℂ × ℂ × ℂ :=
  let xy := sumMul test.global trial.global
  let commonFactor := ((-1 / (4 * Real.pi) : ℝ) : ℂ) * k * Complex.exp (k * xy)
  ((test.global.x : ℂ) * commonFactor, (test.global.y : ℂ) * commonFactor, (test.global.z : ℂ) * commonFactor)

/-- modified_maxwell_3d_far_field_single_layer_potential_operator_kernel_functor.hpp:71-86. -/
def maxwellFarSL (k : ℂ) (test trial : Slice) : ℂ × ℂ × ℂ × ℂ :=
  let xy := sumMul test.global trial.global
  let commonFactor := ((1 / (4 * Real.pi) : ℝ) : ℂ) * Complex.exp (k * xy)
  (k * commonFactor, -(test.global.x : ℂ) * commonFactor, -(test.global.y : ℂ) * commonFactor,
    -(test.global.z : ℂ) * commonFactor)

/-- `estimateRelativeScale` of the Helmholtz and Maxwell functors
(modified_helmholtz_3d_single_layer_potential_kernel_functor.hpp:84-86 and the same lines in the others). -/
def estimateRelativeScale (k : ℂ) (distance : ℝ) : ℝ := Real.exp (-k.re * distance)

/-- What a kernel functor declares (`kernelCount`, `kernelRowCount`, `addGeometricalDependencies`: whether normals are asked for
besides global coordinates; `kernelColCount` is 1 everywhere), the size of `result` it asserts, and the columns it writes. -/
structure Functor where
  kernelCount : Nat
  kernelRowCount : Nat → Nat
  testNormals : Bool
  trialNormals : Bool
  assertedSize : Option Nat
  evaluate : Slice → Slice → List (List ℂ)

/-- The kernel functors, in the order of the definitions above; the declarations are those preceding `evaluate` in each file. -/
def laplaceSLFunctor : Functor :=
  ⟨1, fun _ => 1, false, false, some 1, fun s t => [[((laplaceSL s t : ℝ) : ℂ)]]⟩
/-- laplace_3d_double_layer_potential_kernel_functor.hpp:48-77. -/
def laplaceDLFunctor : Functor :=
  ⟨1, fun _ => 1, false, true, some 1, fun s t => [[((laplaceDL s t : ℝ) : ℂ)]]⟩
/-- laplace_3d_adjoint_double_layer_potential_kernel_functor.hpp:49-78. -/
def laplaceADLFunctor : Functor :=
  ⟨1, fun _ => 1, true, false, some 1, fun s t => [[((laplaceADL s t : ℝ) : ℂ)]]⟩
/-- laplace_3d_hypersingular_off_diagonal_kernel_functor.hpp:50-89. -/
def laplaceHypFunctor : Functor :=
  ⟨1, fun _ => 1, true, true, some 1, fun s t => [[((laplaceHyp s t : ℝ) : ℂ)]]⟩
/-- laplace_3d_single_layer_gradient_potential_kernel_functor.hpp:49-80. -/
def laplaceSLGradFunctor : Functor :=
  ⟨1, fun _ => 3, false, false, some 1, fun s t =>
    let g := laplaceSLGrad s t; [[((g.x : ℝ) : ℂ), ((g.y : ℝ) : ℂ), ((g.z : ℝ) : ℂ)]]⟩
/-- laplace_3d_double_layer_gradient_potential_kernel_functor.hpp:49-100; line 66 asserts `result.size() == 3`. -/
def laplaceDLGradFunctor : Functor :=
  ⟨1, fun _ => 3, false, true, some 3, fun s t =>
    let g := laplaceDLGrad s t; [[((g.x : ℝ) : ℂ), ((g.y : ℝ) : ℂ), ((g.z : ℝ) : ℂ)]]⟩
/-- modified_helmholtz_3d_single_layer_potential_kernel_functor.hpp:56-82. -/
def helmholtzSLFunctor (k : ℂ) : Functor :=
  ⟨1, fun _ => 1, false, false, none, fun s t => [[helmholtzSL k s t]]⟩
/-- modified_helmholtz_3d_double_layer_potential_kernel_functor.hpp:56-88. -/
def helmholtzDLFunctor (k : ℂ) : Functor :=
  ⟨1, fun _ => 1, false, true, none, fun s t => [[helmholtzDL k s t]]⟩
/-- modified_helmholtz_3d_adjoint_double_layer_potential_kernel_functor.hpp:57-89. -/
def helmholtzADLFunctor (k : ℂ) : Functor :=
  ⟨1, fun _ => 1, true, false, none, fun s t => [[helmholtzADL k s t]]⟩
/-- modified_helmholtz_3d_hypersingular_off_diagonal_kernel_functor.hpp:55-97. -/
def helmholtzHypFunctor (k : ℂ) : Functor :=
  ⟨1, fun _ => 1, true, true, none, fun s t => [[helmholtzHyp k s t]]⟩
/-- modified_helmholtz_3d_hypersingular_kernel_functor.hpp:58-77. -/
def helmholtzHypPairFunctor (k : ℂ) : Functor :=
  ⟨2, fun _ => 1, false, false, none, fun s t => [[(helmholtzHypPair k s t).1], [(helmholtzHypPair k s t).2]]⟩
/-- modified_helmholtz_3d_far_field_single_layer_potential_kernel_functor.hpp:54-77. -/
def farSLFunctor (k : ℂ) : Functor :=
  ⟨1, fun _ => 1, false, false, none, fun s t => [[farSL k s t]]⟩
/-- modified_helmholtz_3d_far_field_double_layer_potential_kernel_functor.hpp:54-81. -/
def farDLFunctor (k : ℂ) : Functor :=
  ⟨1, fun _ => 1, false, true, none, fun s t => [[farDL k s t]]⟩
/-- modified_maxwell_3d_double_layer_operators_kernel_functor.hpp:61-95. -/
def maxwellDLFunctor (k : ℂ) : Functor :=
  ⟨1, fun _ => 3, false, false, none, fun s t => let v := maxwellDL k s t; [[v.1, v.2.1, v.2.2]]⟩
/-- modified_maxwell_3d_single_layer_boundary_operator_kernel_functor.hpp:60-79. -/
def maxwellSLFunctor (k : ℂ) : Functor :=
  ⟨2, fun _ => 1, false, false, none, fun s t => [[(maxwellSL k s t).1], [(maxwellSL k s t).2]]⟩
/-- modified_maxwell_3d_single_layer_potential_operator_kernel_functor.hpp:61-98. -/
def maxwellSLPotFunctor (k : ℂ) : Functor :=
  ⟨2, fun i => if i = 0 then 1 else 3, false, false, none, fun s t =>
    let v := maxwellSLPot k s t; [[v.1], [v.2.1, v.2.2.1, v.2.2.2]]⟩
/-- modified_maxwell_3d_far_field_double_layer_potential_operator_kernel_functor.hpp:53-79. -/
def maxwellFarDLFunctor (k : ℂ) : Functor :=
  ⟨1, fun _ => 3, false, false, none, fun s t => let v := maxwellFarDL k s t; [[v.1, v.2.1, v.2.2]]⟩
/-- modified_maxwell_3d_far_field_single_layer_potential_operator_kernel_functor.hpp:58-86. -/
def maxwellFarSLFunctor (k : ℂ) : Functor :=
  ⟨2, fun i => if i = 0 then 1 else 3, false, false, none, fun s t =>
    let v := maxwellFarSL k s t; [[v.1], [v.2.1, v.2.2.1, v.2.2.2]]⟩

/-- All of them, for a wave number. -/
def functors (k : ℂ) : List Functor :=
  [laplaceSLFunctor, laplaceDLFunctor, laplaceADLFunctor, laplaceHypFunctor, laplaceSLGradFunctor, laplaceDLGradFunctor,
   helmholtzSLFunctor k, helmholtzDLFunctor k, helmholtzADLFunctor k, helmholtzHypFunctor k, helmholtzHypPairFunctor k,
   farSLFunctor k, farDLFunctor k, maxwellDLFunctor k, maxwellSLFunctor k, maxwellSLPotFunctor k, maxwellFarDLFunctor k,
   maxwellFarSLFunctor k]

end
end Verif.Kernel
