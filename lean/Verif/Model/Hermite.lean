import Verif.Model.Kernels
import Mathlib.Algebra.Order.Floor.Ring
import Mathlib.Analysis.SpecialFunctions.Log.Basic
/-
Model of the interpolated kernels: lib/fiber/hermite_interpolator.hpp, initialize_interpolator_for_modified_helmholtz_3d_kernels.cpp,
the interpolated kernel functors and lib/grid/max_distance.cpp.  Floating-point numbers are real (complex) numbers, `int` is unbounded.
-/
namespace Verif.Kernel
open Verif.Grid
noncomputable section

/-- The data members of `HermiteInterpolator` (hermite_interpolator.hpp:63-69). -/
structure Hermite where
  start : ℝ
  stop : ℝ
  n : Nat
  interval : ℝ
  values : List ℂ
  derivatives : List ℂ

/-- `HermiteInterpolator::initialize` (hermite_interpolator.hpp:22-42). -/
def Hermite.initialize (start stop : ℝ) (values derivatives : List ℂ) : Except String Hermite :=
  if values.length ≠ derivatives.length then .error "must have the same length"
  else if values.length < 2 then .error "at least two points are required"
  else if stop ≤ start then .error "'start' must be smaller than 'end'"
  else .ok ⟨start, stop, values.length, (stop - start) / ((values.length : ℝ) - 1), values, derivatives⟩

/-- The integral part that `std::modf` stores: truncation towards zero. -/
def truncate (q : ℝ) : ℤ := if 0 ≤ q then ⌊q⌋ else ⌈q⌉

/-- `HermiteInterpolator::evaluate` (hermite_interpolator.hpp:44-61).  `none` is a read outside the vectors.  The assertions are not
modelled (they are absent from release builds); what they assert is part of the theorems. -/
def Hermite.evaluate (h : Hermite) (x : ℝ) : Option ℂ :=
  let q := (x - h.start) / h.interval
  let n := truncate q
  let t : ℝ := q - n
  if n < 0 then none
  else
    match h.values[n.toNat]?, h.values[n.toNat + 1]?, h.derivatives[n.toNat]?, h.derivatives[n.toNat + 1]? with
    | some f1, some f2, some g1, some g2 =>
      let d1 := g1 * h.interval
      let d2 := g2 * h.interval
      let delta := f2 - f1
      let delta1 := d1 - delta
      let delta2 := d2 - delta
      let c2 := -(delta1 + delta1 + delta2)
      let c3 := delta1 + delta2
      some (f1 + t * (d1 + t * (c2 + t * c3)))
    | _, _, _, _ => none

/-- `initializeInterpolatorForModifiedHelmholtz3dKernels`
(initialize_interpolator_for_modified_helmholtz_3d_kernels.cpp:26-45).  For wave number 0 the wavelength is infinite, `maxDist /
wavelength` is 0; here `2 π / 0 = 0` and `maxDist / 0 = 0`. -/
def initializeInterpolator (k : ℂ) (maxDist : ℝ) (ptsPerWavelength : ℤ) : Except String Hermite :=
  let minDist : ℝ := 0
  let wavelength := 2 * Real.pi / ‖k‖
  let pointCount := (truncate ((maxDist - minDist) / wavelength * ptsPerWavelength + 1)).toNat
  let dist := fun i : Nat => minDist + (maxDist - minDist) * i / ((pointCount : ℝ) - 1)
  let values := (List.range pointCount).map fun i => Complex.exp (-k * dist i)
  let derivatives := (List.range pointCount).map fun i => -k * Complex.exp (-k * dist i)
  Hermite.initialize minDist maxDist values derivatives

/-- modified_helmholtz_3d_single_layer_potential_kernel_interpolated_functor.hpp:75-91. -/
def interpSL (H : Hermite) (test trial : Slice) : Option ℂ :=
  let sum := sumSq (test.global.sub trial.global)
  let distance := Real.sqrt sum
  (H.evaluate distance).map fun v => ((1 / (4 * Real.pi) / distance : ℝ) : ℂ) * v

/-- modified_helmholtz_3d_double_layer_potential_kernel_interpolated_functor.hpp:76-95. -/
def interpDL (k : ℂ) (H : Hermite) (test trial : Slice) : Option ℂ :=
  let diff := trial.global.sub test.global
  let distSq := sumSq diff
  let numeratorSum := sumMul diff trial.normal
  let dist := Real.sqrt distSq
  (H.evaluate dist).map fun v => ((numeratorSum / (-4 * Real.pi * distSq * dist) : ℝ) : ℂ) * (k * dist + 1) * v

/-- modified_helmholtz_3d_adjoint_double_layer_potential_kernel_interpolated_functor.hpp:77-96. -/
def interpADL (k : ℂ) (H : Hermite) (test trial : Slice) : Option ℂ :=
  let diff := test.global.sub trial.global
  let distSq := sumSq diff
  let numeratorSum := sumMul diff test.normal
  let dist := Real.sqrt distSq
  (H.evaluate dist).map fun v => ((numeratorSum / (-4 * Real.pi * distSq * dist) : ℝ) : ℂ) * (k * dist + 1) * v

/-- modified_helmholtz_3d_hypersingular_off_diagonal_interpolated_kernel_functor.hpp:77-107. -/
def interpHyp (k : ℂ) (H : Hermite) (test trial : Slice) : Option ℂ :=
  let diff := trial.global.sub test.global
  let distanceSq := sumSq diff
  let nTestDiff := sumMul diff test.normal
  let nTrialDiff := sumMul diff trial.normal
  let nTestNTrial := sumMul test.normal trial.normal
  let distance := Real.sqrt distanceSq
  let kr := k * distance
  (H.evaluate distance).map fun v => ((1 / (4 * Real.pi) / (distance * distanceSq * distanceSq) : ℝ) : ℂ) *
    (((-distanceSq * nTestNTrial : ℝ) : ℂ) * (1 + kr) + ((nTestDiff * nTrialDiff : ℝ) : ℂ) * (3 + 3 * kr + kr * kr)) * v

/-- modified_helmholtz_3d_hypersingular_kernel_interpolated_functor.hpp:73-80: two kernels. -/
def interpHypPair (k : ℂ) (H : Hermite) (test trial : Slice) : Option (ℂ × ℂ) :=
  (interpSL H test trial).map fun r0 => (r0, r0 * k * k)

/-- modified_maxwell_3d_single_layer_boundary_operator_kernel_interpolated_functor.hpp:72-79: two kernels. -/
def interpMaxwellSL (k : ℂ) (H : Hermite) (test trial : Slice) : Option (ℂ × ℂ) :=
  (interpSL H test trial).map fun r0 => (r0 * k, r0 / k)

/-- modified_maxwell_3d_double_layer_operators_kernel_interpolated_functor.hpp:75-97. -/
def interpMaxwellDL (k : ℂ) (H : Hermite) (test trial : Slice) : Option (ℂ × ℂ × ℂ) :=
  let diff := test.global.sub trial.global
  let distanceSq := sumSq diff
  let distance := Real.sqrt distanceSq
  (H.evaluate distance).map fun v =>
    let commonFactor := ((-1 / (4 * Real.pi) : ℝ) : ℂ) * (1 + k * distance) / ((distance * distanceSq : ℝ) : ℂ) * v
    (commonFactor * (diff.x : ℂ), commonFactor * (diff.y : ℂ), commonFactor * (diff.z : ℂ))

/-- The 16 points of `maxDistance` (max_distance.cpp:42-71): the corners of the bounding boxes of the two grids. -/
def boxPoints (l1 u1 l2 u2 : P3 ℝ) : List (P3 ℝ) :=
  [l1, ⟨u1.x, l1.y, l1.z⟩, ⟨l1.x, u1.y, l1.z⟩, ⟨l1.x, l1.y, u1.z⟩, ⟨l1.x, u1.y, u1.z⟩, ⟨u1.x, l1.y, u1.z⟩, ⟨u1.x, u1.y, l1.z⟩, u1,
   l2, ⟨u2.x, l2.y, l2.z⟩, ⟨l2.x, u2.y, l2.z⟩, ⟨l2.x, l2.y, u2.z⟩, ⟨l2.x, u2.y, u2.z⟩, ⟨u2.x, l2.y, u2.z⟩, ⟨u2.x, u2.y, l2.z⟩, u2]

/-- `maxDistance` (max_distance.cpp:73-82) of grids with these bounding boxes, in three dimensions. -/
def maxDistance (l1 u1 l2 u2 : P3 ℝ) : ℝ :=
  let points := boxPoints l1 u1 l2 u2
  (List.range points.length).foldl (fun result i =>
    (List.range' (i + 1) (points.length - (i + 1))).foldl (fun result j =>
      match points[i]?, points[j]? with
      | some p, some q =>
        let diff := p.sub q
        max (Real.sqrt (diff.x * diff.x + diff.y * diff.y + diff.z * diff.z)) result
      | _, _ => result) result) 0

/-- The interpolator of an interpolated boundary operator on grids with these bounding boxes
(modified_helmholtz_operators_imp.hpp:104-109 and maxwell_operators_imp.hpp:78-83). -/
def operatorInterpolator (k : ℂ) (l1 u1 l2 u2 : P3 ℝ) (ptsPerWavelength : ℤ) : Except String Hermite :=
  initializeInterpolator k (1.1 * maxDistance l1 u1 l2 u2) ptsPerWavelength

end
end Verif.Kernel
