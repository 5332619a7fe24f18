import Mathlib.Analysis.SpecialFunctions.Trigonometric.Basic
/-
Model of the Chebyshev tools of the FMM: lib/fmm/chebychev_tools_impl.hpp and their wrapper cython/bempp/core/fmm/chebychev_tools.pyx
(python/bempp/api/_fmm/chebychev_tools.py passes all arguments on).

Floating-point numbers are real numbers.  A division by zero is 0 here and infinite or nan there; the results of such divisions are not
used.  Vectors are functions of the index with a length; a call with vectors of the wrong length is undefined behaviour (`none`).
-/
namespace Verif.Cheb
noncomputable section

/-- `Vector<double>`. -/
structure Vec where
  size : Nat
  at' : Nat → ℝ

/-- `ChebychevTools`: the members. -/
structure Tools where
  terms : Nat
  nodes : Nat → ℝ
  weights : Nat → ℝ
  diff : Nat → Nat → ℝ

/-- `m_nodes` (chebychev_tools_impl.hpp:14-16). -/
def mkNodes (order : Nat) : Nat → ℝ := fun m => Real.cos (Real.pi * m / order)

/-- `sign` (chebychev_tools_impl.hpp:19-23): the signs that the loop writes. -/
def signs : Nat → ℝ
  | 0 => 1
  | k + 1 => signs k * -1

/-- `m_barycentricWeights` (chebychev_tools_impl.hpp:18-25). -/
def mkWeights (order : Nat) : Nat → ℝ :=
  let w := Function.update signs 0 (1 / 2)
  Function.update w order (w order * (1 / 2))

/-- `diffWeights` (chebychev_tools_impl.hpp:27-29). -/
def diffWeights (order : Nat) : Nat → ℝ :=
  let w := Function.update (mkWeights order) 0 (mkWeights order 0 * 4)
  Function.update w order (w order * 4)

/-- The quotient that is `m_chebDiffMatrix` at first (chebychev_tools_impl.hpp:30-35). -/
def quotient (order i j : Nat) : ℝ :=
  diffWeights order i * (1 / diffWeights order j) / ((mkNodes order i - mkNodes order j) + if i = j then 1 else 0)

/-- A loop that sums. -/
def sumLoop (n : Nat) (f : Nat → ℝ) : ℝ := (List.range n).foldl (fun s j => s + f j) 0

/-- `m_chebDiffMatrix` (chebychev_tools_impl.hpp:33-37). -/
def mkDiff (order i j : Nat) : ℝ := quotient order i j - if i = j then sumLoop (order + 1) (quotient order i) else 0

/-- The constructor (chebychev_tools_impl.hpp:10-38). -/
def mkTools (order : Nat) : Tools := ⟨1 + order, mkNodes order, mkWeights order, mkDiff order⟩

/-- What the constructor of the wrapper does. -/
inductive Created where
  | ValueError
  | undefined
  | ok (t : Tools)

/-- `__init__` (chebychev_tools.pyx:13-16): only the order 0 is refused; with a negative order the C++ constructor accesses vectors outside
their bounds. -/
def create (order : Int) : Created :=
  if order = 0 then .ValueError
  else if order < 0 then .undefined
  else .ok (mkTools order.toNat)

/-- The variables of the loop for one point: `numer`, `denom`, `exact`. -/
structure Acc where
  numer : ℝ
  denom : ℝ
  exact : Nat

open Classical in
/-- The body of the loop (chebychev_tools_impl.hpp:57-65). -/
def Tools.step (t : Tools) (w : Nat → ℝ) (x : ℝ) (a : Acc) (j : Nat) : Acc :=
  let tmp := t.weights j / (x - t.nodes j)
  ⟨a.numer + tmp * w j, a.denom + tmp, if x - t.nodes j = 0 then 1 + j else a.exact⟩

/-- The value at one point (chebychev_tools_impl.hpp:57-71). -/
def Tools.evalAt (t : Tools) (w : Nat → ℝ) (x : ℝ) : ℝ :=
  let a := (List.range t.terms).foldl (t.step w x) ⟨0, 0, 0⟩
  if 0 < a.exact then w (a.exact - 1) else a.numer / a.denom

/-- `evaluateInterpolationPolynomial` (chebychev_tools_impl.hpp:44-72). -/
def Tools.evaluate (t : Tools) (weights points : Vec) : Option Vec :=
  if weights.size < t.terms then none
  else some ⟨points.size, fun p => t.evalAt weights.at' (points.at' p)⟩

/-- `points` (chebychev_tools_impl.hpp:77-85). -/
def Tools.childPoints (t : Tools) (ratio : ℝ) : Vec :=
  let r := 2 * ratio
  ⟨2 * t.terms, fun j =>
    if j < t.terms then -1 + r * (1 + Real.cos (Real.pi * j / ((t.terms : ℝ) - 1))) / 2
    else 1 - r + r * (1 + Real.cos (Real.pi * ((j : ℝ) - t.terms) / ((t.terms : ℝ) - 1))) / 2⟩

/-- `childInterpolationMatrix` (chebychev_tools_impl.hpp:74-96): entry `(i, j)`. -/
def Tools.childMatrix (t : Tools) (ratio : ℝ) (i j : Nat) : ℝ :=
  t.evalAt (Function.update (fun _ => 0) j 1) ((t.childPoints ratio).at' i)

/-- `derivativeWeights` (chebychev_tools_impl.hpp:98-102). -/
def Tools.derivative (t : Tools) (w : Nat → ℝ) (i : Nat) : ℝ := sumLoop t.terms fun j => t.diff i j * w j

/-- The same for vectors. -/
def Tools.derivativeWeights (t : Tools) (weights : Vec) : Option Vec :=
  if weights.size ≠ t.terms then none else some ⟨t.terms, t.derivative weights.at'⟩

/-- `derivativeWeights3d` (chebychev_tools_impl.hpp:104-151); the loops write every entry of the result once, entry
`i * terms * terms + j * terms + k` in the passes `(i, j)`, `(i, k)` or `(j, k)`; with another direction nothing is written. -/
def Tools.derivativeWeights3d (t : Tools) (weights : Vec) (direction : Int) : Option Vec :=
  let n := t.terms
  let i (p : Nat) := p / (n * n)
  let j (p : Nat) := p / n % n
  let k (p : Nat) := p % n
  if weights.size < n * n * n then none
  else if direction = 2 then
    some ⟨n * n * n, fun p => t.derivative (fun q => weights.at' (i p * n * n + j p * n + q)) (k p)⟩
  else if direction = 1 then
    some ⟨n * n * n, fun p => t.derivative (fun q => weights.at' (i p * n * n + k p + q * n)) (j p)⟩
  else if direction = 0 then
    some ⟨n * n * n, fun p => t.derivative (fun q => weights.at' (j p * n + k p + q * n * n)) (i p)⟩
  else none

end
end Verif.Cheb
