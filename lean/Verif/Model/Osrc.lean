import Verif.Model.PyDiscrete
import Mathlib.Analysis.SpecialFunctions.Pow.Complex
import Mathlib.Analysis.SpecialFunctions.Complex.Circle
/-
Model of the OSRC operators of python/bempp/api/operators/boundary/helmholtz.py:288-505.

Numbers are exact.  The weak forms of the identity and of the Laplace-Beltrami operator are given sparse matrices (the local operators
are the subject of C76, the boundary operators of C84).  Not modelled: parameters, labels and logging; the cache of the weak form is
that of every boundary operator (C84).
-/
namespace Verif.PyOp
open Complex
noncomputable section

/-- `aj[jj - 1]` for `jj = j + 1` (`helmholtz.py:493-494`). -/
def padeA (n j : Nat) : ℂ := 2 / (2 * n + 1) * Complex.sin (((j : ℂ) + 1) * Real.pi / (2 * n + 1)) ^ 2

/-- `bj[jj - 1]` for `jj = j + 1` (`helmholtz.py:495`). -/
def padeB (n j : Nat) : ℂ := Complex.cos (((j : ℂ) + 1) * Real.pi / (2 * n + 1)) ^ 2

/-- What `_pade_coeffs` returns: `C0t`, and `ajt` and `bjt` as functions of the index in the arrays. -/
structure Pade where
  c0 : ℂ
  alpha : Nat → ℂ
  beta : Nat → ℂ

/-- `_pade_coeffs(n, theta)` (`helmholtz.py:473-505`). -/
def padeCoeffs (n : Nat) (theta : ℝ) : Pade where
  c0 := Complex.exp (I * theta / 2) * (1 + ∑ j ∈ Finset.range n, padeA n j * (Complex.exp (-I * theta) - 1) /
    (1 + padeB n j * (Complex.exp (-I * theta) - 1)))
  alpha := fun j => Complex.exp (-I * theta / 2) * padeA n j / (1 + padeB n j * (Complex.exp (-I * theta) - 1)) ^ 2
  beta := fun j => Complex.exp (-I * theta) * padeB n j / (1 + padeB n j * (Complex.exp (-I * theta) - 1))

/-- The corners `bbox[0, :]` and `bbox[1, :]` of the bounding box of the grid. -/
structure BBox where
  lower : Fin 3 → ℝ
  upper : Fin 3 → ℝ

/-- `rad` (`helmholtz.py:352, 439`). -/
def BBox.rad (b : BBox) : ℝ := Real.sqrt (∑ i, (b.upper i - b.lower i) ^ 2) / 2

/-- `dk` (`helmholtz.py:350-356, 437-443`): the given number, or the wave number plus the damping. -/
def dampedWavenumber (k : Scalar) (given : Option Scalar) (bbox : BBox) : Scalar :=
  match given with
  | some dk => dk
  | none => ⟨k.value + I * (4 / 10) * k.value ^ ((1 : ℂ) / 3) * (bbox.rad : ℂ) ^ (-(2 : ℂ) / 3), true⟩

/-- `InverseSparseDiscreteBoundaryOperator(operator)`: the attribute `sparse_operator` exists only for sparse operators
(`discrete_boundary_operator.py:441-444, 476-482, 638-709`). -/
def inverseOf (op : Op) : Res Op :=
  match op with
  | .sparse A => mkInverse A
  | _ => .error .AttributeError

/-- `operator - c * stiff` inverted, for `mass - beta[i] / (dk ** 2) * stiff` and `mass - 1. / (dk ** 2) * stiff`
(`helmholtz.py:370-371, 457-458, 460-461`). -/
def shiftedInverse (mass stiff : Op) (c : Scalar) : Res Op := do
  let s ← mass.sub (stiff.smul c)
  inverseOf s

/-- One pass of `term -= (alpha[i] / (dk ** 2) * stiff * InverseSparse...)` (`helmholtz.py:368-371, 455-458`). -/
def osrcStep (mass stiff : Op) (pade : Pade) (dk : Scalar) (term : Op) (i : Nat) : Res Op := do
  let inv ← shiftedInverse mass stiff ⟨pade.beta i / dk.value ^ 2, true⟩
  let p ← (stiff.smul ⟨pade.alpha i / dk.value ^ 2, true⟩).mul inv
  term.sub p

/-- `c0 * mass + term * mass` (`helmholtz.py:364-372, 451-462`); `ZeroBoundaryOperator(space, space, space).weak_form()` is the zero
operator with the dimension of the space. -/
def osrcRoot (mass stiff : Op) (npade : Nat) (theta : ℝ) (dk : Scalar) : Res Op := do
  let pade := padeCoeffs npade theta
  let term ← (List.range npade).foldlM (osrcStep mass stiff pade dk) (Op.zero mass.shape.1 mass.shape.2)
  let t ← term.mul mass
  (mass.smul ⟨pade.c0, true⟩).add t

/-- `osrc_dtn(...)._weak_form_impl()` (`helmholtz.py:334-374`). -/
def osrcDtn (mass stiff : Arr) (npade : Nat) (theta : ℝ) (k : Scalar) (given : Option Scalar) (bbox : BBox) : Res Op := do
  let root ← osrcRoot (.sparse mass) (.sparse stiff) npade theta (dampedWavenumber k given bbox)
  .ok (root.smul ⟨I * k.value, true⟩)

/-- `osrc_ntd(...)._weak_form_impl()` (`helmholtz.py:421-464`). -/
def osrcNtd (mass stiff : Arr) (npade : Nat) (theta : ℝ) (k : Scalar) (given : Option Scalar) (bbox : BBox) : Res Op := do
  let dk := dampedWavenumber k given bbox
  let pade := padeCoeffs npade theta
  let term ← (List.range npade).foldlM (osrcStep (.sparse mass) (.sparse stiff) pade dk) (Op.zero mass.rows mass.cols)
  let inv ← shiftedInverse (.sparse mass) (.sparse stiff) ⟨1 / dk.value ^ 2, dk.complex⟩
  let left ← (Op.sparse mass).mul inv
  let t ← term.mul (.sparse mass)
  let root ← ((Op.sparse mass).smul ⟨pade.c0, true⟩).add t
  let p ← left.mul root
  .ok (p.smul ⟨1 / (I * k.value), true⟩)

end

end Verif.PyOp
