import Verif.Model.ScalarKernelIntegral
/-
Specification of the quadrature sums of a bilinear form  ∫∫ Σ_t conj(test_t(x)) · k_t(x, y) trial_t(y).
-/
namespace Verif.Integral

open Finset

/-- The arrays passed to the integral have compatible extents: `T` transformations, transformation `t` has `dim t`
components, `m` test and `n` trial functions, `P` test and `Q` trial points. -/
structure Compatible {K : Type} (T m n P Q : Nat) (dim : Nat → Nat) (test trial : List (Array3 K)) : Prop where
  pos : 0 < T
  testLength : test.length = T
  trialLength : trial.length = T
  testExt : ∀ t a, test[t]? = some a → a.ext0 = dim t ∧ a.ext1 = m ∧ a.ext2 = P
  trialExt : ∀ t a, trial[t]? = some a → a.ext0 = dim t ∧ a.ext1 = n ∧ a.ext2 = Q

/-- The value of component `d` of transformation `t` of function `i` at point `p`. -/
def value {K : Type} [Zero K] (values : List (Array3 K)) (t d i p : Nat) : K :=
  ((values[t]?).map fun a => a.get d i p).getD 0

/-- The index of the kernel for transformation `t`: a single kernel serves all transformations. -/
def kernelFor (count t : Nat) : Nat := if count = 1 then 0 else t

/-- The value of kernel number `t` at point number `p` of a list of pairs of points. -/
def kernelAt {K : Type} [Zero K] (kernels : List (Array3 K)) (t p : Nat) : K :=
  ((kernels[t]?).map fun a => a.get 0 0 p).getD 0

/-- The value of kernel number `t` at test point `p` and trial point `q`. -/
def kernelAt2 {K : Type} [Zero K] (kernels : List (Array4 K)) (t p q : Nat) : K :=
  ((kernels[t]?).map fun a => a.get 0 0 p q).getD 0

variable {K : Type} [CommRing K] [StarRing K]

/-- The inner product of the values of test function `i` at test point `p` and of trial function `j` at trial point `q`. -/
def dot (dim : Nat → Nat) (test trial : List (Array3 K)) (t i p j q : Nat) : K :=
  ∑ d ∈ range (dim t), star (value test t d i p) * value trial t d j q

/-- The quadrature sum over a list of `P` pairs of points. -/
def pointSum (T P : Nat) (dim : Nat → Nat) (test trial kernels : List (Array3 K)) (testJ trialJ weight : Nat → K)
    (i j : Nat) : K :=
  ∑ t ∈ range T, ∑ p ∈ range P,
    kernelAt kernels (kernelFor kernels.length t) p * dot dim test trial t i p j p * (testJ p * trialJ p * weight p)

/-- The quadrature sum over all pairs of `P` test and `Q` trial points. -/
def gridSum (T P Q : Nat) (dim : Nat → Nat) (test trial : List (Array3 K)) (kernels : List (Array4 K))
    (testJ trialJ testWeight trialWeight : Nat → K) (i j : Nat) : K :=
  ∑ t ∈ range T, ∑ p ∈ range P, ∑ q ∈ range Q,
    kernelAt2 kernels (kernelFor kernels.length t) p q * dot dim test trial t i p j q *
      ((testJ p * testWeight p) * (trialJ q * trialWeight q))

end Verif.Integral
