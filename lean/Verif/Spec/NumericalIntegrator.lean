import Verif.Model.NumericalIntegrator
/-
Specification of the integrators: the matrix of integrals over one pair of elements, from complete geometrical data of these
two elements and nothing else.
-/
namespace Verif.Integrator

open Verif.HMat Verif.LocalAsm

variable {S V B W L K : Type}

/-- The integrals over test element `e` and trial element `t`, for all or one of the test and of the trial functions. -/
def Parts.entries (I : Parts S V B W L K) (testShapeset trialShapeset : S) (testDof trialDof : Option Nat) (e t : Nat) :
    Nat → Nat → K :=
  I.integral (I.testGeom e) (I.trialGeom t)
    (I.testTransformation (I.testBasis testShapeset testDof) (I.testGeom e))
    (I.trialTransformation (I.trialBasis trialShapeset trialDof) (I.trialGeom t))
    (I.kernels (I.testGeom e) (I.trialGeom t))

/-- The local matrix: all test and all trial functions. -/
def Parts.matrix (I : Parts S V B W L K) (testShapeset trialShapeset : S) (e t : Nat) : Mx K :=
  ⟨I.size testShapeset, I.size trialShapeset, I.entries testShapeset trialShapeset none none e t⟩

/-- A consumer of geometrical data uses no field other than those it declares. -/
def UsesOnly {V R : Type} (deps : Field → Bool) (f : GeomData V → R) : Prop :=
  ∀ g g' : GeomData V, (∀ x, deps x = true → g x = g' x) → f g = f g'

/-- The transformations, kernels and integral use only the geometrical data they declare. -/
structure Parts.Honest (I : Parts S V B W L K) : Prop where
  testTransformation : ∀ b, UsesOnly I.testTransformationDeps (I.testTransformation b)
  trialTransformation : ∀ b, UsesOnly I.trialTransformationDeps (I.trialTransformation b)
  kernelsTest : ∀ g, UsesOnly I.kernelTestDeps fun d => I.kernels d g
  kernelsTrial : ∀ g, UsesOnly I.kernelTrialDeps fun d => I.kernels g d
  integralTest : ∀ g v w k, UsesOnly I.integralTestDeps fun d => I.integral d g v w k
  integralTrial : ∀ g v w k, UsesOnly I.integralTrialDeps fun d => I.integral g d v w k

/-- Integrating for one function gives that function's row or column of the matrix. -/
structure Parts.DofWise (I : Parts S V B W L K) : Prop where
  trial : ∀ s s' e t j i, j < I.size s' → i < I.size s → I.entries s s' none (some j) e t i 0 = I.entries s s' none none e t i j
  test : ∀ s s' e t j i, j < I.size s → i < I.size s' → I.entries s s' (some j) none e t 0 i = I.entries s s' none none e t j i

/-- Two matrices of the same shape with the same entries. -/
def Same (m m' : Mx K) : Prop := m.rows = m'.rows ∧ m.cols = m'.cols ∧ ∀ i j, i < m.rows → j < m.cols → m.e i j = m'.e i j

end Verif.Integrator
