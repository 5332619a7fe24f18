import Verif.Model.PySolvers
import Verif.Spec.PyBlockedBoundary
/-
Specification of the iterative solvers: what SciPy promises, and the equations the returned grid functions satisfy.
-/
namespace Verif.PyOp
noncomputable section

/-- `v 0, …, v (n - 1)` differs from `w 0, …, w (n - 1)` by at most `tol` times the norm of the latter. -/
def Within (tol : ℝ) (n : Nat) (v w : Nat → ℂ) : Prop :=
  ∑ k ∈ Finset.range n, ‖v k - w k‖ ^ 2 ≤ tol ^ 2 * ∑ k ∈ Finset.range n, ‖w k‖ ^ 2

/-- What SciPy's documentation promises for a linear operator: a vector of the right length, and a residual within the tolerance if
`info` is 0. -/
def Reliable (tol : ℝ) (solver : Solver) : Prop := ∀ (n : Nat) (M : Matrix (Fin n) (Fin n) ℂ) (matvec : Arr → Res Arr) (b : Arr)
  (s : Iterations), (∀ x : Arr, x.rows = n → x.cols = 1 → ∃ y, matvec x = .ok y ∧ IsProduct M x y) → VecOf b n →
  solver matvec b = .ok s → VecOf s.x n ∧ (s.info = 0 → ∃ y, matvec s.x = .ok y ∧ Within tol n (fun k => y.e k 0) fun k => b.e k 0)

/-- The object `f` behaves as the function `a` when it is asked for its space, its coefficients and its projections onto `E`. -/
def Represents (core : Core) (f : GF) (a : AFun) (E : Space) : Prop := f.space = a.space ∧
  (∃ c, (f.coefficients core).1 = .ok c ∧ VecIs c (core.dofs a.space) a.value) ∧
  ∃ p, (f.projections core (some E)).1 = .ok p ∧ VecIs p (core.dofs E) (proj core a E)

/-- `g` are the coefficients of the image, under the operator with the weak form `W`, of the function with the coefficients `u`: its
projections are `W u` (compare `Expected` for `apply`). -/
def IsImage (core : Core) {r c : Nat} (W : Matrix (Fin r) (Fin c) ℂ) (range dual : Space) (u g : Nat → ℂ) : Prop :=
  ∀ k : Fin r, proj core ⟨range, g⟩ dual k = ∑ j, W k j * u j

/-- The same for blocked operators: function `a` of the result has the coefficients `g a`. -/
def IsBlockedImage (core : Core) (rs ds cs : List Space) (W : Nat → Nat → ℂ) (u g : Nat → Nat → ℂ) : Prop :=
  ∀ a < rs.length, ∀ k < core.dofs (ds.getD a 0), proj core ⟨rs.getD a 0, g a⟩ (ds.getD a 0) k = ∑ j ∈ Finset.range cs.length,
    ∑ q ∈ Finset.range (core.dofs (cs.getD j 0)), W (offset (ds.map core.dofs) a + k) (offset (cs.map core.dofs) j + q) * u j q

/-- `Within` for lists of vectors. -/
def ListWithin (tol : ℝ) (dims : List Nat) (v w : Nat → Nat → ℂ) : Prop :=
  ∑ a ∈ Finset.range dims.length, ∑ k ∈ Finset.range (dims.getD a 0), ‖v a k - w a k‖ ^ 2 ≤
    tol ^ 2 * ∑ a ∈ Finset.range dims.length, ∑ k ∈ Finset.range (dims.getD a 0), ‖w a k‖ ^ 2

end

end Verif.PyOp
