import Verif.Model.PySolvers
/-
Model of python/bempp/api/assembly/potential_operator.py, of the constructors in python/bempp/api/operators/potential/ and of
python/bempp/api/linalg/direct_solvers.py.

What the core library assembles for a potential operator is a given matrix (C79, C80).  Not modelled: logging (except for the
arguments it looks at), the assembly parameters, `dtype`.
-/
namespace Verif.PyOp
open Verif.DiscreteOp
noncomputable section

/-- An array of evaluation points with the shape `(dim, count)`. -/
structure Points where
  dim : Nat
  count : Nat
  e : Nat → Nat → ℝ

/-- `PotentialOperator` (`potential_operator.py:10-16`). -/
structure Potential where
  op : Op
  components : Nat
  space : Space
  points : Points

/-- `np.linalg.norm(p - q, ord=np.inf)`: NumPy's broadcasting, the largest sum of absolute values in a row; NumPy raises ValueError if
the shapes do not fit or there are no rows (`potential_operator.py:38-39`). -/
def Points.distance (p q : Points) : Res ℝ :=
  match broadcast p.dim q.dim, broadcast p.count q.count with
  | some r, some c =>
    if r = 0 then .error .ValueError
    else .ok (((List.range r).map fun i => ((List.range c).map fun j =>
      |p.e (if p.dim = 1 then 0 else i) (if p.count = 1 then 0 else j) - q.e (if q.dim = 1 then 0 else i) (if q.count = 1 then 0 else j)|).sum).foldl
      max 0)
  | _, _ => .error .ValueError

/-- `__is_compatible` (`potential_operator.py:34-40`); `and` stops at the first false operand. -/
def Potential.compatible (core : Core) (P Q : Potential) : Res Bool :=
  if P.components ≠ Q.components then .ok false
  else do
    let d ← P.points.distance Q.points
    if d ≠ 0 then .ok false else .ok (core.compatible P.space Q.space)

/-- `P + Q` (`potential_operator.py:42-50`). -/
def Potential.add (core : Core) (P Q : Potential) : Res Potential := do
  let c ← P.compatible core Q
  if c = false then .error .ValueError
  else do
    let op ← P.op.add Q.op
    .ok ⟨op, P.components, P.space, P.points⟩

/-- `P * alpha` for a number (`potential_operator.py:59-62`). -/
def Potential.smul (P : Potential) (alpha : Scalar) : Potential := ⟨P.op.smul alpha, P.components, P.space, P.points⟩

/-- `-P` (`potential_operator.py:69-71`). -/
def Potential.neg (P : Potential) : Potential := P.smul ⟨-1, false⟩

/-- `P - Q` (`potential_operator.py:73-75`). -/
def Potential.sub (core : Core) (P Q : Potential) : Res Potential := P.add core Q.neg

/-- `res.reshape(count, -1, order='F')` for a vector. -/
def Arr.reshapeF (y : Arr) (count : Nat) : Res Arr :=
  if count = 0 ∨ y.rows * y.cols % count ≠ 0 then .error .ValueError
  else .ok ⟨true, count, y.rows * y.cols / count, y.complex, fun i j => y.e (i + count * j) 0⟩

/-- `P.evaluate(f)` and `P * f` (`potential_operator.py:18-32, 63-64`). -/
def Potential.evaluate (core : Core) (P : Potential) (f : GF) : Res Arr := do
  let c ← (f.coefficients core).1
  let res ← P.op.apply c
  res.reshapeF P.components

/-- The arguments of a constructor that matter here: whether `evaluation_points` is passed by position, and `parameters`: absent or
passed by position (`none`), or passed by keyword, as `None` (`some false`) or as an object. -/
structure CallArgs where
  pointsByPosition : Bool
  keyword : Option Bool

/-- `potential_logger` around `single_layer` etc. (`operators/potential/_common.py:4-29`, `laplace.py:6-149`, `maxwell.py:7-80`,
`modified_helmholtz.py:7-83`): `parameters.assembly` and `args[1]` are evaluated for the log.  The space is replaced by its coarse
version if it has one; `assembled` is what the core library assembles for a space and points. -/
def makePotential (components : Nat) (nonBarycentric : Space → Option Space) (assembled : Space → Points → Backend) (space : Space)
    (points : Points) (args : CallArgs) : Res Potential :=
  if args.keyword = some false then .error .AttributeError
  else if args.pointsByPosition = false then .error .IndexError
  else
    let s := (nonBarycentric space).getD space
    .ok ⟨.nonlocal (assembled s points), components, s, points⟩

/-! ### Direct solver -/

/-- `scipy.linalg.solve(mat, vec)` for arrays, and `scipy.linalg.lu_solve` with the factors of `mat` (SciPy; not in the repository). -/
def denseSolve (mat vec : Arr) : Res Arr :=
  if mat.rows ≠ mat.cols ∨ vec.rows ≠ mat.rows then .error .ValueError
  else if (toM mat.rows mat.rows mat.e).det = 0 then .error .RuntimeError
  else .ok ⟨vec.twoD, mat.rows, vec.cols, mat.complex || vec.complex, fun i j =>
    if h : i < mat.rows then ((toM mat.rows mat.rows mat.e)⁻¹.mulVec fun k : Fin mat.rows => vec.e k j) ⟨i, h⟩ else 0⟩

/-- `scipy.linalg.solve(as_matrix(op), ...)`: for sparse operators `as_matrix` returns a sparse matrix, which SciPy refuses
(`direct_solvers.py:45-47`, `discrete_boundary_operator.py:628-629`). -/
def solveOperator (op : Op) (vec : Arr) : Res Arr :=
  match op with
  | .sparse _ => .error .ValueError
  | a => do
    let mat ← asMatrix a
    denseSolve mat vec

/-- `compute_lu_factors(A)` (`direct_solvers.py:5-16`): SciPy's `lu_factor` gets an operator, which NumPy turns into an array without
dimensions ("expected square matrix"). -/
def computeLuFactors (A : Operand) : Res Arr := do
  let _ ← A.weak
  .error .ValueError

/-- `lu(A, b, lu_factor)` (`direct_solvers.py:18-49`); the factors are given by the matrix they were computed from. -/
def lu (core : Core) (A : Operand) (b : GF) (factors : Option Arr) : Res GF :=
  match factors with
  | some mat => do
    let vec ← (b.projections core (some A.dualToRange)).1
    let sol ← denseSolve mat vec
    GF.new A.domain none none (some sol) none
  | none => do
    let op ← A.weak
    let vec ← (b.projections core (some A.dualToRange)).1
    let sol ← solveOperator op vec
    GF.new A.domain none none (some sol) none

end

end Verif.PyOp
