import Verif.Model.PyBlockedBoundary
/-
Model of python/bempp/api/linalg/iterative_solvers.py.

SciPy's solvers are not modelled: a solver is an arbitrary function of the method `matvec` and of the right-hand side.  `tol`, `restart`
and `maxiter` are passed to it unchanged and are part of the function.  Not modelled: logging and timing, and the effect of the calls
on the caches of the right-hand side (C85) and of the operator (C84, C87).
-/
namespace Verif.PyOp
noncomputable section

/-- What SciPy's solver does: the solution, `info` and the arguments of the calls of the callback. -/
structure Iterations where
  x : Arr
  info : Int
  calls : List Arr

/-- A solver: it sees `matvec` and the right-hand side. -/
abbrev Solver := (Arr → Res Arr) → Arr → Res Iterations

/-- SciPy's `make_system` before the solver: the operator must be square and fit the right-hand side, an array with the shape `(N,)` or
`(N, 1)` (SciPy, `scipy/sparse/linalg/_isolve/utils.py`; not in the repository). -/
def scipy (solver : Solver) (shape : Nat × Nat) (matvec : Arr → Res Arr) (b : Arr) : Res Iterations :=
  if shape.1 ≠ shape.2 then .error .ValueError
  else if ¬ (b.rows = shape.1 ∧ b.cols = 1) then .error .ValueError
  else solver matvec b

/-- `np.linalg.norm`. -/
def Arr.norm (a : Arr) : ℝ := Real.sqrt (∑ i ∈ Finset.range a.rows, ∑ j ∈ Finset.range a.cols, ‖a.e i j‖ ^ 2)

/-- `x.ravel()`. -/
def Arr.ravel (a : Arr) : Arr := ⟨false, a.rows * a.cols, 1, a.complex, fun p _ => a.e (p / a.cols) (p % a.cols)⟩

/-- `_it_counter` (`iterative_solvers.py:13-42`). -/
structure Counter where
  count : Nat
  residuals : List ℝ

/-- `__call__` (`iterative_solvers.py:25-32`); `cg` are `operator * x` and `rhs` if `iteration_is_cg`. -/
def Counter.call (store : Bool) (cg : Option ((Arr → Res Arr) × Arr)) (c : Counter) (x : Arr) : Res Counter :=
  if store = false then .ok ⟨c.count + 1, c.residuals⟩
  else
    match cg with
    | some p => do
      let y ← p.1 x
      let r ← p.2.add (y.smul ⟨-1, false⟩)
      .ok ⟨c.count + 1, c.residuals ++ [r.norm]⟩
    | none => .ok ⟨c.count + 1, c.residuals ++ [x.norm]⟩

/-- The optional arguments `use_strong_form`, `return_residuals`, `return_iteration_count`. -/
structure Options where
  strong : Bool
  residuals : Bool
  count : Bool

/-- The tuple returned, without the components that were not asked for. -/
structure Solution (α : Type) where
  fn : α
  info : Int
  residuals : Option (List ℝ)
  count : Option Nat

/-- The `return` statements (`iterative_solvers.py:117-126, 168-177, 218-227`). -/
def Solution.pack {α : Type} (o : Options) (fn : α) (info : Int) (c : Counter) : Solution α :=
  ⟨fn, info, if o.residuals then some c.residuals else none, if o.count then some c.count else none⟩

/-- A boundary operator: its spaces and what `weak_form()` and `strong_form()` return (C84). -/
structure Operand where
  domain : Space
  range : Space
  dualToRange : Space
  weak : Res Op
  strong : Res Op

/-- The operator and the right-hand side (`iterative_solvers.py:93-102, 143-152`). -/
def system (core : Core) (A : Operand) (b : GF) (strong : Bool) : Res (Op × Arr) :=
  if strong = true then
    if ¬ core.compatible A.range b.space = true then .error .ValueError
    else do
      let op ← A.strong
      let v ← (b.coefficients core).1
      .ok (op, v)
  else do
    let op ← A.weak
    let v ← (b.projections core (some A.dualToRange)).1
    .ok (op, v)

/-- `cg` after the checks (`iterative_solvers.py:93-126`) and `_gmres_single_op_imp` (`iterative_solvers.py:143-177`). -/
def solveSingle (core : Core) (cg : Bool) (solver : Solver) (A : Operand) (b : GF) (o : Options) : Res (Solution GF) := do
  let p ← system core A b o.strong
  let s ← scipy solver p.1.shape p.1.matvec p.2
  let c ← s.calls.foldlM (Counter.call o.residuals (if cg then some (p.1.apply, p.2) else none)) ⟨0, []⟩
  let f ← GF.new A.domain none none (some s.x.ravel) none
  .ok (.pack o f s.info c)

/-- A blocked operator: what it was constructed as and what `weak_form()` and `strong_form()` return (C87). -/
structure BOperand where
  node : BNode
  weak : Res BOp
  strong : Res BOp

/-- A list of spaces none of which is `None`. -/
def allSpaces (l : List (Option Space)) : Res (List Space) :=
  l.mapM fun s => match s with
    | some s => .ok s
    | none => .error .AttributeError

/-- The spaces and coefficients of the functions. -/
def coefficientsOf (core : Core) (fs : List GF) : Res (List (Space × Arr)) :=
  fs.mapM fun f => do
    let c ← (f.coefficients core).1
    .ok (f.space, c)

/-- The operator and the right-hand side (`iterative_solvers.py:195-201`). -/
def blockedSystem (core : Core) (A : BOperand) (fs : List GF) (strong : Bool) : Res (BOp × Arr) :=
  if strong = true then do
    let cs ← coefficientsOf core fs
    let v ← coefficientsOfList core cs
    let op ← A.strong
    .ok (op, v)
  else do
    let op ← A.weak
    let ds ← allSpaces A.node.dualToRange
    let v ← projectionsOfFunctions core fs ds
    .ok (op, v)

/-- `_gmres_block_op_imp` (`iterative_solvers.py:179-227`). -/
def solveBlocked (core : Core) (solver : Solver) (A : BOperand) (fs : List GF) (o : Options) : Res (Solution (List GF)) := do
  let p ← blockedSystem core A fs o.strong
  let s ← scipy solver p.1.shape p.1.matvec p.2
  let c ← s.calls.foldlM (Counter.call o.residuals none) ⟨0, []⟩
  let cs ← allSpaces A.node.domain
  let gs ← listFromCoefficients core s.x.ravel cs
  .ok (.pack o gs s.info c)

/-- The first argument, by its type. -/
inductive Lhs where
  | boundary (A : Operand)
  | blocked (A : BOperand)
  | other

/-- The second argument, by its type. -/
inductive Rhs where
  | function (b : GF)
  | list (fs : List GF)
  | other

/-- What is returned. -/
inductive Answer where
  | function (s : Solution GF)
  | list (s : Solution (List GF))

/-- `gmres` (`iterative_solvers.py:45-69, 138-139`); objects that cannot be iterated over are refused by `zip` and `for`, in the weak
case after the weak form was requested. -/
def gmres (core : Core) (solver : Solver) (A : Lhs) (b : Rhs) (o : Options) : Res Answer :=
  match A, b with
  | .boundary A, .function b => (solveSingle core false solver A b o).map .function
  | .boundary _, _ => .error .ValueError
  | .blocked A, .list fs => (solveBlocked core solver A fs o).map .list
  | .blocked A, _ => if o.strong = true then .error .TypeError else A.weak >>= fun _ => .error .TypeError
  | .other, _ => .error .ValueError

/-- `cg` (`iterative_solvers.py:73-126`). -/
def cg (core : Core) (solver : Solver) (A : Lhs) (b : Rhs) (o : Options) : Res Answer :=
  match A, b with
  | .boundary A, .function b => (solveSingle core true solver A b o).map .function
  | _, _ => .error .ValueError

end

end Verif.PyOp
