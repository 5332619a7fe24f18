import Verif.Spec.PyDiscrete
/-
Model of python/bempp/api/assembly/boundary_operator.py, of python/bempp/api/space/projection.py and of the mass matrices of
python/bempp/api/space/space.py.

Operators are numbered; the operands of a composite operator exist before it.  Spaces are numbers, equal when their `_comp_key`s are.
Not modelled: logging, labels, `RankOneBoundaryOperator`.  What assembly returns is arbitrary and may depend on the operator and on
the time (global parameters can change); mass matrices do not depend on time, so the caches of the spaces have no effect.
-/
namespace Verif.PyOp
open Verif.DiscreteOp
noncomputable section

/-- Spaces. -/
abbrev Space := Nat

/-- What the Python layer gets from the core library: the number of global dofs of a space, `is_compatible`, the discrete operators
assembled for elementary operators at a time, and the matrix of `identity(domain, range, dual_to_range).weak_form()`. -/
structure Core where
  dofs : Space → Nat
  compatible : Space → Space → Bool
  form : Nat → Nat → Expr
  mass : (domain dualToRange : Space) → Arr

/-- The classes of `boundary_operator.py`; operands are given by number. -/
inductive Kind where
  | elementary (k : Nat)
  | zero
  | sum (op1 op2 : Nat)
  | scaled (op : Nat) (alpha : Scalar)
  | product (op1 op2 : Nat)
  | dualProduct (op1 op2 : Nat)
  | transpose (op : Nat)
  | adjoint (op : Nat)
  | reinterpret (op : Nat)
  | projection (op : Nat)

/-- An operator without its caches: class and `domain`, `range`, `dual_to_range` (`boundary_operator.py:34-42`). -/
structure Node where
  kind : Kind
  domain : Space
  range : Space
  dualToRange : Space

/-- `op1 + op2` (`boundary_operator.py:80-82, 458-472`). -/
def mkSum (core : Core) (nodes : Nat → Node) (i j : Nat) : Res Node :=
  if ¬ core.compatible (nodes i).domain (nodes j).domain = true ∨ ¬ core.compatible (nodes i).range (nodes j).range = true ∨
      ¬ core.compatible (nodes i).dualToRange (nodes j).dualToRange = true then .error .ValueError
  else .ok ⟨.sum i j, (nodes i).domain, (nodes i).range, (nodes i).dualToRange⟩

/-- `op * alpha`, `alpha * op`, `-op` (`boundary_operator.py:89-90, 106-117, 482-490`). -/
def mkScaled (nodes : Nat → Node) (i : Nat) (alpha : Scalar) : Node :=
  ⟨.scaled i alpha, (nodes i).domain, (nodes i).range, (nodes i).dualToRange⟩

/-- `op1 * op2` (`boundary_operator.py:91-92, 500-515`). -/
def mkProduct (core : Core) (nodes : Nat → Node) (i j : Nat) : Res Node :=
  if ¬ core.compatible (nodes j).range (nodes i).domain = true then .error .ValueError
  else .ok ⟨.product i j, (nodes j).domain, (nodes i).range, (nodes i).dualToRange⟩

/-- `op1.dual_product(op2)` (`boundary_operator.py:188-199, 522-538`). -/
def mkDualProduct (core : Core) (nodes : Nat → Node) (i j : Nat) : Res Node :=
  if ¬ core.compatible (nodes j).dualToRange (nodes i).range = true then .error .ValueError
  else .ok ⟨.dualProduct i j, (nodes j).domain, (nodes j).range, (nodes i).domain⟩

/-- `op.transpose(range_)` (`boundary_operator.py:161-173, 545-552`). -/
def mkTranspose (nodes : Nat → Node) (i : Nat) (range : Space) : Node :=
  ⟨.transpose i, (nodes i).dualToRange, range, (nodes i).domain⟩

/-- `op.adjoint(range_)` (`boundary_operator.py:175-186, 559-566`). -/
def mkAdjoint (nodes : Nat → Node) (i : Nat) (range : Space) : Node :=
  ⟨.adjoint i, (nodes i).dualToRange, range, (nodes i).domain⟩

/-- `project_operator` (`projection.py:33-54`), `_ProjectionBoundaryOperator` and `_ReinterpretSpacesBoundaryOperator`
(`boundary_operator.py:376-394, 426-438`): `none` if the operator itself is returned. -/
def mkProjection (nodes : Nat → Node) (i : Nat) (domain range dualToRange : Option Space) : Option Node :=
  let domain := domain.getD (nodes i).domain
  let range := range.getD (nodes i).range
  let dualToRange := dualToRange.getD (nodes i).dualToRange
  if (nodes i).domain = domain ∧ (nodes i).dualToRange = dualToRange then
    if (nodes i).range = range then none else some ⟨.reinterpret i, domain, range, dualToRange⟩
  else some ⟨.projection i, domain, range, dualToRange⟩

/-- `rewrite_operator_spaces` (`projection.py:15-28`). -/
def mkRewrite (i : Nat) (domain range dualToRange : Space) : Node := ⟨.reinterpret i, domain, range, dualToRange⟩

/-- The caches `_weak_form` and `_range_map` of all operators, and the time.  `stamp` and `assemblies` record when an elementary
operator was assembled last and how often; the code does not keep them. -/
structure World where
  weak : Nat → Option Op
  rangeMap : Nat → Option Op
  time : Nat
  stamp : Nat → Option Nat
  assemblies : Nat → Nat

/-- A computation that can raise an exception; the caches it has filled stay filled. -/
abbrev PyM (α : Type) := World → Res α × World

/-- Sequencing. -/
def PyM.bind {α β : Type} (m : PyM α) (f : α → PyM β) : PyM β := fun w =>
  match m w with
  | (.ok a, w') => f a w'
  | (.error e, w') => (.error e, w')

/-- A computation without side effects. -/
def PyM.lift {α : Type} (r : Res α) : PyM α := fun w => (r, w)

/-- The assembly of an elementary operator (`boundary_operator.py:283-317, 359-373`). -/
def assemble (core : Core) (i k : Nat) : PyM Op := fun w =>
  ((core.form k w.time).eval, { w with
    stamp := fun j => if j = i then some w.time else w.stamp j
    assemblies := fun j => if j = i then w.assemblies j + 1 else w.assemblies j })

/-- `_range_map` of an operator, computed if it is not cached (`boundary_operator.py:134-151`); both branches invert the matrix of the
identity from the range to the dual space. -/
def getRangeMap (core : Core) (nodes : Nat → Node) (i : Nat) : PyM Op := fun w =>
  match w.rangeMap i with
  | some op => (.ok op, w)
  | none =>
    match mkInverse (core.mass (nodes i).range (nodes i).dualToRange) with
    | .ok op => (.ok op, { w with rangeMap := fun j => if j = i then some op else w.rangeMap j })
    | .error e => (.error e, w)

/-- `discrete_coefficient_projection(space, new_space)` (`projection.py:3-13`). -/
def coefficientProjection (core : Core) (space newSpace : Space) : Res Op := do
  let inv ← mkInverse (core.mass newSpace newSpace)
  inv.mul (.sparse (core.mass space newSpace))

/-- The first part of the weak form of a projection (`boundary_operator.py:404-415`). -/
def projectDual (core : Core) (old new : Space) (form : Op) : Res Op :=
  if new ≠ old then do
    let inv ← mkInverse (core.mass old old)
    let p ← (Op.sparse (core.mass old new)).mul inv
    p.mul form
  else .ok form

/-- The second part (`boundary_operator.py:417-424`). -/
def projectDomain (core : Core) (old new : Space) (form : Op) : Res Op :=
  if new ≠ old then do
    let p ← coefficientProjection core new old
    form.mul p
  else .ok form

/-- `_weak_form_impl` of each class (`boundary_operator.py:213-219, 283-317, 359-373, 395-424, 445-447, 474-476, 492-494, 517-519,
540-542, 554-556, 568-570`), given `weak_form()` and `strong_form()` of the operands. -/
def weakFormImpl (core : Core) (nodes : Nat → Node) (weak strong : Nat → PyM Op) (i : Nat) : PyM Op :=
  match (nodes i).kind with
  | .elementary k => assemble core i k
  | .zero => PyM.lift (.ok (.zero (core.dofs (nodes i).dualToRange) (core.dofs (nodes i).domain)))
  | .sum a b => PyM.bind (weak a) fun u => PyM.bind (weak b) fun v => PyM.lift (u.add v)
  | .scaled a c => PyM.bind (weak a) fun u => PyM.lift (.ok (u.smul c))
  | .product a b => PyM.bind (weak a) fun u => PyM.bind (strong b) fun v => PyM.lift (u.mul v)
  | .dualProduct a b => PyM.bind (strong a) fun s => PyM.bind (PyM.lift s.adjoint) fun u => PyM.bind (weak b) fun v =>
      PyM.lift (u.mul v)
  | .transpose a => PyM.bind (weak a) fun u => PyM.lift u.transpose
  | .adjoint a => PyM.bind (weak a) fun u => PyM.lift u.adjoint
  | .reinterpret a => weak a
  | .projection a => PyM.bind (weak a) fun u =>
      PyM.bind (PyM.lift (projectDual core (nodes a).dualToRange (nodes i).dualToRange u)) fun v =>
        PyM.lift (projectDomain core (nodes a).domain (nodes i).domain v)

/-- `_range_map * weak_form()` (`boundary_operator.py:153`). -/
def strongOf (core : Core) (nodes : Nat → Node) (weak : Nat → PyM Op) (i : Nat) : PyM Op :=
  PyM.bind (getRangeMap core nodes i) fun m => PyM.bind (weak i) fun u => PyM.lift (m.mul u)

/-- `weak_form(recompute)` (`boundary_operator.py:60-78`); the first argument bounds the depth of the recursion. -/
def weakForm (core : Core) (nodes : Nat → Node) : Nat → Bool → Nat → PyM Op
  | 0, _, _ => PyM.lift (.error .RuntimeError)
  | n + 1, recompute, i => fun w =>
    let w := if recompute then { w with weak := fun j => if j = i then none else w.weak j } else w
    match w.weak i with
    | some op => (.ok op, w)
    | none =>
      match weakFormImpl core nodes (weakForm core nodes n false) (strongOf core nodes (weakForm core nodes n false)) i w with
      | (.ok op, w') => (.ok op, { w' with weak := fun j => if j = i then some op else w'.weak j })
      | (.error e, w') => (.error e, w')

/-- `strong_form(recompute)` (`boundary_operator.py:119-153`). -/
def strongForm (core : Core) (nodes : Nat → Node) (recompute : Bool) (i : Nat) : PyM Op := fun w =>
  let w := if recompute then { w with rangeMap := fun j => if j = i then none else w.rangeMap j } else w
  PyM.bind (getRangeMap core nodes i) (fun m =>
    PyM.bind (weakForm core nodes (i + 1) recompute i) fun u => PyM.lift (m.mul u)) w

/-- Freshly constructed operators. -/
def World.fresh : World := ⟨fun _ => none, fun _ => none, 0, fun _ => none, fun _ => 0⟩

/-- What a user does: requests of weak and strong forms (with `recompute` or not) and changes of parameters. -/
inductive Action where
  | weakForm (recompute : Bool) (i : Nat)
  | strongForm (recompute : Bool) (i : Nat)
  | wait

/-- One action and its result, if it has one. -/
def step (core : Core) (nodes : Nat → Node) (a : Action) (w : World) : Option (Res Op) × World :=
  match a with
  | .weakForm r i => let p := weakForm core nodes (i + 1) r i w; (some p.1, p.2)
  | .strongForm r i => let p := strongForm core nodes r i w; (some p.1, p.2)
  | .wait => (none, { w with time := w.time + 1 })

/-- A history: the results of all actions and the final state. -/
def run (core : Core) (nodes : Nat → Node) : List Action → World → List (Option (Res Op)) × World
  | [], w => ([], w)
  | a :: l, w =>
    let p := step core nodes a w
    let q := run core nodes l p.2
    (p.1 :: q.1, q.2)

end

end Verif.PyOp
