import Verif.Model.PyBlocked
import Verif.Model.PyGridFunction
/-
Model of the blocked boundary operators of python/bempp/api/assembly/blocked_operator.py:26-448 and of the functions for lists of grid
functions (869-952).

Blocked operators are numbered; the operands of a composite one exist before it.  The boundary operators they contain are numbered too;
their spaces and weak forms (C84) are given by `Components`.  Simplifications: weak forms of the components exist and do not change;
a composite operator has the spaces its operands had when it was constructed; indices are not negative; the flags `_rows` and `_cols`
are those of the spaces, with which they are set.  Not modelled: `__getitem__` of boundary operators.
-/
namespace Verif.PyOp
noncomputable section

/-- The boundary operators: their spaces and what `weak_form()` returns. -/
structure Components where
  domain : Nat → Space
  range : Nat → Space
  dualToRange : Nat → Space
  form : Nat → Op

/-- `BlockedOperator` (with its array of operators), `SumBlockedOperator`, `ProductBlockedOperator` and `ScaledBlockedOperator`. -/
inductive BKind where
  | base (ops : Nat → Nat → Option Nat)
  | sum (op1 op2 : Nat)
  | product (op1 op2 : Nat)
  | scaled (op : Nat) (alpha : Scalar)

/-- A blocked operator without its caches: class, `range_spaces`, `dual_to_range_spaces`, `domain_spaces` (`none` for `None`); `ndims`
are the lengths of the lists. -/
structure BNode where
  kind : BKind
  range : List (Option Space)
  dualToRange : List (Option Space)
  domain : List (Option Space)

/-- `BlockedOperator(m, n)` (`blocked_operator.py:29-33, 197-207`). -/
def BNode.new (m n : Nat) : BNode := ⟨.base fun _ _ => none, List.replicate m none, List.replicate m none, List.replicate n none⟩

/-- One of the three checks of `__setitem__`. -/
def clash (known : Option Space) (space : Space) : Bool :=
  match known with
  | some s => s != space
  | none => false

/-- `b[i, j] = operator` (`blocked_operator.py:221-249`). -/
def BNode.setItem (comp : Components) (b : BNode) (i j k : Nat) : Res BNode :=
  match b.kind with
  | .base ops =>
    if b.range.length ≤ i ∨ b.domain.length ≤ j then .error .IndexError
    else if clash (b.range.getD i none) (comp.range k) then .error .ValueError
    else if clash (b.dualToRange.getD i none) (comp.dualToRange k) then .error .ValueError
    else if clash (b.domain.getD j none) (comp.domain k) then .error .ValueError
    else .ok ⟨.base fun a c => if a = i ∧ c = j then some k else ops a c, b.range.set i (some (comp.range k)),
      b.dualToRange.set i (some (comp.dualToRange k)), b.domain.set j (some (comp.domain k))⟩
  | _ => .error .TypeError

/-- `_fill_complete` (`blocked_operator.py:251-253`). -/
def BNode.fillComplete (b : BNode) : Bool := b.domain.all (·.isSome) && b.range.all (·.isSome)

/-- `op1 + op2` (`blocked_operator.py:122-127, 297-326`). -/
def mkBlockedSum (nodes : Nat → BNode) (i j : Nat) : Res BNode :=
  if ((nodes i).range.length, (nodes i).domain.length) ≠ ((nodes j).range.length, (nodes j).domain.length) then .error .ValueError
  else if (nodes i).range ≠ (nodes j).range then .error .ValueError
  else if (nodes i).dualToRange ≠ (nodes j).dualToRange then .error .ValueError
  else if (nodes i).domain ≠ (nodes j).domain then .error .ValueError
  else .ok ⟨.sum i j, (nodes i).range, (nodes i).dualToRange, (nodes i).domain⟩

/-- `op1 * op2` (`blocked_operator.py:144-146, 355-372`). -/
def mkBlockedProduct (nodes : Nat → BNode) (i j : Nat) : Res BNode :=
  if (nodes i).domain.length ≠ (nodes j).range.length then .error .ValueError
  else if (nodes i).domain ≠ (nodes j).range then .error .ValueError
  else .ok ⟨.product i j, (nodes i).range, (nodes i).dualToRange, (nodes j).domain⟩

/-- `op * alpha`, `alpha * op`, `-op` (`blocked_operator.py:129-131, 141-143, 186-191, 413-418`). -/
def mkBlockedScaled (nodes : Nat → BNode) (i : Nat) (alpha : Scalar) : BNode :=
  ⟨.scaled i alpha, (nodes i).range, (nodes i).dualToRange, (nodes i).domain⟩

/-- All blocked operators with their caches `_weak_form` and `_range_map`. -/
structure BWorld where
  node : Nat → BNode
  weak : Nat → Option BOp
  rangeMap : Nat → Option BOp

/-- A computation that can raise an exception. -/
abbrev BM (α : Type) := BWorld → Res α × BWorld

/-- Sequencing. -/
def BM.bind {α β : Type} (m : BM α) (f : α → BM β) : BM β := fun w =>
  match m w with
  | (.ok a, w') => f a w'
  | (.error e, w') => (.error e, w')

/-- A computation without side effects. -/
def BM.lift {α : Type} (r : Res α) : BM α := fun w => (r, w)

/-- The inverse mass matrix of one row (`blocked_operator.py:73-88`); both branches invert the matrix of the identity from the range to
the dual space; `None` has no method `inverse_mass_matrix`. -/
def rowInverse (core : Core) (b : BNode) (index : Nat) : Res Op :=
  match b.range.getD index none, b.dualToRange.getD index none with
  | some r, some d => mkInverse (core.mass r d)
  | _, _ => .error .AttributeError

/-- The array `_range_ops`, which has the dimensions of the operator, and the range map (`blocked_operator.py:68-90`). -/
def mkRangeMap (core : Core) (b : BNode) : Res BOp := do
  let invs ← (List.range b.range.length).mapM fun index => do
    let inv ← rowInverse core b index
    if b.domain.length ≤ index then .error .IndexError else .ok inv
  mkBlocks b.range.length b.domain.length fun i j => if i = j then invs[i]? else none

/-- The range map, computed if it is not cached (`blocked_operator.py:65-90`). -/
def getBlockedRangeMap (core : Core) (i : Nat) : BM BOp := fun w =>
  match w.rangeMap i with
  | some op => (.ok op, w)
  | none =>
    match mkRangeMap core (w.node i) with
    | .ok op => (.ok op, { w with rangeMap := fun j => if j = i then some op else w.rangeMap j })
    | .error e => (.error e, w)

/-- `strong_form` of a `BlockedOperator` checks that the operator is complete (`blocked_operator.py:270-276`). -/
def strongCheck (b : BNode) : Res Unit :=
  match b.kind with
  | .base _ => if b.fillComplete = false then .error .ValueError else .ok ()
  | _ => .ok ()

/-- `strong_form` given `weak_form` (`blocked_operator.py:54-92, 270-276`). -/
def blockedStrong (core : Core) (recompute : Bool) (weak : BM BOp) (i : Nat) : BM BOp := fun w =>
  BM.bind (BM.lift (strongCheck (w.node i))) (fun _ w =>
    let w := if recompute then { w with rangeMap := fun j => if j = i then none else w.rangeMap j } else w
    BM.bind (getBlockedRangeMap core i) (fun m => BM.bind weak fun u => BM.lift (m.mul u)) w) w

/-- `_weak_form_impl` of each class (`blocked_operator.py:255-268, 328-330, 374-376, 420-421`). -/
def blockedWeakImpl (comp : Components) (weak strong : Nat → BM BOp) (i : Nat) : BM BOp := fun w =>
  match (w.node i).kind with
  | .base ops =>
    if (w.node i).fillComplete = false then (.error .ValueError, w)
    else (mkBlocks (w.node i).range.length (w.node i).domain.length fun a b => (ops a b).map comp.form, w)
  | .sum a b => BM.bind (weak a) (fun u => BM.bind (weak b) fun v => BM.lift (u.add v)) w
  | .product a b => BM.bind (weak a) (fun u => BM.bind (strong b) fun v => BM.lift (u.mul v)) w
  | .scaled a c => BM.bind (weak a) (fun u => BM.lift (.ok (u.smul c))) w

/-- `weak_form(recompute)` (`blocked_operator.py:35-52`); the first argument bounds the depth of the recursion. -/
def blockedWeak (core : Core) (comp : Components) : Nat → Bool → Nat → BM BOp
  | 0, _, _ => BM.lift (.error .RuntimeError)
  | n + 1, recompute, i => fun w =>
    let w := if recompute then { w with weak := fun j => if j = i then none else w.weak j } else w
    match w.weak i with
    | some op => (.ok op, w)
    | none =>
      match blockedWeakImpl comp (blockedWeak core comp n false)
        (fun b => blockedStrong core false (blockedWeak core comp n false b) b) i w with
      | (.ok op, w') => (.ok op, { w' with weak := fun j => if j = i then some op else w'.weak j })
      | (.error e, w') => (.error e, w')

/-- What a user does: assignments and requests of weak and strong forms. -/
inductive BAction where
  | setItem (b i j k : Nat)
  | weakForm (recompute : Bool) (b : Nat)
  | strongForm (recompute : Bool) (b : Nat)

/-- One action; an assignment returns nothing. -/
def bstep (core : Core) (comp : Components) (a : BAction) (w : BWorld) : Res (Option BOp) × BWorld :=
  match a with
  | .setItem b i j k =>
    match (w.node b).setItem comp i j k with
    | .ok n => (.ok none, { w with node := fun c => if c = b then n else w.node c })
    | .error e => (.error e, w)
  | .weakForm r b => let p := blockedWeak core comp (b + 1) r b w; (p.1.map some, p.2)
  | .strongForm r b => let p := blockedStrong core r (blockedWeak core comp (b + 1) r b) b w; (p.1.map some, p.2)

/-- A history. -/
def brun (core : Core) (comp : Components) : List BAction → BWorld → List (Res (Option BOp)) × BWorld
  | [], w => ([], w)
  | a :: l, w =>
    let p := bstep core comp a w
    let q := brun core comp l p.2
    (p.1 :: q.1, q.2)

/-- Nothing is cached. -/
def BWorld.fresh (nodes : Nat → BNode) : BWorld := ⟨nodes, fun _ => none, fun _ => none⟩

/-! ### Lists of grid functions -/

/-- `x[start:stop] = v` for one-dimensional arrays, with broadcasting. -/
def Arr.assign (x : Arr) (start n : Nat) (v : Arr) : Res Arr :=
  if v.rows = n ∨ v.rows = 1 then
    .ok { x with e := fun p k => if start ≤ p ∧ p < start + n then v.e (if v.rows = 1 then 0 else p - start) 0 else x.e p k }
  else .error .ValueError

/-- Assignment of the vectors to consecutive slices of the sizes `dims`. -/
def assignAll : (x : Arr) → (pos : Nat) → (dims : List Nat) → (vs : List Arr) → Res Arr
  | x, pos, d :: ds, v :: vs => do
    let x ← x.assign pos d v
    assignAll x (pos + d) ds vs
  | x, _, _, _ => .ok x

/-- `x[start:start + n]` of a one-dimensional array. -/
def Arr.part (x : Arr) (start n : Nat) : Arr :=
  ⟨false, min (start + n) x.rows - min start x.rows, 1, x.complex, fun p k => x.e (start + p) k⟩

/-- Consecutive slices of the sizes `dims`. -/
def splitAll (x : Arr) : (pos : Nat) → (dims : List Nat) → List Arr
  | _, [] => []
  | pos, d :: ds => x.part pos d :: splitAll x (pos + d) ds

/-- `op * [f0, f1, …]` for an operator with the weak form `weak`; `fs` are the spaces and coefficients of the functions
(`blocked_operator.py:147-181`). -/
def applyList (b : BNode) (weak : BOp) (fs : List (Space × Arr)) : Res (List GF) :=
  if fs.length ≠ b.domain.length then .error .ValueError
  else if fs.length = 0 then .error .IndexError
  else do
    let x ← assignAll ⟨false, weak.shape.2, 1, fs.any (·.2.complex), fun _ _ => 0⟩ 0 weak.colDims (fs.map (·.2))
    let res ← weak.apply x
    (((splitAll res 0 weak.rowDims).zip (b.range.zip b.dualToRange)).mapM fun p =>
      match p.2.1, p.2.2 with
      | some r, some d => GF.new r (some d) none none (some p.1)
      | _, _ => .error .AttributeError)

/-- `coefficients_of_grid_function_list` (`blocked_operator.py:869-893`). -/
def coefficientsOfList (core : Core) (fs : List (Space × Arr)) : Res Arr :=
  assignAll ⟨false, (fs.map fun f => core.dofs f.1).sum, 1, fs.any (·.2.complex), fun _ _ => 0⟩ 0 (fs.map fun f => core.dofs f.1)
    (fs.map (·.2))

/-- `projections_of_grid_function_list` (`blocked_operator.py:895-928`), given the results of `projections`; `zip` drops functions or
spaces without partner, see `projectionsOfFunctions`. -/
def projectionsOfList (ps : List Arr) : Res Arr :=
  assignAll ⟨false, (ps.map (·.rows)).sum, 1, ps.any (·.complex), fun _ _ => 0⟩ 0 (ps.map (·.rows)) ps

/-- The list of projections and the vector (`blocked_operator.py:914-928`). -/
def projectionsOfFunctions (core : Core) (fs : List GF) (spaces : List Space) : Res Arr := do
  let ps ← (fs.zip spaces).mapM fun p => (p.1.projections core (some p.2)).1
  projectionsOfList ps

/-- `grid_function_list_from_coefficients` (`blocked_operator.py:931-952`). -/
def listFromCoefficients (core : Core) (x : Arr) (spaces : List Space) : Res (List GF) :=
  ((splitAll x 0 (spaces.map core.dofs)).zip spaces).mapM fun p => GF.new p.2 none none (some p.1) none

end

end Verif.PyOp
