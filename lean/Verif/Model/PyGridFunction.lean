import Verif.Model.PyBoundary
/-
Model of python/bempp/api/assembly/grid_function.py.

Grid functions are mutable objects, numbered in the order of their construction.  `f - g` is `f + (-g)`, `-f` is `-1.0 * f` and
`f / alpha` is `(1. / alpha) * f` (`grid_function.py:444-461`), so only `+` and factors are modelled.  Not modelled: plotting,
parameters, sharing of arrays between functions and callers.  Evaluation, gradients and `relative_error`: C118.
-/
namespace Verif.PyOp
noncomputable section

/-- `_space`, `_dual_space`, `_coefficients`, `_dual_coefficients`, `_representation == 'primal'`. -/
structure GF where
  space : Space
  dual : Space
  coeffs : Option Arr
  duals : Option Arr
  primal : Bool

/-- `coefficients.setter` (`grid_function.py:491-500`). -/
def GF.setCoefficients (f : GF) (v : Arr) : Res GF :=
  if v.twoD = true then .error .ValueError
  else .ok { f with coeffs := some v, primal := true, duals := none }

/-- `__init__` (`grid_function.py:99-143`); `fun` is what `calculate_projection` returns (C77).  `representation` is set by the setter
and below. -/
def GF.new (space : Space) (dual : Option Space) (fn coefficients projections : Option Arr) : Res GF :=
  if ([fn, coefficients, projections].filter (·.isSome)).length ≠ 1 then .error .ValueError
  else
    let f : GF := ⟨space, dual.getD space, none, none, false⟩
    match coefficients with
    | some v => f.setCoefficients v
    | none =>
      match fn with
      | some p => .ok { f with duals := some p }
      | none => .ok { f with duals := projections }

/-- `_compute_coefficients` (`grid_function.py:145-159`). -/
def computeCoefficients (core : Core) (space : Space) (p : Arr) (dual : Space) : Res Arr :=
  if p.twoD = true ∧ p.rows ≠ 1 ∧ p.cols ≠ 1 then .error .ValueError
  else do
    let inv ← mkInverse (core.mass space dual)
    inv.apply p

/-- `coefficients` (`grid_function.py:482-489`). -/
def GF.coefficients (core : Core) (f : GF) : Res Arr × GF :=
  match f.coeffs with
  | some c => (.ok c, f)
  | none =>
    match f.duals with
    | none => (.error .TypeError, f)
    | some p =>
      match computeCoefficients core f.space p f.dual with
      | .ok c => (.ok c, { f with coeffs := some c, primal := true })
      | .error e => (.error e, f)

/-- The rest of `projections` (`grid_function.py:213-216`): the dual space is set before the coefficients are requested. -/
def GF.project (core : Core) (f : GF) (E : Space) : Res Arr × GF :=
  match ({ f with dual := E } : GF).coefficients core with
  | (.ok c, g) =>
    match (Op.sparse (core.mass f.space E)).apply c with
    | .ok y => (.ok y, { g with duals := some y })
    | .error e => (.error e, g)
  | (.error e, g) => (.error e, g)

/-- `projections` (`grid_function.py:184-218`). -/
def GF.projections (core : Core) (f : GF) (dual : Option Space) : Res Arr × GF :=
  let E := dual.getD f.dual
  match f.duals with
  | some p => if E = f.dual then (.ok p, f) else f.project core E
  | none => f.project core E

/-- `alpha * f` (`grid_function.py:414-431`). -/
def GF.smul (core : Core) (alpha : Scalar) (f : GF) : Res GF :=
  if f.primal = false then
    match f.duals with
    | some p => GF.new f.space (some f.dual) none none (some (p.smul alpha))
    | none => .error .TypeError
  else
    match f.coefficients core with
    | (.ok c, _) => GF.new f.space none none (some (c.smul alpha)) none
    | (.error e, _) => .error e

/-- `real` and `imag` (`grid_function.py:514-541`); `part` is `np.real` or `np.imag`. -/
def GF.part (core : Core) (part : Arr → Arr) (f : GF) : Res GF :=
  if f.primal = true then
    match f.coefficients core with
    | (.ok c, _) => GF.new f.space (some f.dual) none (some (part c)) none
    | (.error e, _) => .error e
  else
    match f.projections core none with
    | (.ok p, _) => GF.new f.space (some f.dual) none none (some (part p))
    | (.error e, _) => .error e

/-- All grid functions constructed so far. -/
structure Heap where
  obj : Nat → GF
  size : Nat

/-- Object `i` after a method. -/
def Heap.set (h : Heap) (i : Nat) (f : GF) : Heap := { h with obj := fun j => if j = i then f else h.obj j }

/-- A new object. -/
def Heap.push (h : Heap) (r : Res GF) : Res (Option Arr) × Heap :=
  match r with
  | .ok f => (.ok none, { obj := fun j => if j = h.size then f else h.obj j, size := h.size + 1 })
  | .error e => (.error e, h)

/-- `f + g` (`grid_function.py:399-412`). -/
def Heap.add (core : Core) (h : Heap) (i j : Nat) : Res (Option Arr) × Heap :=
  if (h.obj i).space ≠ (h.obj j).space then (.error .ValueError, h)
  else if (h.obj i).primal = false ∧ (h.obj j).primal = false ∧ (h.obj i).dual = (h.obj j).dual then
    let p := (h.obj i).projections core none
    let h := h.set i p.2
    let q := (h.obj j).projections core none
    let h := h.set j q.2
    h.push (do
      let u ← p.1
      let v ← q.1
      let s ← u.add v
      GF.new (h.obj i).space (some (h.obj i).dual) none none (some s))
  else
    let p := (h.obj i).coefficients core
    let h := h.set i p.2
    let q := (h.obj j).coefficients core
    let h := h.set j q.2
    h.push (do
      let u ← p.1
      let v ← q.1
      let s ← u.add v
      GF.new (h.obj i).space none none (some s) none)

/-- `op * f` for a boundary operator with the weak form `op` (`boundary_operator.py:93-101`). -/
def Heap.apply (core : Core) (h : Heap) (op : Op) (domain range dualToRange : Space) (i : Nat) : Res (Option Arr) × Heap :=
  if ¬ core.compatible domain (h.obj i).space = true then (.error .ValueError, h)
  else
    let p := (h.obj i).coefficients core
    let h := h.set i p.2
    h.push (do
      let c ← p.1
      let y ← op.apply c
      GF.new range (some dualToRange) none none (some y))

/-- What a user does with grid functions. -/
inductive GAction where
  | new (space : Space) (dual : Option Space) (fn coefficients projections : Option Arr)
  | coefficients (i : Nat)
  | projections (i : Nat) (dual : Option Space)
  | setCoefficients (i : Nat) (v : Arr)
  | add (i j : Nat)
  | smul (alpha : Scalar) (i : Nat)
  | real (i : Nat)
  | imag (i : Nat)
  | apply (op : Op) (domain range dualToRange : Space) (i : Nat)

/-- One action: the array returned, if any, and the new state. -/
def gstep (core : Core) (a : GAction) (h : Heap) : Res (Option Arr) × Heap :=
  match a with
  | .new s d f c p => h.push (GF.new s d f c p)
  | .coefficients i => let r := (h.obj i).coefficients core; (r.1.map some, h.set i r.2)
  | .projections i d => let r := (h.obj i).projections core d; (r.1.map some, h.set i r.2)
  | .setCoefficients i v =>
    match (h.obj i).setCoefficients v with
    | .ok f => (.ok none, h.set i f)
    | .error e => (.error e, h)
  | .add i j => h.add core i j
  | .smul alpha i => h.push ((h.obj i).smul core alpha)
  | .real i => h.push ((h.obj i).part core Arr.real)
  | .imag i => h.push ((h.obj i).part core Arr.imag)
  | .apply op domain range dual i => h.apply core op domain range dual i

/-- A history. -/
def grun (core : Core) : List GAction → Heap → List (Res (Option Arr)) × Heap
  | [], h => ([], h)
  | a :: l, h =>
    let p := gstep core a h
    let q := grun core l p.2
    (p.1 :: q.1, q.2)

/-- The square of `l2_norm()` (`grid_function.py:331-338`): the modulus of `vec.conjugate().T.dot(mass.dot(vec))`. -/
def l2NormSquared (core : Core) (space : Space) (c : Arr) : ℝ :=
  ‖∑ i ∈ Finset.range c.rows, star (c.e i 0) * ∑ j ∈ Finset.range (core.mass space space).cols, (core.mass space space).e i j * c.e j 0‖

/-- `integrate` (`grid_function.py:270-290`): `terms` are the sums over the quadrature points of the elements, arrays of length
`components`, and `complex` tells whether they are complex arrays (C118 models when).  `res += …` broadcasts the array to the shape of `res` and does not change the type of `res`. -/
def integrate (components : Nat) (complex : Bool) (terms : List (Nat → ℂ)) : Res Arr :=
  terms.foldlM (fun (res : Arr) term =>
    if complex = true then .error .TypeError
    else if components ≠ 1 then .error .ValueError
    else .ok { res with e := fun i j => res.e i j + term i }) ⟨true, components, 1, false, fun _ _ => 0⟩

end

end Verif.PyOp
