import Mathlib.Data.Rat.Defs
import Mathlib.Algebra.Order.Ring.Rat
import Mathlib.Data.Finset.Basic
import Mathlib.Algebra.BigOperators.Group.Finset.Basic
/-
Model of `memory` and `elementary_operators` of discrete operators (python/bempp/api/assembly/discrete_boundary_operator.py).  Objects
are compared by identity (neither the classes nor SciPy's `LinearOperator` define `__eq__`).  Sizes are multiples of 1/1024, so that
the additions of floating-point numbers are exact below 2^43 kb; they are rational numbers here.  Python 3 (`/` is exact).
-/
namespace Verif.DMem

/-- The objects that hold data: a `DenseDiscreteBoundaryOperator` with its entries and the size of one, a
`SparseDiscreteBoundaryOperator` with the bytes of `data`, `indices` and `indptr`, a `GeneralNonlocalDiscreteBoundaryOperator` of an
H-matrix with `memSizeKb()`, and one of another operator. -/
inductive Elementary where
  | dense (rows cols itemsize : Nat)
  | sparse (data indices indptr : Nat)
  | hmatrix (kb : Int)
  | otherNonlocal

/-- The discrete operators.  `elementary i` is the object with identity `i`; the operand of an inverse is a sparse operator
(`inverse i`) or a SciPy matrix (`inverseOfMatrix`). -/
inductive DOp where
  | sum (op1 op2 : DOp)
  | product (op1 op2 : DOp)
  | scaled (op : DOp)
  | elementary (i : Nat)
  | inverse (i : Nat)
  | inverseOfMatrix
  | zero
  | rankOne
  | blocked

/-- Exceptions. -/
inductive Exn where
  | typeError | valueError | attributeError | notImplemented
deriving DecidableEq, Repr

/-- What `elementary_operators()` returns: a set, or the empty dictionary `{}`. -/
inductive PyColl where
  | set (elems : Finset Nat)
  | emptyDict

/-- The operator `|`.  For dictionaries it exists since Python 3.9 (`dictUnion`). -/
def PyColl.union (dictUnion : Bool) : PyColl → PyColl → Except Exn PyColl
  | .set a, .set b => .ok (.set (a ∪ b))
  | .emptyDict, .emptyDict => if dictUnion then .ok .emptyDict else .error .typeError
  | _, _ => .error .typeError

/-- `elementary_operators` (`discrete_boundary_operator.py:105-107, 152-156, 201-205, 239-241, 287-289, 361-363, 451-453, 505-507,
549-551, 602-604`); that of blocked operators is the base class's.  A SciPy matrix has no such method. -/
def DOp.elementaryOperators (dictUnion : Bool) : DOp → Except Exn PyColl
  | .sum a b =>
    match a.elementaryOperators dictUnion with
    | .error e => .error e
    | .ok x =>
      match b.elementaryOperators dictUnion with
      | .error e => .error e
      | .ok y => x.union dictUnion y
  | .product a b =>
    match a.elementaryOperators dictUnion with
    | .error e => .error e
    | .ok x =>
      match b.elementaryOperators dictUnion with
      | .error e => .error e
      | .ok y => x.union dictUnion y
  | .scaled a => a.elementaryOperators dictUnion
  | .elementary i => .ok (.set {i})
  | .inverse i => .ok (.set {i})
  | .inverseOfMatrix => .error .attributeError
  | .zero => .ok .emptyDict
  | .rankOne => .ok .emptyDict
  | .blocked => .error .notImplemented

/-- `_memory` (`discrete_boundary_operator.py:282-285, 358-359, 447-449`), `mem_size` (`hmatrix_interface.py:54-63`) and `mem_size_ext`
(`hmatrix_interface.pyx:90-101`). -/
def Elementary.memory : Elementary → Except Exn Rat
  | .dense r c s => .ok ((r * c * s : Nat) / 1024)
  | .sparse d i p => .ok ((d + i + p : Nat) / 1024)
  | .hmatrix kb => .ok kb
  | .otherNonlocal => .error .valueError

/-- `sum([operator._memory for operator in ops])`: the list comprehension first, then the sum from the left. -/
def sumMemory (store : Nat → Elementary) : List Nat → Rat → Except Exn Rat
  | [], acc => .ok acc
  | i :: is, acc =>
    match (store i).memory with
    | .error e => .error e
    | .ok m => sumMemory store is (acc + m)

/-- `memory` (`discrete_boundary_operator.py:109-114`): `r` is a possible outcome, for an order in which the set is enumerated. -/
def DOp.Memory (dictUnion : Bool) (store : Nat → Elementary) (op : DOp) (r : Except Exn Rat) : Prop :=
  match op.elementaryOperators dictUnion with
  | .error e => r = .error e
  | .ok .emptyDict => r = .ok 0
  | .ok (.set s) => ∃ order : List Nat, order.Nodup ∧ (∀ i, i ∈ order ↔ i ∈ s) ∧ r = sumMemory store order 0

end Verif.DMem
