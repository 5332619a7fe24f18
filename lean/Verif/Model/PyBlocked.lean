import Verif.Model.PyDiscrete
/-
Model of the discrete blocked operators of python/bempp/api/assembly/blocked_operator.py:451-866.

Simplifications: the blocks are operators of `discrete_boundary_operator.py` (not blocked operators again); sums and products with
operators that are not blocked, which these classes leave to their base class, are not modelled; indices of `op[i, j]` are in range;
operands of `op * x` are numbers, blocked operators and arrays of float64 or complex128 with one or two dimensions.
-/
namespace Verif.PyOp
noncomputable section

/-- `BlockedDiscreteOperator` with its row and column dimensions and blocks, `BlockedDiscreteOperatorSum`,
`BlockedDiscreteOperatorProduct` and `BlockedScaledDiscreteOperator` (`blocked_operator.py:577, 718, 768, 826`). -/
inductive BOp where
  | blocks (rows cols : List Nat) (ops : Nat → Nat → Op)
  | sum (op1 op2 : BOp)
  | product (op1 op2 : BOp)
  | scaled (op : BOp) (alpha : Scalar)

/-- `row_dimensions` (`blocked_operator.py:691-695, 757-760, 815-818, 858-861`). -/
def BOp.rowDims : BOp → List Nat
  | .blocks rows _ _ => rows
  | .sum a _ => a.rowDims
  | .product a _ => a.rowDims
  | .scaled a _ => a.rowDims

/-- `column_dimensions` (`blocked_operator.py:714-715, 762-765, 820-823, 863-866`). -/
def BOp.colDims : BOp → List Nat
  | .blocks _ cols _ => cols
  | .sum a _ => a.colDims
  | .product _ b => b.colDims
  | .scaled a _ => a.colDims

/-- `shape` (`blocked_operator.py:633, 721-740, 771-785, 829-841`). -/
def BOp.shape : BOp → Nat × Nat
  | .blocks rows cols _ => (rows.sum, cols.sum)
  | .sum a _ => a.shape
  | .product a b => (a.shape.1, b.shape.2)
  | .scaled a _ => a.shape

/-- `ndims` (`blocked_operator.py:475, 642-643, 721-740, 771-785, 829-841`). -/
def BOp.ndims : BOp → Nat × Nat
  | .blocks rows cols _ => (rows.length, cols.length)
  | .sum a _ => a.ndims
  | .product a b => (a.ndims.1, b.ndims.2)
  | .scaled a _ => a.ndims

/-! ### The constructor of `BlockedDiscreteOperator` -/

/-- The arrays `_rows` and `_cols` while the blocks are checked; `none` is the entry `-1`. -/
structure Scan where
  rows : Nat → Option Nat
  cols : Nat → Option Nat

/-- The check of one block against the known dimension of its row or column (`blocked_operator.py:603-617`). -/
def checkDim (known : Nat → Option Nat) (index size : Nat) : Res (Nat → Option Nat) :=
  match known index with
  | some n => if size ≠ n then .error .ValueError else .ok known
  | none => .ok (Function.update known index (some size))

/-- The body of the loop (`blocked_operator.py:601-618`). -/
def scanBlock (ops : Nat → Nat → Option Op) (s : Scan) (i j : Nat) : Res Scan :=
  match ops i j with
  | none => .ok s
  | some op => do
    let rows ← checkDim s.rows i op.shape.1
    let cols ← checkDim s.cols j op.shape.2
    .ok ⟨rows, cols⟩

/-- The two loops (`blocked_operator.py:599-618`). -/
def scanBlocks (m n : Nat) (ops : Nat → Nat → Option Op) : Res Scan :=
  (List.range m).foldlM (fun s i => (List.range n).foldlM (fun s j => scanBlock ops s i j) s) ⟨fun _ => none, fun _ => none⟩

/-- `_fill_complete` (`blocked_operator.py:649-652`). -/
def fillComplete (m n : Nat) (s : Scan) : Bool :=
  (List.range m).all (fun i => (s.rows i).isSome) && (List.range n).all (fun j => (s.cols j).isSome)

/-- `BlockedDiscreteOperator(ops)` for an `m × n` array of operators and `None` (`blocked_operator.py:580-643`). -/
def mkBlocks (m n : Nat) (ops : Nat → Nat → Option Op) : Res BOp := do
  let s ← scanBlocks m n ops
  if fillComplete m n s = false then .error .ValueError
  else
    let rows := (List.range m).map fun i => (s.rows i).getD 0
    let cols := (List.range n).map fun j => (s.cols j).getD 0
    .ok (.blocks rows cols fun i j => (ops i j).getD (.zero (rows.getD i 0) (cols.getD j 0)))

/-! ### Products with arrays -/

/-- `x[start:start + n, :]`. -/
def Arr.slice (x : Arr) (start n : Nat) : Arr :=
  ⟨true, min (start + n) x.rows - min start x.rows, x.cols, x.complex, fun p k => x.e (start + p) k⟩

/-- `res[start:start + n, :] += y`: NumPy broadcasts `y` and refuses to add a complex array to a real one. -/
def Arr.addRows (res : Arr) (start n : Nat) (y : Arr) : Res Arr :=
  if y.complex = true ∧ res.complex = false then .error .TypeError
  else if (y.rows = n ∨ y.rows = 1) ∧ (y.cols = res.cols ∨ y.cols = 1) then
    .ok ⟨res.twoD, res.rows, res.cols, res.complex, fun p k =>
      if start ≤ p ∧ p < start + n then
        res.e p k + y.e (if y.rows = 1 then 0 else p - start) (if y.cols = 1 then 0 else k)
      else res.e p k⟩
  else .error .ValueError

/-- The product of one block and the part of `x` (`blocked_operator.py:677-683`). -/
def blockDot (op : Op) (x : Arr) : Res Arr :=
  if x.complex = true ∧ op.complex = false then do
    let u ← op.apply x.real
    let v ← op.apply x.imag
    u.add (v.smul imaginaryUnit)
  else op.apply x

/-- The inner loop of `_matvec`: block row `ops` (from column `j` on, which begins at `colDim`) is applied to `x` and added to rows
`rowDim, …, rowDim + n - 1` of the result (`blocked_operator.py:673-684`). -/
def blockRow (ops : Nat → Op) (x : Arr) (rowDim n : Nat) : (cols : List Nat) → (j colDim : Nat) → (res : Arr) → Res Arr
  | [], _, _, res => .ok res
  | c :: cs, j, colDim, res => do
    let y ← blockDot (ops j) (x.slice colDim c)
    let res ← res.addRows rowDim n y
    blockRow ops x rowDim n cs (j + 1) (colDim + c) res

/-- The outer loop of `_matvec` (`blocked_operator.py:670-685`). -/
def blockRows (ops : Nat → Nat → Op) (cols : List Nat) (x : Arr) : (rows : List Nat) → (i rowDim : Nat) → (res : Arr) → Res Arr
  | [], _, _, res => .ok res
  | r :: rs, i, rowDim, res => do
    let res ← blockRow (ops i) x rowDim r cols 0 0 res
    blockRows ops cols x rs (i + 1) (rowDim + r) res

/-- The `dtype` of a `BlockedDiscreteOperator` is complex (`blocked_operator.py:637-640`). -/
def anyComplex (rows cols : List Nat) (ops : Nat → Nat → Op) : Bool :=
  (List.range rows.length).any fun i => (List.range cols.length).any fun j => (ops i j).complex

/-- `_matvec` of a `BlockedDiscreteOperator` for a two-dimensional array (`blocked_operator.py:654-689`). -/
def blocksMatmat (rows cols : List Nat) (ops : Nat → Nat → Op) (x : Arr) : Res Arr :=
  blockRows ops cols x rows 0 0 ⟨true, rows.sum, x.cols, anyComplex rows cols ops || x.complex, fun _ _ => 0⟩

/-- `_matvec`, which is also `_matmat` and the product with arrays (`blocked_operator.py:512-534, 654-689, 742-743, 787-788,
843-844`); for a vector `BlockedDiscreteOperator` calls SciPy's `matvec` with a matrix of one column. -/
def BOp.rawMatvec : BOp → Arr → Res Arr
  | .blocks rows cols ops, x =>
    if x.twoD then blocksMatmat rows cols ops x
    else do
      let y ← wrapVec rows.sum cols.sum (blocksMatmat rows cols ops) { x with twoD := true, cols := 1 }
      .ok { y with twoD := false }
  | .sum a b, x => do
    let u ← a.rawMatvec x
    let v ← b.rawMatvec x
    u.add v
  | .product a b, x => do
    let u ← b.rawMatvec x
    a.rawMatvec u
  | .scaled a c, x => do
    let u ← a.rawMatvec x
    .ok (u.smul c)

/-- `op * x`, `op.dot(x)`, `op(x)`, `op @ x` for an array (`blocked_operator.py:501-503, 512-530, 545-553`). -/
def BOp.apply (op : BOp) (x : Arr) : Res Arr := op.rawMatvec x

/-- `op.matvec(x)` of SciPy. -/
def BOp.matvec (op : BOp) (x : Arr) : Res Arr := wrapVec op.shape.1 op.shape.2 op.rawMatvec x

/-- `op.matmat(x)` of SciPy. -/
def BOp.matmat (op : BOp) (x : Arr) : Res Arr := wrapMat op.shape.2 op.rawMatvec x

/-- `as_matrix(op)` (`discrete_boundary_operator.py:607-632`). -/
def BOp.asMatrix (op : BOp) : Res Arr := op.apply (eye op.shape.2)

/-! ### Algebra -/

/-- `numpy.any(a != b)` for one-dimensional arrays: arrays of different lengths differ, unless one has length one, which is
broadcast. -/
def anyDiffer (a b : List Nat) : Bool :=
  if a.length = b.length then (a.zip b).any fun p => p.1 != p.2
  else if a.length = 1 then b.any fun n => n != a.getD 0 0
  else if b.length = 1 then a.any fun n => n != b.getD 0 0
  else true

/-- `op1 + op2` (`blocked_operator.py:505-510, 721-740`). -/
def BOp.add (a b : BOp) : Res BOp :=
  if anyDiffer a.rowDims b.rowDims then .error .ValueError
  else if anyDiffer a.colDims b.colDims then .error .ValueError
  else .ok (.sum a b)

/-- `op * c` and `c * op` (`blocked_operator.py:519-520, 536-543, 829-841`). -/
def BOp.smul (a : BOp) (c : Scalar) : BOp := .scaled a c

/-- `-op` (`blocked_operator.py:555-557`). -/
def BOp.neg (a : BOp) : BOp := a.smul ⟨-1, false⟩

/-- `op1 - op2` (`blocked_operator.py:559-561`). -/
def BOp.sub (a b : BOp) : Res BOp := a.add b.neg

/-- `op1 * op2` (`blocked_operator.py:517-518, 771-785`). -/
def BOp.mul (a b : BOp) : Res BOp :=
  if anyDiffer a.colDims b.rowDims then .error .ValueError else .ok (.product a b)

/-- `op[i, j]` (`blocked_operator.py:645-647, 745-747, 790-805, 846-848`). -/
def BOp.getItem : BOp → Nat → Nat → Res Op
  | .blocks _ _ ops, i, j => .ok (ops i j)
  | .sum a b, i, j => do
    let u ← a.getItem i j
    let v ← b.getItem i j
    u.add v
  | .product a b, i, j =>
    (List.range a.ndims.2).foldlM (fun res k => do
      let u ← a.getItem i k
      let v ← b.getItem k j
      let w ← u.mul v
      res.add w) (.zero (a.rowDims.getD i 0) (b.colDims.getD j 0))
  | .scaled a c, i, j => do
    let u ← a.getItem i j
    .ok (u.smul c)

end

end Verif.PyOp
