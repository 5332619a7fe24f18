import Verif.Model.PyDiscrete
import Mathlib.LinearAlgebra.Matrix.ConjTranspose
/-
Specification of the Python layer's discrete operators: expressions a user can write, the matrices they stand for, and what it means
that an operator acts as a matrix.
-/
namespace Verif.PyOp
open Verif.DiscreteOp
noncomputable section

/-- The expressions: operators given by dense and sparse matrices, nonlocal operators of the C++ library, zero operators, rank-one
operators, inverses of sparse operators, and `a + b`, `a - b`, `-a`, `c * a`, `a * b`, `a.transpose()`, `a.adjoint()`. -/
inductive Expr where
  | dense (A : Arr)
  | sparse (A : Arr)
  | nonlocal (complex : Bool) (rows cols : Nat) (e : Nat → Nat → ℂ)
  | zero (rows cols : Nat)
  | rankOne (column row : Arr)
  | inverse (A : Arr)
  | add (a b : Expr)
  | sub (a b : Expr)
  | neg (a : Expr)
  | smul (c : Scalar) (a : Expr)
  | mul (a b : Expr)
  | transpose (a : Expr)
  | adjoint (a : Expr)

/-- Evaluation of an expression by the library. -/
def Expr.eval : Expr → Res Op
  | .dense A => .ok (.dense A)
  | .sparse A => .ok (.sparse A)
  | .nonlocal complex rows cols e => .ok (.nonlocal ⟨complex, rows, cols, e, .NO_TRANSPOSE⟩)
  | .zero rows cols => .ok (.zero rows cols)
  | .rankOne column row => .ok (.rankOne column row)
  | .inverse A => mkInverse A
  | .add a b => do
    let u ← a.eval
    let v ← b.eval
    u.add v
  | .sub a b => do
    let u ← a.eval
    let v ← b.eval
    u.sub v
  | .neg a => do
    let u ← a.eval
    .ok u.neg
  | .smul c a => do
    let u ← a.eval
    .ok (u.smul c)
  | .mul a b => do
    let u ← a.eval
    let v ← b.eval
    u.mul v
  | .transpose a => do
    let u ← a.eval
    u.transpose
  | .adjoint a => do
    let u ← a.eval
    u.adjoint

/-- The conditions of Moore and Penrose: `X` is the pseudo-inverse of `A` (for a nonsingular square `A`: the inverse). -/
def IsPseudoInverse {m n : Nat} (A : Matrix (Fin m) (Fin n) ℂ) (X : Matrix (Fin n) (Fin m) ℂ) : Prop :=
  A * X * A = A ∧ X * A * X = X ∧ (A * X).conjTranspose = A * X ∧ (X * A).conjTranspose = X * A

/-- The `r × c` matrix an expression stands for, by the rules of matrix algebra. -/
inductive Denotes : Expr → (r c : Nat) → Matrix (Fin r) (Fin c) ℂ → Prop where
  | dense (A : Arr) : Denotes (.dense A) A.rows A.cols (Matrix.of fun i j => A.e i j)
  | sparse (A : Arr) : Denotes (.sparse A) A.rows A.cols (Matrix.of fun i j => A.e i j)
  | nonlocal (complex : Bool) (rows cols : Nat) (e : Nat → Nat → ℂ) :
      Denotes (.nonlocal complex rows cols e) rows cols (Matrix.of fun i j => e i j)
  | zero (rows cols : Nat) : Denotes (.zero rows cols) rows cols 0
  | rankOne (column row : Arr) :
      Denotes (.rankOne column row) column.rows row.rows (Matrix.of fun i j => column.e i 0 * row.e j 0)
  | inverse (A : Arr) (X : Matrix (Fin A.cols) (Fin A.rows) ℂ) (h : IsPseudoInverse (Matrix.of fun i j => A.e i j) X) :
      Denotes (.inverse A) A.cols A.rows X
  | add {a b : Expr} {r c : Nat} {A B : Matrix (Fin r) (Fin c) ℂ} (ha : Denotes a r c A) (hb : Denotes b r c B) :
      Denotes (.add a b) r c (A + B)
  | sub {a b : Expr} {r c : Nat} {A B : Matrix (Fin r) (Fin c) ℂ} (ha : Denotes a r c A) (hb : Denotes b r c B) :
      Denotes (.sub a b) r c (A - B)
  | neg {a : Expr} {r c : Nat} {A : Matrix (Fin r) (Fin c) ℂ} (ha : Denotes a r c A) : Denotes (.neg a) r c (-A)
  | smul (s : Scalar) {a : Expr} {r c : Nat} {A : Matrix (Fin r) (Fin c) ℂ} (ha : Denotes a r c A) :
      Denotes (.smul s a) r c (s.value • A)
  | mul {a b : Expr} {r k c : Nat} {A : Matrix (Fin r) (Fin k) ℂ} {B : Matrix (Fin k) (Fin c) ℂ} (ha : Denotes a r k A)
      (hb : Denotes b k c B) : Denotes (.mul a b) r c (A * B)
  | transpose {a : Expr} {r c : Nat} {A : Matrix (Fin r) (Fin c) ℂ} (ha : Denotes a r c A) : Denotes (.transpose a) c r A.transpose
  | adjoint {a : Expr} {r c : Nat} {A : Matrix (Fin r) (Fin c) ℂ} (ha : Denotes a r c A) : Denotes (.adjoint a) c r A.conjTranspose

/-- Linearly independent columns (tall and square matrices) or rows (wide matrices). -/
def FullRank (A : Arr) : Prop :=
  if A.rows ≥ A.cols then Function.Injective (Matrix.of fun (i : Fin A.rows) (j : Fin A.cols) => A.e i j).mulVec
  else Function.Injective (Matrix.of fun (i : Fin A.rows) (j : Fin A.cols) => A.e i j).conjTranspose.mulVec

/-- Arrays whose entries are real if their type is. -/
def Arr.Typed (A : Arr) : Prop := A.complex = false → ∀ i j, star (A.e i j) = A.e i j

/-- The arrays in the expression are what their classes expect: matrices, in rank-one operators vectors, in inverses matrices of full
rank, with real entries if their type is real; matrices with only one row or column are not inverted. -/
def Expr.Wellformed : Expr → Prop
  | .dense A => A.twoD = true ∧ A.Typed
  | .sparse A => A.twoD = true ∧ A.Typed
  | .nonlocal complex _ _ e => complex = false → ∀ i j, star (e i j) = e i j
  | .zero _ _ => True
  | .rankOne column row =>
      (column.twoD = false ∧ column.cols = 1 ∧ column.Typed) ∧ row.twoD = false ∧ row.cols = 1 ∧ row.Typed
  | .inverse A => (A.twoD = true ∧ A.Typed) ∧ FullRank A ∧ A.rows ≠ 1 ∧ A.cols ≠ 1
  | .add a b => a.Wellformed ∧ b.Wellformed
  | .sub a b => a.Wellformed ∧ b.Wellformed
  | .neg a => a.Wellformed
  | .smul c a => (c.complex = false → star c.value = c.value) ∧ a.Wellformed
  | .mul a b => a.Wellformed ∧ b.Wellformed
  | .transpose a => a.Wellformed
  | .adjoint a => a.Wellformed

/-- `P` holds for the expression and all its subexpressions. -/
def Expr.Every (P : Expr → Prop) : Expr → Prop
  | .add a b => P (.add a b) ∧ a.Every P ∧ b.Every P
  | .sub a b => P (.sub a b) ∧ a.Every P ∧ b.Every P
  | .neg a => P (.neg a) ∧ a.Every P
  | .smul c a => P (.smul c a) ∧ a.Every P
  | .mul a b => P (.mul a b) ∧ a.Every P ∧ b.Every P
  | .transpose a => P (.transpose a) ∧ a.Every P
  | .adjoint a => P (.adjoint a) ∧ a.Every P
  | leaf => P leaf

/-- The expression contains no zero operator. -/
def Expr.ZeroFree (e : Expr) : Prop := e.Every fun s => ∀ r c, s ≠ .zero r c

/-- All numbers in the expression are real. -/
def Expr.RealScalars (e : Expr) : Prop := e.Every fun s => ∀ c a, s = .smul c a → star c.value = c.value

/-- The expression contains no nonlocal operator. -/
def Expr.NonlocalFree (e : Expr) : Prop := e.Every fun s => ∀ z r c f, s ≠ .nonlocal z r c f

/-- No nonlocal operator of the expression is transposed (adjoints are allowed). -/
def Expr.NonlocalUntransposed (e : Expr) : Prop := e.Every fun s => ∀ a, s = .transpose a → a.NonlocalFree

/-- The expressions for which the claims hold: zero operators are neither transposed nor part of an adjoint, and adjoints are formed
only of expressions without complex numbers and without transposed nonlocal operators. -/
def Expr.Permitted (e : Expr) : Prop := e.Every fun s =>
  (∀ a, s = .transpose a → a.ZeroFree) ∧
  (∀ a, s = .adjoint a → a.ZeroFree ∧ a.RealScalars ∧ a.NonlocalUntransposed)

/-- `y` is the product of the matrix `M` and the array `x`, with the dimensions of `x`. -/
def IsProduct {r c : Nat} (M : Matrix (Fin r) (Fin c) ℂ) (x y : Arr) : Prop :=
  y.twoD = x.twoD ∧ y.rows = r ∧ y.cols = x.cols ∧
  ∀ j < x.cols, (fun i : Fin r => y.e i j) = M.mulVec fun k : Fin c => x.e k j

/-- The operator acts as the `r × c` matrix `M`: `op * x` for vectors and for matrices with at least one column, and the methods
`matvec` and `matmat` called by SciPy's solvers, return the product. -/
def Acts (op : Op) {r c : Nat} (M : Matrix (Fin r) (Fin c) ℂ) : Prop :=
  op.shape = (r, c) ∧ ∀ x : Arr, x.rows = c → 1 ≤ x.cols → (x.twoD = false → x.cols = 1) →
    (∃ y, op.apply x = .ok y ∧ IsProduct M x y) ∧
    (x.cols = 1 → ∃ y, op.matvec x = .ok y ∧ IsProduct M x y) ∧
    (x.twoD = true → ∃ y, op.matmat x = .ok y ∧ IsProduct M x y)

/-- The sum of the squares of the absolute values of the entries. -/
def energy {n : Nat} (v : Fin n → ℂ) : ℝ := ∑ i, Complex.normSq (v i)

/-- The expression is built with `+`, `-`, real factors and products from dense operators with real entries, zero operators,
rank-one operators and inverses. -/
def Expr.RMatvecAllowed (e : Expr) : Prop := e.Every fun s =>
  (∀ A, s = .dense A → ∀ i j, star (A.e i j) = A.e i j) ∧ (∀ A, s ≠ .sparse A) ∧ (∀ z r c f, s ≠ .nonlocal z r c f) ∧
  (∀ c a, s = .smul c a → star c.value = c.value) ∧ (∀ a, s ≠ .transpose a) ∧ (∀ a, s ≠ .adjoint a)

/-- The expression contains neither `transpose()` nor `adjoint()`. -/
def Expr.Plain (e : Expr) : Prop := e.Every fun s => (∀ a, s ≠ .transpose a) ∧ (∀ a, s ≠ .adjoint a)

end

end Verif.PyOp
