import Verif.Model.PyBlocked
import Verif.Spec.PyDiscrete
/-
Specification of discrete blocked operators: block matrices and the rules of matrix algebra for them.
-/
namespace Verif.PyOp
noncomputable section

/-- Where block `i` begins if the blocks have the sizes `d`. -/
def offset (d : List Nat) (i : Nat) : Nat := ∑ k ∈ Finset.range i, d.getD k 0

/-- `op` is what the library returns for an expression that stands for the `r × c` matrix `M` (C81). -/
def Built (op : Op) (r c : Nat) (M : Matrix (Fin r) (Fin c) ℂ) : Prop :=
  ∃ e : Expr, e.Wellformed ∧ e.Permitted ∧ Denotes e r c M ∧ e.eval = .ok op

/-- `E` is the table of the block matrix whose block `(i, j)`, of size `rd[i] × cd[j]`, has the entries `B i j`. -/
def IsBlockTable (rd cd : List Nat) (B : Nat → Nat → Nat → Nat → ℂ) (E : Nat → Nat → ℂ) : Prop :=
  ∀ i < rd.length, ∀ j < cd.length, ∀ p < rd.getD i 0, ∀ q < cd.getD j 0, E (offset rd i + p) (offset cd j + q) = B i j p q

/-- Each block that is given has the matrix `B i j` of size `rd[i] × cd[j]`, the others are zero. -/
def BlocksAre (ops : Nat → Nat → Option Op) (rd cd : List Nat) (B : Nat → Nat → Nat → Nat → ℂ) : Prop :=
  ∀ i < rd.length, ∀ j < cd.length,
    (∀ op, ops i j = some op → Built op (rd.getD i 0) (cd.getD j 0) (toM _ _ (B i j))) ∧
    (ops i j = none → ∀ p < rd.getD i 0, ∀ q < cd.getD j 0, B i j p q = 0)

/-- Each of the `m` rows and `n` columns has a block. -/
def Covered (m n : Nat) (ops : Nat → Nat → Option Op) : Prop :=
  (∀ i < m, ∃ j < n, (ops i j).isSome) ∧ ∀ j < n, ∃ i < m, (ops i j).isSome

/-- The expressions: `BlockedDiscreteOperator` of an array, `a + b`, `a - b`, `-a`, `c * a`, `a * b`. -/
inductive BExpr where
  | blocks (m n : Nat) (ops : Nat → Nat → Option Op)
  | add (a b : BExpr)
  | sub (a b : BExpr)
  | neg (a : BExpr)
  | smul (c : Scalar) (a : BExpr)
  | mul (a b : BExpr)

/-- Evaluation by the library. -/
def BExpr.eval : BExpr → Res BOp
  | .blocks m n ops => mkBlocks m n ops
  | .add a b => do
    let u ← a.eval
    let v ← b.eval
    u.add v
  | .sub a b => do
    let u ← a.eval
    let v ← b.eval
    u.sub v
  | .neg a => do
    let u ← a.eval
    .ok u.neg
  | .smul c a => do
    let u ← a.eval
    .ok (u.smul c)
  | .mul a b => do
    let u ← a.eval
    let v ← b.eval
    u.mul v

/-- The block matrix an expression stands for, with the heights of its block rows and the widths of its block columns. -/
inductive BDenotes : BExpr → (rd cd : List Nat) → Matrix (Fin rd.sum) (Fin cd.sum) ℂ → Prop where
  | blocks {m n : Nat} {ops : Nat → Nat → Option Op} {rd cd : List Nat} {B : Nat → Nat → Nat → Nat → ℂ} {E : Nat → Nat → ℂ}
      (hm : rd.length = m) (hn : cd.length = n) (hb : BlocksAre ops rd cd B) (hc : Covered m n ops) (hE : IsBlockTable rd cd B E) :
      BDenotes (.blocks m n ops) rd cd (toM _ _ E)
  | add {a b : BExpr} {rd cd : List Nat} {A B : Matrix (Fin rd.sum) (Fin cd.sum) ℂ} (ha : BDenotes a rd cd A)
      (hb : BDenotes b rd cd B) : BDenotes (.add a b) rd cd (A + B)
  | sub {a b : BExpr} {rd cd : List Nat} {A B : Matrix (Fin rd.sum) (Fin cd.sum) ℂ} (ha : BDenotes a rd cd A)
      (hb : BDenotes b rd cd B) : BDenotes (.sub a b) rd cd (A - B)
  | neg {a : BExpr} {rd cd : List Nat} {A : Matrix (Fin rd.sum) (Fin cd.sum) ℂ} (ha : BDenotes a rd cd A) :
      BDenotes (.neg a) rd cd (-A)
  | smul (s : Scalar) {a : BExpr} {rd cd : List Nat} {A : Matrix (Fin rd.sum) (Fin cd.sum) ℂ} (ha : BDenotes a rd cd A) :
      BDenotes (.smul s a) rd cd (s.value • A)
  | mul {a b : BExpr} {rd kd cd : List Nat} {A : Matrix (Fin rd.sum) (Fin kd.sum) ℂ} {B : Matrix (Fin kd.sum) (Fin cd.sum) ℂ}
      (ha : BDenotes a rd kd A) (hb : BDenotes b kd cd B) : BDenotes (.mul a b) rd cd (A * B)

/-- The blocked operator acts as the `r × c` matrix `M` (compare `Acts`). -/
def BActs (op : BOp) {r c : Nat} (M : Matrix (Fin r) (Fin c) ℂ) : Prop :=
  op.shape = (r, c) ∧ ∀ x : Arr, x.rows = c → 1 ≤ x.cols → (x.twoD = false → x.cols = 1) →
    (∃ y, op.apply x = .ok y ∧ IsProduct M x y) ∧
    (x.cols = 1 → ∃ y, op.matvec x = .ok y ∧ IsProduct M x y) ∧
    (x.twoD = true → ∃ y, op.matmat x = .ok y ∧ IsProduct M x y)

/-- Block `(i, j)` of a matrix with block sizes `rd` and `cd`. -/
def IsBlock {rd cd : List Nat} (M : Matrix (Fin rd.sum) (Fin cd.sum) ℂ) (i j : Nat) {r c : Nat} (S : Matrix (Fin r) (Fin c) ℂ) :
    Prop :=
  r = rd.getD i 0 ∧ c = cd.getD j 0 ∧ ∀ (p : Fin r) (q : Fin c) (s : Fin rd.sum) (t : Fin cd.sum),
    (s : Nat) = offset rd i + p → (t : Nat) = offset cd j + q → M s t = S p q

end

end Verif.PyOp
