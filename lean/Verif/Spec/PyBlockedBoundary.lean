import Verif.Model.PyBlockedBoundary
import Verif.Spec.PyBlocked
import Verif.Spec.PyGridFunction
/-
Specification of blocked boundary operators: what sequences of assignments mean, the discrete blocked operator each blocked operator
stands for, and the programs that construct blocked operators.
-/
namespace Verif.PyOp
noncomputable section

/-- `b[i, j] = k` for each `(i, j, k)` of the list. -/
def assign (comp : Components) (l : List (Nat × Nat × Nat)) (b : BNode) : Res BNode :=
  l.foldlM (fun b a => b.setItem comp a.1 a.2.1 a.2.2) b

/-- The operator assigned last to `(i, j)`. -/
def lastAssigned (l : List (Nat × Nat × Nat)) (i j : Nat) : Option Nat :=
  (l.reverse.find? fun a => a.1 == i && a.2.1 == j).map (·.2.2)

/-- The assignments are to existing positions, and operators in one row have the same range and dual space, those in one column the same
domain. -/
def Consistent (comp : Components) (m n : Nat) (l : List (Nat × Nat × Nat)) : Prop :=
  (∀ a ∈ l, a.1 < m ∧ a.2.1 < n) ∧ ∀ a ∈ l, ∀ b ∈ l,
    (a.1 = b.1 → comp.range a.2.2 = comp.range b.2.2 ∧ comp.dualToRange a.2.2 = comp.dualToRange b.2.2) ∧
    (a.2.1 = b.2.1 → comp.domain a.2.2 = comp.domain b.2.2)

/-- There is an assignment in each row and column. -/
def Filled (m n : Nat) (l : List (Nat × Nat × Nat)) : Prop := (∀ i < m, ∃ a ∈ l, a.1 = i) ∧ ∀ j < n, ∃ a ∈ l, a.2.1 = j

/-- On the diagonal, the inverse of the matrix of the identity from the range to the dual space of each row. -/
def inverseMasses (core : Core) (b : BNode) (i j : Nat) : Option Op :=
  match b.range.getD i none, b.dualToRange.getD i none with
  | some r, some d => if i = j then (Expr.inverse (core.mass r d)).eval.toOption else none
  | _, _ => none

/-- The strong form: the inverse mass matrices times the weak form. -/
def blockedStrongFormula (core : Core) (b : BNode) (w : BExpr) : BExpr :=
  .mul (.blocks b.range.length b.range.length (inverseMasses core b)) w

/-- `w` is the weak form of blocked operator `i`. -/
inductive BFormula (core : Core) (comp : Components) (nodes : Nat → BNode) : Nat → BExpr → Prop where
  | base {i : Nat} {ops : Nat → Nat → Option Nat} (h : (nodes i).kind = .base ops) :
      BFormula core comp nodes i (.blocks (nodes i).range.length (nodes i).domain.length fun a b => (ops a b).map comp.form)
  | sum {i a b : Nat} {u v : BExpr} (h : (nodes i).kind = .sum a b) (ha : BFormula core comp nodes a u)
      (hb : BFormula core comp nodes b v) : BFormula core comp nodes i (.add u v)
  | product {i a b : Nat} {u v : BExpr} (h : (nodes i).kind = .product a b) (ha : BFormula core comp nodes a u)
      (hb : BFormula core comp nodes b v) : BFormula core comp nodes i (.mul u (blockedStrongFormula core (nodes b) v))
  | scaled {i a : Nat} {c : Scalar} {u : BExpr} (h : (nodes i).kind = .scaled a c) (ha : BFormula core comp nodes a u) :
      BFormula core comp nodes i (.smul c u)

/-- Each blocked operator was constructed by assignments that fill it, or from operators constructed before. -/
def BConstructed (comp : Components) (nodes : Nat → BNode) : Prop := ∀ i,
  (∃ m n l, Filled m n l ∧ assign comp l (BNode.new m n) = .ok (nodes i)) ∨
  (∃ a b, a < i ∧ b < i ∧ mkBlockedSum nodes a b = .ok (nodes i)) ∨
  (∃ a b, a < i ∧ b < i ∧ mkBlockedProduct nodes a b = .ok (nodes i)) ∨
  (∃ a c, a < i ∧ mkBlockedScaled nodes a c = nodes i)

/-- As many block rows as block columns. -/
def BNode.Square (b : BNode) : Prop := b.range.length = b.domain.length

/-- The second operand of every product is square. -/
def SquareProducts (nodes : Nat → BNode) : Prop := ∀ i a b, (nodes i).kind = .product a b → (nodes b).Square

/-- Mass matrices have a row for each dof of the dual space and a column for each dof of the domain and their types are right; those of
the operators' range and dual spaces can be inverted; no space has a single dof; weak forms are operators of the right shape. -/
structure BlockedSound (core : Core) (comp : Components) : Prop where
  massRows : ∀ d t, (core.mass d t).rows = core.dofs t
  massCols : ∀ d t, (core.mass d t).cols = core.dofs d
  massTyped : ∀ d t, (core.mass d t).twoD = true ∧ (core.mass d t).Typed
  invertible : ∀ k, FullRank (core.mass (comp.range k) (comp.dualToRange k))
  dofs : ∀ s, core.dofs s ≠ 1
  form : ∀ k, ∃ M : Matrix (Fin (core.dofs (comp.dualToRange k))) (Fin (core.dofs (comp.domain k))) ℂ, Built (comp.form k) _ _ M

/-- The action is a request. -/
def BAction.Request : BAction → Prop
  | .setItem .. => False
  | _ => True

end

end Verif.PyOp
