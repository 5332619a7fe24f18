import Verif.Model.PyBoundary
/-
Specification of the boundary operators of the Python layer: the discrete operator each boundary operator stands for, written as an
expression of discrete operators, and the programs that construct boundary operators.
-/
namespace Verif.PyOp
noncomputable section

/-- Both return the same operator or both raise an exception. -/
def Agree (r s : Res Op) : Prop := ∀ op, r = .ok op ↔ s = .ok op

/-- The matrix of the identity from the range to the dual space, inverted, times `w`: the strong form. -/
def strongFormula (core : Core) (n : Node) (w : Expr) : Expr := .mul (.inverse (core.mass n.range n.dualToRange)) w

/-- `w` is the weak form of operator `i` if each elementary operator `j` is discretised with the parameters of the time `τ j`. -/
inductive Formula (core : Core) (nodes : Nat → Node) (τ : Nat → Nat) : Nat → Expr → Prop where
  | elementary {i k : Nat} (h : (nodes i).kind = .elementary k) : Formula core nodes τ i (core.form k (τ i))
  | zero {i : Nat} (h : (nodes i).kind = .zero) :
      Formula core nodes τ i (.zero (core.dofs (nodes i).dualToRange) (core.dofs (nodes i).domain))
  | sum {i a b : Nat} {u v : Expr} (h : (nodes i).kind = .sum a b) (ha : Formula core nodes τ a u) (hb : Formula core nodes τ b v) :
      Formula core nodes τ i (.add u v)
  | scaled {i a : Nat} {c : Scalar} {u : Expr} (h : (nodes i).kind = .scaled a c) (ha : Formula core nodes τ a u) :
      Formula core nodes τ i (.smul c u)
  | product {i a b : Nat} {u v : Expr} (h : (nodes i).kind = .product a b) (ha : Formula core nodes τ a u)
      (hb : Formula core nodes τ b v) : Formula core nodes τ i (.mul u (strongFormula core (nodes b) v))
  | dualProduct {i a b : Nat} {u v : Expr} (h : (nodes i).kind = .dualProduct a b) (ha : Formula core nodes τ a u)
      (hb : Formula core nodes τ b v) : Formula core nodes τ i (.mul (.adjoint (strongFormula core (nodes a) u)) v)
  | transpose {i a : Nat} {u : Expr} (h : (nodes i).kind = .transpose a) (ha : Formula core nodes τ a u) :
      Formula core nodes τ i (.transpose u)
  | adjoint {i a : Nat} {u : Expr} (h : (nodes i).kind = .adjoint a) (ha : Formula core nodes τ a u) :
      Formula core nodes τ i (.adjoint u)
  | reinterpret {i a : Nat} {u : Expr} (h : (nodes i).kind = .reinterpret a) (ha : Formula core nodes τ a u) :
      Formula core nodes τ i u
  /-- Only the dual space changes: the result is expanded in the old dual space and tested with the new one. -/
  | projectDual {i a : Nat} {u : Expr} (h : (nodes i).kind = .projection a)
      (h1 : (nodes i).dualToRange ≠ (nodes a).dualToRange) (h2 : (nodes i).domain = (nodes a).domain)
      (ha : Formula core nodes τ a u) :
      Formula core nodes τ i (.mul (.mul (.sparse (core.mass (nodes a).dualToRange (nodes i).dualToRange))
        (.inverse (core.mass (nodes a).dualToRange (nodes a).dualToRange))) u)
  /-- Only the domain changes: arguments are projected to the old domain. -/
  | projectDomain {i a : Nat} {u : Expr} (h : (nodes i).kind = .projection a)
      (h1 : (nodes i).dualToRange = (nodes a).dualToRange) (h2 : (nodes i).domain ≠ (nodes a).domain)
      (ha : Formula core nodes τ a u) :
      Formula core nodes τ i (.mul u (.mul (.inverse (core.mass (nodes a).domain (nodes a).domain))
        (.sparse (core.mass (nodes i).domain (nodes a).domain))))
  /-- Both change. -/
  | projectBoth {i a : Nat} {u : Expr} (h : (nodes i).kind = .projection a)
      (h1 : (nodes i).dualToRange ≠ (nodes a).dualToRange) (h2 : (nodes i).domain ≠ (nodes a).domain)
      (ha : Formula core nodes τ a u) :
      Formula core nodes τ i (.mul (.mul (.mul (.sparse (core.mass (nodes a).dualToRange (nodes i).dualToRange))
        (.inverse (core.mass (nodes a).dualToRange (nodes a).dualToRange))) u)
        (.mul (.inverse (core.mass (nodes a).domain (nodes a).domain)) (.sparse (core.mass (nodes i).domain (nodes a).domain))))

/-- Each operator was constructed, from operators constructed before, by one of the methods of the interface; `rewrite_operator_spaces` checks
nothing and is given spaces with as many dofs as those of the operator. -/
def Constructed (core : Core) (nodes : Nat → Node) : Prop := ∀ i,
  (∃ k, (nodes i).kind = .elementary k) ∨ (nodes i).kind = .zero ∨
  (∃ a b, a < i ∧ b < i ∧ mkSum core nodes a b = .ok (nodes i)) ∨
  (∃ a c, a < i ∧ (c.complex = false → star c.value = c.value) ∧ mkScaled nodes a c = nodes i) ∨
  (∃ a b, a < i ∧ b < i ∧ mkProduct core nodes a b = .ok (nodes i)) ∨
  (∃ a b, a < i ∧ b < i ∧ mkDualProduct core nodes a b = .ok (nodes i)) ∨
  (∃ a r, a < i ∧ mkTranspose nodes a r = nodes i) ∨
  (∃ a r, a < i ∧ mkAdjoint nodes a r = nodes i) ∨
  (∃ a d r t, a < i ∧ mkProjection nodes a d r t = some (nodes i)) ∨
  (∃ a d r t, a < i ∧ core.dofs d = core.dofs (nodes a).domain ∧ core.dofs t = core.dofs (nodes a).dualToRange ∧ mkRewrite a d r t = nodes i)

/-- The core library: compatible spaces have the same number of dofs, mass matrices have a row for each dof of the dual space and a
column for each dof of the domain, their types are right, and discretised elementary operators are operators of the right shape. -/
structure Core.Sound (core : Core) (nodes : Nat → Node) : Prop where
  compatible : ∀ s t, core.compatible s t = true → core.dofs s = core.dofs t
  massRows : ∀ d t, (core.mass d t).rows = core.dofs t
  massCols : ∀ d t, (core.mass d t).cols = core.dofs d
  massTyped : ∀ d t, (core.mass d t).twoD = true ∧ (core.mass d t).Typed
  form : ∀ i k t, (nodes i).kind = .elementary k → (core.form k t).Wellformed ∧
    ∃ M : Matrix (Fin (core.dofs (nodes i).dualToRange)) (Fin (core.dofs (nodes i).domain)) ℂ, Denotes (core.form k t) _ _ M

/-- The mass matrices of the operators' spaces can be inverted, and no space has a single dof. -/
def Core.Invertible (core : Core) (nodes : Nat → Node) : Prop := (∀ i, FullRank (core.mass (nodes i).range (nodes i).dualToRange) ∧
  FullRank (core.mass (nodes i).dualToRange (nodes i).dualToRange) ∧ FullRank (core.mass (nodes i).domain (nodes i).domain)) ∧
  ∀ s, core.dofs s ≠ 1

/-- The action does not recompute anything. -/
def Action.Cached : Action → Prop
  | .weakForm r _ => r = false
  | .strongForm r _ => r = false
  | .wait => True

end

end Verif.PyOp
