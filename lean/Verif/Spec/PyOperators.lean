import Verif.Model.PyOperators
import Verif.Spec.PyBoundary
import Mathlib.LinearAlgebra.BilinearMap
import Mathlib.LinearAlgebra.LinearIndependent.Defs
import Mathlib.Algebra.BigOperators.Group.Finset.Basic
/-
Specification of the compound boundary operators: Galerkin matrices.

Functions on the surface form a real vector space with the inner product of L2; the basis functions of spaces are such functions, and
an operator is given by a bilinear form.  Integrals are exact.
-/
namespace Verif.PyOp
noncomputable section

/-- What the numbers the library computes mean: the basis functions of a space, the L2 product, the bilinear form of each elementary operator,
components of the surface curl and of the product with the normal, the constant function 1. -/
structure Surface (V : Type) [AddCommGroup V] [Module ℝ V] where
  basis : Space → Nat → V
  ip : V →ₗ[ℝ] V →ₗ[ℝ] ℝ
  form : Label → V →ₗ[ℝ] V →ₗ[ℝ] ℂ
  curl : Nat → V →ₗ[ℝ] V
  normal : Nat → V →ₗ[ℝ] V
  one : V

variable {V : Type} [AddCommGroup V] [Module ℝ V]

/-- The functions of a space. -/
def Surface.span (S : Surface V) (core : Core) (s : Space) : Submodule ℝ V := Submodule.span ℝ (Set.range fun i : Fin (core.dofs s) => S.basis s i)

/-- The Galerkin matrix of a form: test functions from `dual`, trial functions from `domain`. -/
def Surface.galerkin (S : Surface V) (core : Core) (a : V → V → ℂ) (dual domain : Space) : Matrix (Fin (core.dofs dual)) (Fin (core.dofs domain)) ℂ :=
  Matrix.of fun i j => a (S.basis dual i) (S.basis domain j)

/-- `p` is the L2 projection of `v` to a space. -/
def Surface.IsProjection (S : Surface V) (core : Core) (s : Space) (v p : V) : Prop := p ∈ S.span core s ∧ ∀ w ∈ S.span core s, S.ip w (v - p) = 0

/-- A discretised operator as the core library returns it. -/
inductive IsAtom (r c : Nat) (f : Nat → Nat → ℂ) : Expr → Prop where
  | dense (A : Arr) (h : A.twoD = true ∧ A.Typed) (hr : A.rows = r) (hc : A.cols = c) (he : ∀ i < r, ∀ j < c, A.e i j = f i j) : IsAtom r c f (.dense A)
  | sparse (A : Arr) (h : A.twoD = true ∧ A.Typed) (hr : A.rows = r) (hc : A.cols = c) (he : ∀ i < r, ∀ j < c, A.e i j = f i j) : IsAtom r c f (.sparse A)
  | nonlocal (complex : Bool) (e : Nat → Nat → ℂ) (h : complex = false → ∀ i j, star (e i j) = e i j) (he : ∀ i < r, ∀ j < c, e i j = f i j) :
      IsAtom r c f (.nonlocal complex r c e)
  | rankOne (p q : Arr) (hp : p.twoD = false ∧ p.cols = 1 ∧ p.Typed) (hq : q.twoD = false ∧ q.cols = 1 ∧ q.Typed) (hr : p.rows = r) (hc : q.rows = c)
      (he : ∀ i < r, ∀ j < c, p.e i 0 * q.e j 0 = f i j) : IsAtom r c f (.rankOne p q)

/-- The library computes what the surface prescribes: L2 products and forms of basis functions.  The basis functions of a space are linearly
independent, there is not exactly one (C83), spaces are compatible with themselves and compatible ones have equally many basis functions. -/
structure Exact (lib : Library) (S : Surface V) : Prop where
  symm : ∀ v w, S.ip v w = S.ip w v
  positive : ∀ v, v ≠ 0 → 0 < S.ip v v
  independent : ∀ s, LinearIndependent ℝ fun i : Fin (lib.core.dofs s) => S.basis s i
  notOne : ∀ s, lib.core.dofs s ≠ 1
  compatible : ∀ s, lib.core.compatible s s = true
  mass : ∀ d t, (lib.core.mass d t).twoD = true ∧ (lib.core.mass d t).Typed ∧ (lib.core.mass d t).rows = lib.core.dofs t ∧
    (lib.core.mass d t).cols = lib.core.dofs d ∧ ∀ i < lib.core.dofs t, ∀ j < lib.core.dofs d, (lib.core.mass d t).e i j = S.ip (S.basis t i) (S.basis d j)
  forms : ∀ k d t τ, IsAtom (lib.core.dofs t) (lib.core.dofs d) (fun i j => S.form k (S.basis t i) (S.basis d j)) (lib.core.form (lib.number k d t) τ)
  identity : ∀ v w, S.form .identity v w = S.ip v w
  curl : ∀ c v w, S.form (.curl c) v w = S.ip v (S.curl c w)
  normal : ∀ c v w, S.form (.normal c) v w = S.ip v (S.normal c w)
  rankOne : ∀ v w, S.form .rankOne v w = S.ip v S.one * S.ip w S.one

/-- The attributes of the spaces: a super space contains the space; the non-barycentric space has the same basis functions and is not
barycentric; Python allows a recursion. -/
structure Nested (lib : Library) (S : Surface V) : Prop where
  super : ∀ s, S.span lib.core s ≤ S.span lib.core (lib.spaces.superSpace s)
  nonBarycentric : ∀ s s', lib.spaces.nonBarycentric s = some s' → lib.core.dofs s' = lib.core.dofs s ∧ (∀ i, S.basis s' i = S.basis s i) ∧
    lib.spaces.barycentric s' = false
  limit : 2 ≤ lib.limit

/-- The operator of number `i` has these spaces, and its weak form is the matrix `M`: whenever and in whatever order weak forms are requested
(`τ` are the times at which elementary operators were assembled), `weak_form()` returns an operator that acts as `M`, and is computed by a
formula with these properties, so that it can be used in further operators. -/
structure HasForm (lib : Library) (l : List Node) (i : Nat) (domain range dual : Space)
    (M : Matrix (Fin (lib.core.dofs dual)) (Fin (lib.core.dofs domain)) ℂ) : Prop where
  lt : i < l.length
  domain : (nodesOf l i).domain = domain
  range : (nodesOf l i).range = range
  dual : (nodesOf l i).dualToRange = dual
  form : ∀ τ, ∃ e op, Formula lib.core (nodesOf l) τ i e ∧ e.Wellformed ∧ e.Permitted ∧ Denotes e _ _ M ∧ e.eval = .ok op ∧ Acts op M

/-- The square of the wave number in a formula; 0 for the Laplace equation. -/
def waveFactor : Option Scalar → ℂ
  | none => 0
  | some w => w.value

/-- The hypersingular form in terms of a single-layer form `a` (integration by parts, Maue's identity): the three components of the curls and
of the products with the normal. -/
def Surface.maue (S : Surface V) (wave2 : Option Scalar) (a : V → V → ℂ) (v w : V) : ℂ :=
  ∑ c ∈ Finset.range 3, (a (S.curl c v) (S.curl c w) + waveFactor wave2 * a (S.normal c v) (S.normal c w))

/-- The spaces on a grid and its barycentric refinement: the curls and normal components of piecewise linear functions are discontinuous
piecewise linear, curls on the refinement are piecewise constant there; the spaces of dual functions consist of functions on the refinement. -/
structure GridSpaces (lib : Library) (S : Surface V) (grid : SpaceName → Space) : Prop where
  linear : S.span lib.core (grid .P1) ≤ S.span lib.core (grid .DP1)
  linearCurl : ∀ c, ∀ v ∈ S.span lib.core (grid .P1), S.curl c v ∈ S.span lib.core (grid .DP1)
  linearNormal : ∀ c, ∀ v ∈ S.span lib.core (grid .P1), S.normal c v ∈ S.span lib.core (grid .DP1)
  constant : S.span lib.core (grid .DUAL) ≤ S.span lib.core (grid .fineDP0)
  fine : S.span lib.core (grid .fineDP0) ≤ S.span lib.core (grid .fineDP1)
  fineLinear : S.span lib.core (grid .BP1) ≤ S.span lib.core (grid .fineDP1)
  fineCurl : ∀ c, ∀ v ∈ S.span lib.core (grid .BP1), S.curl c v ∈ S.span lib.core (grid .fineDP0)
  fineNormal : ∀ c, ∀ v ∈ S.span lib.core (grid .BP1), S.normal c v ∈ S.span lib.core (grid .fineDP1)

/-- The spaces of tangential fields: those on the grid and the dual ones consist of fields on the refinement. -/
structure FieldSpaces (lib : Library) (S : Surface V) (grid : SpaceName → Space) : Prop where
  rwg : S.span lib.core (grid .BRWG) ≤ S.span lib.core (grid .fineRWG)
  bc : S.span lib.core (grid .BC) ≤ S.span lib.core (grid .fineRWG)
  snc : S.span lib.core (grid .BSNC) ≤ S.span lib.core (grid .fineSNC)
  rbc : S.span lib.core (grid .RBC) ≤ S.span lib.core (grid .fineSNC)

/-- `rot` maps the basis functions of a space to those of its `_hdiv_space`. -/
def Rotates (lib : Library) (S : Surface V) (rot : V →ₗ[ℝ] V) : Prop :=
  ∀ s s', lib.spaces.hdiv s = some s' → lib.core.dofs s' = lib.core.dofs s ∧ ∀ i < lib.core.dofs s, rot (S.basis s i) = S.basis s' i

/-- The blocked operator has these spaces, and the weak forms of its blocks are Galerkin matrices. -/
def HasBlocks (lib : Library) (S : Surface V) (l : List Node) (b : BNode) (domain range dual : Fin 2 → Space) (f : Fin 2 → Fin 2 → V → V → ℂ) : Prop :=
  b.domain = [some (domain 0), some (domain 1)] ∧ b.range = [some (range 0), some (range 1)] ∧ b.dualToRange = [some (dual 0), some (dual 1)] ∧
  ∃ ops, b.kind = .base ops ∧ ∀ i j : Fin 2, ∃ k, ops i j = some k ∧
    HasForm lib l k (domain j) (range i) (dual i) (S.galerkin lib.core (f i j) (dual i) (domain j))

/-- Operators whose assembly is expensive. -/
def Label.Integral (k : Label) : Prop := k = .slp ∨ k = .dlp ∨ k = .adlp ∨ k = .hyp ∨ k = .efie ∨ k = .mfie

/-- An integral operator. -/
def IsIntegral (lib : Library) (n : Node) : Prop := ∃ k d t, Label.Integral k ∧ n.kind = .elementary (lib.number k d t)

open Classical in
/-- The number of integral operators in a list. -/
def integrals (lib : Library) (l : List Node) : Nat := (l.filter fun n => decide (IsIntegral lib n)).length

/-- The operators were constructed by the methods of the interface. -/
def OpHeap (lib : Library) (l : List Node) : Prop := Constructed lib.core (nodesOf l)

/-- The program runs without an exception, keeps the operators that exist, and its result and the operators after it satisfy `Q`. -/
def Runs (lib : Library) {α : Type} (m : Build α) (l : List Node) (Q : α → List Node → Prop) : Prop :=
  ∃ a new, m l = .ok (a, l ++ new) ∧ OpHeap lib (l ++ new) ∧ Q a (l ++ new)

/-- Whenever the program ends without exception, it has created `n` integral operators. -/
def Creates (lib : Library) {α : Type} (m : Build α) (n : Nat) : Prop := ∀ l x l', m l = .ok (x, l') → ∃ new, l' = l ++ new ∧ integrals lib new = n

/-- Operators of different kinds have different numbers. -/
def Numbered (lib : Library) : Prop := ∀ k d t k' d' t', lib.number k d t = lib.number k' d' t' → k = k'

end

end Verif.PyOp
