import Verif.Model.PyGridFunction
import Verif.Spec.PyBoundary
/-
Specification of grid functions: a grid function is a space and a vector of coefficients; everything else follows.
-/
namespace Verif.PyOp
noncomputable section

/-- A function: its space and its coefficients `value 0, …, value (dofs - 1)`. -/
structure AFun where
  space : Space
  value : Nat → ℂ

/-- The array `y` is the vector `v 0, …, v (n - 1)`. -/
def VecIs (y : Arr) (n : Nat) (v : Nat → ℂ) : Prop := y.twoD = false ∧ y.rows = n ∧ y.cols = 1 ∧ ∀ i < n, y.e i 0 = v i

/-- The projections of a function onto the space `E`: the mass matrix times the coefficients. -/
def proj (core : Core) (f : AFun) (E : Space) : Nat → ℂ := fun i =>
  ∑ j ∈ Finset.range (core.dofs f.space), (core.mass f.space E).e i j * f.value j

/-- All functions constructed so far. -/
structure AHeap where
  obj : Nat → AFun
  size : Nat

/-- Function `i` is replaced. -/
def AHeap.set (h : AHeap) (i : Nat) (f : AFun) : AHeap := { h with obj := fun j => if j = i then f else h.obj j }

/-- A function is added. -/
def AHeap.push (h : AHeap) (f : AFun) : AHeap := { obj := fun j => if j = h.size then f else h.obj j, size := h.size + 1 }

/-- What each action is expected to do: queries return the coefficients and the projections (onto the given space or the space named
by the attribute `dual_space`, here `dualOf`), operations construct the sums and multiples, functions given by projections and images
under operators are those with the right projections. -/
def Expected (core : Core) (dualOf : Nat → Space) (h : AHeap) : GAction → Res (Option Arr) → AHeap → Prop
  | .new s _ none (some v) none, r, h' => r = .ok none ∧ ∃ w, VecIs v (core.dofs s) w ∧ h' = h.push ⟨s, w⟩
  | .new s d none none (some p), r, h' => r = .ok none ∧ ∃ w, VecIs p (core.dofs (d.getD s)) (proj core ⟨s, w⟩ (d.getD s)) ∧
      h' = h.push ⟨s, w⟩
  | .new s d (some p) none none, r, h' => r = .ok none ∧ ∃ w, VecIs p (core.dofs (d.getD s)) (proj core ⟨s, w⟩ (d.getD s)) ∧
      h' = h.push ⟨s, w⟩
  | .new _ _ _ _ _, r, h' => r = .error .ValueError ∧ h' = h
  | .coefficients i, r, h' => (∃ y, r = .ok (some y) ∧ VecIs y (core.dofs (h.obj i).space) (h.obj i).value) ∧ h' = h
  | .projections i E, r, h' => (∃ y, r = .ok (some y) ∧
      VecIs y (core.dofs (E.getD (dualOf i))) (proj core (h.obj i) (E.getD (dualOf i)))) ∧ h' = h
  | .setCoefficients i v, r, h' => r = .ok none ∧ ∃ w, VecIs v (core.dofs (h.obj i).space) w ∧ h' = h.set i ⟨(h.obj i).space, w⟩
  | .add i j, r, h' =>
      if (h.obj i).space = (h.obj j).space then
        r = .ok none ∧ h' = h.push ⟨(h.obj i).space, fun k => (h.obj i).value k + (h.obj j).value k⟩
      else r = .error .ValueError ∧ h' = h
  | .smul a i, r, h' => r = .ok none ∧ h' = h.push ⟨(h.obj i).space, fun k => a.value * (h.obj i).value k⟩
  | .real i, r, h' => r = .ok none ∧ h' = h.push ⟨(h.obj i).space, fun k => (((h.obj i).value k).re : ℂ)⟩
  | .imag i, r, h' => r = .ok none ∧ h' = h.push ⟨(h.obj i).space, fun k => (((h.obj i).value k).im : ℂ)⟩
  | .apply op domain range dual i, r, h' =>
      if core.compatible domain (h.obj i).space = true then
        r = .ok none ∧ ∃ w, (∀ M : Matrix (Fin (core.dofs dual)) (Fin (core.dofs domain)) ℂ, Acts op M →
          ∀ k : Fin (core.dofs dual), proj core ⟨range, w⟩ dual k = ∑ j, M k j * (h.obj i).value j) ∧ h' = h.push ⟨range, w⟩
      else r = .error .ValueError ∧ h' = h

/-- The mass matrix between the spaces is square and nonsingular, and has more than one row. -/
def Nonsingular (core : Core) (s t : Space) : Prop := core.dofs s = core.dofs t ∧ core.dofs t ≠ 1 ∧ FullRank (core.mass s t)

/-- An array with one dimension and the right length. -/
def VecOf (v : Arr) (n : Nat) : Prop := v.twoD = false ∧ v.rows = n ∧ v.cols = 1

/-- What the caller has to observe: objects exist, arrays have the right length, functions are given by projections only if these
determine them, operators are matrices of the right shape, and `projections` with a space other than `dual_space` is called only if
`representation` is `'primal'`. -/
def Allowed (core : Core) (h : Heap) : GAction → Prop
  | .new s _ none (some v) none => VecOf v (core.dofs s)
  | .new s d none none (some p) => VecOf p (core.dofs (d.getD s)) ∧ Nonsingular core s (d.getD s)
  | .new s d (some p) none none => VecOf p (core.dofs (d.getD s)) ∧ Nonsingular core s (d.getD s)
  | .new _ _ _ _ _ => True
  | .coefficients i => i < h.size
  | .projections i E => i < h.size ∧ ((h.obj i).primal = true ∨ E.getD (h.obj i).dual = (h.obj i).dual)
  | .setCoefficients i v => i < h.size ∧ VecOf v (core.dofs (h.obj i).space)
  | .add i j => i < h.size ∧ j < h.size
  | .smul _ i => i < h.size
  | .real i => i < h.size
  | .imag i => i < h.size
  | .apply op domain range dual i => i < h.size ∧ Nonsingular core range dual ∧
      ∃ M : Matrix (Fin (core.dofs dual)) (Fin (core.dofs domain)) ℂ, Acts op M

/-- All actions of the history are allowed when they are executed. -/
def AllAllowed (core : Core) : List GAction → Heap → Prop
  | [], _ => True
  | a :: l, h => Allowed core h a ∧ AllAllowed core l (gstep core a h).2

/-- The results of a history are as expected. -/
def AsExpected (core : Core) : List GAction → Heap → AHeap → List (Res (Option Arr)) → Prop
  | [], _, _, rs => rs = []
  | a :: l, h, ah, rs => ∃ r rs' ah', rs = r :: rs' ∧ Expected core (fun i => (h.obj i).dual) ah a r ah' ∧
      AsExpected core l (gstep core a h).2 ah' rs'

/-- The mass matrices: a row for each dof of the dual space, a column for each dof of the domain, real entries. -/
structure Core.Masses (core : Core) : Prop where
  compatible : ∀ s t, core.compatible s t = true → core.dofs s = core.dofs t
  rows : ∀ d t, (core.mass d t).rows = core.dofs t
  cols : ∀ d t, (core.mass d t).cols = core.dofs d
  real : ∀ d t i j, star ((core.mass d t).e i j) = (core.mass d t).e i j

end

end Verif.PyOp
