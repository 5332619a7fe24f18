import Verif.Spec.PyPotential
import Verif.Props.PyDiscrete
/-
Lemmas on potential operators of the Python layer.
-/
namespace Verif.PyOp
open Verif.DiscreteOp
noncomputable section

theorem foldl_max_ge (l : List ℝ) (a : ℝ) : a ≤ l.foldl max a ∧ ∀ x ∈ l, x ≤ l.foldl max a := by
  induction l generalizing a with
  | nil => exact ⟨le_refl _, fun x hx => (by cases hx)⟩
  | cons y l ih =>
    obtain ⟨h1, h2⟩ := ih (max a y)
    refine ⟨(le_max_left a y).trans h1, fun x hx => ?_⟩
    rcases List.mem_cons.mp hx with rfl | hx
    · exact (le_max_right a x).trans h1
    · exact h2 x hx

theorem foldl_max_zero (l : List ℝ) (h : ∀ x ∈ l, x = 0) : l.foldl max 0 = 0 := by
  induction l with
  | nil => rfl
  | cons y l ih =>
    rw [List.foldl_cons, h y (List.mem_cons_self ..), max_self]
    exact ih fun x hx => h x (List.mem_cons_of_mem _ hx)

theorem distance_same {p q : Points} (h : p.Same q) (hd : p.dim ≠ 0) : p.distance q = .ok 0 := by
  obtain ⟨h1, h2, h3⟩ := h
  have hb1 : broadcast p.dim q.dim = some p.dim := by unfold broadcast; rw [if_pos h1]
  have hb2 : broadcast p.count q.count = some p.count := by unfold broadcast; rw [if_pos h2]
  unfold Points.distance
  rw [hb1, hb2]
  dsimp only
  rw [if_neg hd]
  congr 1
  apply foldl_max_zero
  intro x hx
  obtain ⟨i, hi, rfl⟩ := List.mem_map.mp hx
  have hi := List.mem_range.mp hi
  apply List.sum_eq_zero
  intro y hy
  obtain ⟨j, hj, rfl⟩ := List.mem_map.mp hy
  have hj := List.mem_range.mp hj
  rw [← h1, ← h2, h3 _ (by split <;> omega) _ (by split <;> omega), sub_self, abs_zero]

/-- If the distance is zero, the points are equal up to broadcasting. -/
theorem distance_zero {p q : Points} (h : p.distance q = .ok 0) (hd : p.dim = q.dim) (hc : p.count = q.count) : p.Same q := by
  have hb1 : broadcast p.dim q.dim = some p.dim := by unfold broadcast; rw [if_pos hd]
  have hb2 : broadcast p.count q.count = some p.count := by unfold broadcast; rw [if_pos hc]
  refine ⟨hd, hc, fun i hi j hj => ?_⟩
  unfold Points.distance at h
  rw [hb1, hb2] at h
  dsimp only at h
  rw [if_neg (by omega)] at h
  have h := Except.ok.inj h
  have h1 := (foldl_max_ge ((List.range p.dim).map fun i => ((List.range p.count).map fun j =>
      |p.e (if p.dim = 1 then 0 else i) (if p.count = 1 then 0 else j) - q.e (if q.dim = 1 then 0 else i) (if q.count = 1 then 0 else j)|).sum)
      0).2 _ (List.mem_map.mpr ⟨i, List.mem_range.mpr hi, rfl⟩)
  rw [h] at h1
  have hnn : ∀ x ∈ ((List.range p.count).map fun j =>
      |p.e (if p.dim = 1 then 0 else i) (if p.count = 1 then 0 else j) - q.e (if q.dim = 1 then 0 else i) (if q.count = 1 then 0 else j)|), 0 ≤ x := by
    intro x hx
    obtain ⟨j, _, rfl⟩ := List.mem_map.mp hx
    exact abs_nonneg _
  have h2 := List.single_le_sum hnn _ (List.mem_map.mpr ⟨j, List.mem_range.mpr hj, rfl⟩)
  have h3 := abs_eq_zero.mp (le_antisymm (h2.trans h1) (abs_nonneg _))
  have e1 : (if p.dim = 1 then 0 else i) = i := by split <;> omega
  have e2 : (if p.count = 1 then 0 else j) = j := by split <;> omega
  rw [← hd, ← hc, e1, e2] at h3
  linarith

/-- Operators that are stored neither as dense nor as sparse matrices. -/
def Op.Composite : Op → Prop
  | .dense _ => False
  | .sparse _ => False
  | _ => True

theorem composite_add {a b : Op} (ha : a.Composite) : a.add b = if a.shape ≠ b.shape then .error .ValueError else .ok (.sum a b) := by
  cases a <;> first | exact ha.elim | (cases b <;> rfl)

theorem composite_smul {a : Op} (ha : a.Composite) (c : Scalar) : a.smul c = .scaled a c := by
  cases a <;> first | exact ha.elim | rfl

/-- The expression of discrete operators behind an expression of potential operators. -/
def PExpr.toExpr (f : Nat → Expr) : PExpr → Expr
  | .leaf i => f i
  | .add a b => .add (a.toExpr f) (b.toExpr f)
  | .sub a b => .add (a.toExpr f) (.smul ⟨-1, false⟩ (b.toExpr f))
  | .neg a => .smul ⟨-1, false⟩ (a.toExpr f)
  | .smul c a => .smul c (a.toExpr f)

/-- The matrix of an expression. -/
def PExpr.matrix {r c : Nat} (M : Nat → Matrix (Fin r) (Fin c) ℂ) : PExpr → Matrix (Fin r) (Fin c) ℂ
  | .leaf i => M i
  | .add a b => a.matrix M + b.matrix M
  | .sub a b => a.matrix M - b.matrix M
  | .neg a => -a.matrix M
  | .smul s a => s.value • a.matrix M

theorem PExpr.matrix_mulVec {r c : Nat} (M : Nat → Matrix (Fin r) (Fin c) ℂ) (u : Fin c → ℂ) (i : Fin r) (e : PExpr) :
    (e.matrix M).mulVec u i = e.value fun k => (M k).mulVec u i := by
  induction e with
  | leaf k => rfl
  | add a b iha ihb => simp only [PExpr.matrix, PExpr.value, Matrix.add_mulVec, Pi.add_apply, iha, ihb]
  | sub a b iha ihb => simp only [PExpr.matrix, PExpr.value, Matrix.sub_mulVec, Pi.sub_apply, iha, ihb]
  | neg a ih => simp only [PExpr.matrix, PExpr.value, Matrix.neg_mulVec, Pi.neg_apply, ih]
  | smul s a ih => simp only [PExpr.matrix, PExpr.value, Matrix.smul_mulVec, Pi.smul_apply, smul_eq_mul, ih]

theorem toExpr_ok {r c : Nat} (f : Nat → Expr) (M : Nat → Matrix (Fin r) (Fin c) ℂ)
    (hf : ∀ i, (f i).Wellformed ∧ (f i).Plain ∧ Denotes (f i) r c (M i)) (e : PExpr) (ht : e.Typed) :
    (e.toExpr f).Wellformed ∧ (e.toExpr f).Plain ∧ Denotes (e.toExpr f) r c (e.matrix M) := by
  induction e with
  | leaf i => exact hf i
  | add a b iha ihb =>
    obtain ⟨a1, a2, a3⟩ := iha ht.1
    obtain ⟨b1, b2, b3⟩ := ihb ht.2
    exact ⟨⟨a1, b1⟩, ⟨⟨fun _ h => (by cases h), fun _ h => (by cases h)⟩, a2, b2⟩, .add a3 b3⟩
  | sub a b iha ihb =>
    obtain ⟨a1, a2, a3⟩ := iha ht.1
    obtain ⟨b1, b2, b3⟩ := ihb ht.2
    refine ⟨⟨a1, ⟨fun _ => (by simp), b1⟩⟩, ⟨⟨fun _ h => (by cases h), fun _ h => (by cases h)⟩, a2,
      ⟨⟨fun _ h => (by cases h), fun _ h => (by cases h)⟩, b2⟩⟩, ?_⟩
    have := Denotes.add a3 (Denotes.smul ⟨-1, false⟩ b3)
    have e1 : a.matrix M + ((-1 : ℂ)) • b.matrix M = (PExpr.sub a b).matrix M := by
      show _ = a.matrix M - b.matrix M
      rw [neg_one_smul, sub_eq_add_neg]
    rw [← e1]
    exact this
  | neg a ih =>
    obtain ⟨a1, a2, a3⟩ := ih ht
    refine ⟨⟨fun _ => (by simp), a1⟩, ⟨⟨fun _ h => (by cases h), fun _ h => (by cases h)⟩, a2⟩, ?_⟩
    have := Denotes.smul ⟨-1, false⟩ a3
    have e1 : ((-1 : ℂ)) • a.matrix M = (PExpr.neg a).matrix M := by
      show _ = -a.matrix M
      rw [neg_one_smul]
    rw [← e1]
    exact this
  | smul s a ih =>
    obtain ⟨a1, a2, a3⟩ := ih ht.2
    exact ⟨⟨ht.1, a1⟩, ⟨⟨fun _ h => (by cases h), fun _ h => (by cases h)⟩, a2⟩, .smul s a3⟩

/-- Evaluation of expressions of potential operators. -/
theorem eval_potential (core : Core) (leaves : Nat → Potential) (components dofs : Nat) (points : Points) (hd : points.dim ≠ 0)
    (matrix : Nat → Nat → Nat → ℂ) (hl : ∀ i, IsAssembled core (leaves i) components dofs points (matrix i))
    (hcomp : ∀ i j, core.compatible (leaves i).space (leaves j).space = true) (f : Nat → Expr)
    (hf : ∀ i, (f i).eval = .ok (leaves i).op)
    (hf' : ∀ i, (f i).Wellformed ∧ (f i).Plain ∧ Denotes (f i) (components * points.count) dofs (Matrix.of fun r c => matrix i r c))
    (e : PExpr) (ht : e.Typed) :
    ∃ P, e.eval core leaves = .ok P ∧ P.components = components ∧ (∃ i, P.space = (leaves i).space) ∧ P.points.Same points ∧
      P.op.Composite ∧ P.op.shape = (components * points.count, dofs) ∧ (e.toExpr f).eval = .ok P.op := by
  have same : ∀ {p q : Points}, p.Same points → q.Same points → p.Same q := by
    intro p q hp hq
    refine ⟨hp.1.trans hq.1.symm, hp.2.1.trans hq.2.1.symm, fun i hi j hj => ?_⟩
    rw [hp.2.2 i hi j hj, hq.2.2 i (by rw [hq.1, ← hp.1]; exact hi) j (by rw [hq.2.1, ← hp.2.1]; exact hj)]
  have shapes : ∀ (e : PExpr) (op : Op), e.Typed → (e.toExpr f).eval = .ok op → op.shape = (components * points.count, dofs) := by
    intro e op ht he
    obtain ⟨w, p, d⟩ := toExpr_ok f (fun i => Matrix.of fun r c => matrix i r c) hf' e ht
    obtain ⟨op', h1, h2⟩ := C81_expressions _ w p _ d
    rw [he] at h1
    cases h1
    exact h2.1
  have addOk : ∀ {P Q : Potential}, P.components = components → Q.components = components → (∃ i, P.space = (leaves i).space) →
      (∃ i, Q.space = (leaves i).space) → P.points.Same points → Q.points.Same points → P.op.Composite →
      P.op.shape = Q.op.shape → P.add core Q = .ok ⟨.sum P.op Q.op, P.components, P.space, P.points⟩ := by
    intro P Q hP hQ ⟨i, hi⟩ ⟨j, hj⟩ hPp hQp hc hs
    have h1 : P.compatible core Q = .ok true := by
      unfold Potential.compatible
      rw [if_neg (by rw [hP, hQ]; exact fun h => h rfl), distance_same (same hPp hQp) (by rw [hPp.1]; exact hd)]
      show (if (0 : ℝ) ≠ 0 then Except.ok false else Except.ok (core.compatible P.space Q.space)) = _
      rw [if_neg (fun h => h rfl), hi, hj, hcomp]
    unfold Potential.add
    rw [h1, composite_add hc, if_neg (fun h => h hs)]
    rfl
  induction e with
  | leaf i =>
    obtain ⟨h1, h2, h3, z, h4, h5⟩ := hl i
    refine ⟨leaves i, rfl, h1, ⟨i, rfl⟩, h3, ?_, shapes (.leaf i) _ trivial (hf i), hf i⟩
    rw [h4]; trivial
  | add a b iha ihb =>
    obtain ⟨P, a1, a2, a3, a4, a5, a6, a7⟩ := iha ht.1
    obtain ⟨Q, b1, b2, b3, b4, b5, b6, b7⟩ := ihb ht.2
    have h := addOk a2 b2 a3 b3 a4 b4 a5 (a6.trans b6.symm)
    refine ⟨⟨.sum P.op Q.op, P.components, P.space, P.points⟩, ?_, a2, a3, a4, trivial, a6, ?_⟩
    · simp only [PExpr.eval, a1, b1]; exact h
    · simp only [PExpr.toExpr, Expr.eval, a7, b7]
      show P.op.add Q.op = _
      rw [composite_add a5, if_neg (fun h => h (a6.trans b6.symm))]
  | sub a b iha ihb =>
    obtain ⟨P, a1, a2, a3, a4, a5, a6, a7⟩ := iha ht.1
    obtain ⟨Q, b1, b2, b3, b4, b5, b6, b7⟩ := ihb ht.2
    have hneg : Q.neg = ⟨.scaled Q.op ⟨-1, false⟩, Q.components, Q.space, Q.points⟩ := by
      unfold Potential.neg Potential.smul
      rw [composite_smul b5]
    have hs : P.op.shape = (Op.scaled Q.op ⟨-1, false⟩).shape := a6.trans b6.symm
    have h := addOk (Q := Q.neg) a2 (by rw [hneg]; exact b2) a3 (by rw [hneg]; exact b3) a4 (by rw [hneg]; exact b4) a5
      (by rw [hneg]; exact hs)
    refine ⟨⟨.sum P.op Q.neg.op, P.components, P.space, P.points⟩, ?_, a2, a3, a4, trivial, a6, ?_⟩
    · simp only [PExpr.eval, a1, b1]; exact h
    · rw [hneg]
      simp only [PExpr.toExpr, Expr.eval, a7, b7]
      show P.op.add (Q.op.smul ⟨-1, false⟩) = _
      rw [composite_smul b5, composite_add a5, if_neg (fun h => h hs)]
  | neg a ih =>
    obtain ⟨P, a1, a2, a3, a4, a5, a6, a7⟩ := ih ht
    refine ⟨P.neg, ?_, a2, a3, a4, ?_, ?_, ?_⟩
    · simp only [PExpr.eval, a1]; rfl
    · unfold Potential.neg Potential.smul; rw [composite_smul a5]; trivial
    · unfold Potential.neg Potential.smul; rw [composite_smul a5]; exact a6
    · simp only [PExpr.toExpr, Expr.eval, a7]; rfl
  | smul s a ih =>
    obtain ⟨P, a1, a2, a3, a4, a5, a6, a7⟩ := ih ht.2
    refine ⟨P.smul s, ?_, a2, a3, a4, ?_, ?_, ?_⟩
    · simp only [PExpr.eval, a1]; rfl
    · unfold Potential.smul; rw [composite_smul a5]; trivial
    · unfold Potential.smul; rw [composite_smul a5]; exact a6
    · simp only [PExpr.toExpr, Expr.eval, a7]; rfl

end

end Verif.PyOp
