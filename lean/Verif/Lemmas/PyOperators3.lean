import Verif.Lemmas.PyOperators2
/-
Lemmas for C95: the compound hypersingular operator.
-/
namespace Verif.PyOp
noncomputable section

variable {V : Type} [AddCommGroup V] [Module ℝ V] {lib : Library} {S : Surface V} {z : Prop} {l : List Node} {i j : Nat} {d r t s : Space}
  {a b : V →ₗ[ℝ] V →ₗ[ℝ] ℂ}

/-- The form with both arguments mapped by `T` and projected to a space. -/
def sandwich (S : Surface V) (core : Core) (a : V →ₗ[ℝ] V →ₗ[ℝ] ℂ) (s : Space) (T : V →ₗ[ℝ] V) : V →ₗ[ℝ] V →ₗ[ℝ] ℂ :=
  a.compl₁₂ (projL S core s ∘ₗ T) (projL S core s ∘ₗ T)

theorem sandwich_apply (core : Core) (a : V →ₗ[ℝ] V →ₗ[ℝ] ℂ) (s : Space) (T : V →ₗ[ℝ] V) (v w : V) :
    sandwich S core a s T v w = a (projL S core s (T v)) (projL S core s (T w)) := rfl

/-- An operator that is a local operator with a functor: its formula is that of its atom, and its strong form has the coefficients of the projections. -/
theorem strong_local (hx : Exact lib S) {k : Label} {T : V →ₗ[ℝ] V} (hT : ∀ v w, S.form k v w = S.ip v (T w)) (d s : Space) (τ : Nat) :
    Denotes (.mul (.inverse (lib.core.mass s s)) (lib.core.form (lib.number k d s) τ)) (lib.core.dofs s) (lib.core.dofs d)
      (coefC S lib.core s fun j : Fin (lib.core.dofs d) => T (S.basis d j)) := by
  have h := Denotes.mul (denotes_inverse hx s).1 (hx.forms k d s τ).denotes
  have he : (Matrix.of fun (i : Fin (lib.core.dofs s)) (j : Fin (lib.core.dofs d)) => S.form k (S.basis s i) (S.basis d j)) =
      Matrix.of fun (i : Fin (lib.core.dofs s)) (j : Fin (lib.core.dofs d)) => ((S.ip (S.basis s i) (T (S.basis d j)) : ℝ) : ℂ) := by
    ext i j; exact hT _ _
  have h' := h
  rw [he, gramInv_mul] at h'
  exact h'

theorem conj_coefC (s : Space) {n : Nat} (f : Fin n → V) : (coefC S lib.core s f).conjTranspose = (coefC S lib.core s f).transpose := by
  ext i j
  simp only [Matrix.conjTranspose_apply, Matrix.transpose_apply, coefC, Matrix.of_apply]
  exact Complex.conj_ofReal _

theorem adjoint_ok {rr c : Nat} {f : Nat → Nat → ℂ} {e : Expr} (A : Arr) (h : IsAtom rr c f e) :
    (Expr.mul (.inverse A) e).ZeroFree ∧ (Expr.mul (.inverse A) e).RealScalars ∧ (Expr.mul (.inverse A) e).NonlocalUntransposed := by
  refine ⟨zeroFree_mul (zeroFree_inverse A) (zeroFree_atom h), ⟨fun _ _ h => (by cases h), fun _ _ h => (by cases h), h.every ?_⟩,
    ⟨fun _ h => (by cases h), fun _ h => (by cases h), h.every ?_⟩⟩
  · cases h <;> exact fun _ _ h => (by cases h)
  · cases h <;> exact fun _ h => (by cases h)

/-- `op.dual_product(slp)`. -/
theorem runs_dualProduct (hx : Exact lib S) (hl : OpHeap lib l) {k : Label} {T : V →ₗ[ℝ] V} (hT : ∀ v w, S.form k v w = S.ip v (T w))
    (hi : i < l.length) (hn : nodesOf l i = ⟨.elementary (lib.number k d s), d, s, s⟩) (hj : StandsAs lib S z l j s r s a) :
    Runs lib (allocWith fun nodes => mkDualProduct lib.core nodes i j) l fun q l' =>
      StandsAs lib S z l' q s r d (a.compl₁₂ (projL S lib.core s ∘ₗ T) LinearMap.id) := by
  have hok : mkDualProduct lib.core (nodesOf l) i j = .ok ⟨.dualProduct i j, s, r, d⟩ := by
    unfold mkDualProduct
    rw [hn, hj.dual, hj.domain, hj.range]
    simp [hx.compatible]
  refine (runs_allocWith hl hok (Or.inr (Or.inr (Or.inr (Or.inr (Or.inr (Or.inl ⟨i, j, hi, hj.lt, hok⟩))))))).mono fun q new hq => ?_
  obtain ⟨rfl, hq⟩ := hq
  rw [hq]
  refine ⟨by simp, by rw [nodesOf_push], by rw [nodesOf_push], by rw [nodesOf_push], fun τ => ?_⟩
  obtain ⟨e, h1, h2, h3, h4, h5⟩ := hj.form τ
  have hf := Formula.dualProduct (core := lib.core) (nodes := nodesOf (l ++ [⟨.dualProduct i j, s, r, d⟩])) (τ := τ) (i := l.length) (a := i) (b := j) (by rw [nodesOf_push])
    (.elementary (k := lib.number k d s) (by rw [nodesOf_append _ _ hi, hn])) (formula_mono hl h1 hj.lt)
  rw [nodesOf_append _ _ hi, hn] at hf
  have hat := hx.forms k d s (τ i)
  refine ⟨_, hf, ⟨⟨(denotes_inverse hx s).2, hat.wellformed⟩, h2⟩,
    permitted_mul (permitted_adjoint (permitted_mul (permitted_inverse _) (permitted_atom hat)) (adjoint_ok _ hat)) h3,
    fun hz => zeroFree_mul ⟨fun _ _ h => (by cases h), zeroFree_mul (zeroFree_inverse _) (zeroFree_atom hat)⟩ (h4 hz), ?_⟩
  have := Denotes.mul (.adjoint (strong_local hx hT d s (τ i))) h5
  rw [conj_coefC, galerkin_eq, mul_gal] at this
  exact this

/-- `p * op`. -/
theorem runs_product (hx : Exact lib S) (hl : OpHeap lib l) {k : Label} {T : V →ₗ[ℝ] V} (hT : ∀ v w, S.form k v w = S.ip v (T w))
    (hi : i < l.length) (hn : nodesOf l i = ⟨.elementary (lib.number k d s), d, s, s⟩) (hj : StandsAs lib S z l j s r t a) :
    Runs lib (allocWith fun nodes => mkProduct lib.core nodes j i) l fun q l' =>
      StandsAs lib S z l' q d r t (a.compl₁₂ LinearMap.id (projL S lib.core s ∘ₗ T)) := by
  have hok : mkProduct lib.core (nodesOf l) j i = .ok ⟨.product j i, d, r, t⟩ := by
    unfold mkProduct
    rw [hn, hj.dual, hj.domain, hj.range]
    simp [hx.compatible]
  refine (runs_allocWith hl hok (Or.inr (Or.inr (Or.inr (Or.inr (Or.inl ⟨j, i, hj.lt, hi, hok⟩)))))).mono fun q new hq => ?_
  obtain ⟨rfl, hq⟩ := hq
  rw [hq]
  refine ⟨by simp, by rw [nodesOf_push], by rw [nodesOf_push], by rw [nodesOf_push], fun τ => ?_⟩
  obtain ⟨e, h1, h2, h3, h4, h5⟩ := hj.form τ
  have hf := Formula.product (core := lib.core) (nodes := nodesOf (l ++ [⟨.product j i, d, r, t⟩])) (τ := τ) (i := l.length) (a := j) (b := i) (by rw [nodesOf_push])
    (formula_mono hl h1 hj.lt) (.elementary (k := lib.number k d s) (by rw [nodesOf_append _ _ hi, hn]))
  rw [nodesOf_append _ _ hi, hn] at hf
  have hat := hx.forms k d s (τ i)
  refine ⟨_, hf, ⟨h2, ⟨(denotes_inverse hx s).2, hat.wellformed⟩⟩,
    permitted_mul h3 (permitted_mul (permitted_inverse _) (permitted_atom hat)),
    fun hz => zeroFree_mul (h4 hz) (zeroFree_mul (zeroFree_inverse _) (zeroFree_atom hat)), ?_⟩
  have := Denotes.mul h5 (strong_local hx hT d s (τ i))
  rw [galerkin_eq, gal_mul] at this
  exact this

/-- The value of the factor, 1 if there is none. -/
def factorValue : Option Scalar → ℂ
  | none => 1
  | some c => c.value

/-- `compound_op += factor * op.dual_product(slp) * op`. -/
theorem runs_addSandwich (hx : Exact lib S) (hl : OpHeap lib l) {k : Label} {T : V →ₗ[ℝ] V} (hT : ∀ v w, S.form k v w = S.ip v (T w)) (factor : Option Scalar)
    (hc : ∀ c, factor = some c → c.complex = false → star c.value = c.value) {slp compound op : Nat}
    (hi : op < l.length) (hn : nodesOf l op = ⟨.elementary (lib.number k d s), d, s, s⟩) (hj : StandsAs lib S z l slp s r s a)
    (hb : StandsAs lib S z l compound d r d b) :
    Runs lib (addSandwich lib factor slp compound op) l fun q l' => StandsAs lib S z l' q d r d (b + factorValue factor • sandwich S lib.core a s T) := by
  unfold addSandwich
  refine (runs_dualProduct hx hl hT hi hn hj).bind fun p new hl1 hp => ?_
  have hn1 : nodesOf (l ++ new) op = ⟨.elementary (lib.number k d s), d, s, s⟩ := by rw [nodesOf_append _ _ hi]; exact hn
  have hi1 : op < (l ++ new).length := by rw [List.length_append]; omega
  have hb1 := hb.extend hl new
  generalize l ++ new = l1 at *
  have rest : ∀ p2 new2, OpHeap lib (l1 ++ new2) → StandsAs lib S z (l1 ++ new2) p2 s r d (factorValue factor • a.compl₁₂ (projL S lib.core s ∘ₗ T) LinearMap.id) →
      Runs lib (do
        let b ← allocWith fun nodes => mkProduct lib.core nodes p2 op
        allocWith fun nodes => mkSum lib.core nodes compound b) (l1 ++ new2)
        fun q l' => StandsAs lib S z l' q d r d (b + factorValue factor • sandwich S lib.core a s T) := by
    intro p2 new2 hl2 hp2
    have hn2 : nodesOf (l1 ++ new2) op = ⟨.elementary (lib.number k d s), d, s, s⟩ := by rw [nodesOf_append _ _ hi1]; exact hn1
    have hi2 : op < (l1 ++ new2).length := by rw [List.length_append]; omega
    have hb2 := hb1.extend hl1 new2
    generalize l1 ++ new2 = l2 at *
    refine (runs_product hx hl2 hT hi2 hn2 hp2).bind fun p3 new3 hl3 hp3 => ?_
    have hb3 := hb2.extend hl2 new3
    generalize l2 ++ new3 = l3 at *
    exact runs_sum hx hl3 hb3 (hp3.congr fun _ _ _ _ => rfl)
  cases factor with
  | none =>
    have h0 : StandsAs lib S z l1 p s r d (factorValue none • a.compl₁₂ (projL S lib.core s ∘ₗ T) LinearMap.id) := by simpa [factorValue] using hp
    exact (Runs.pure (Q := fun q l' => StandsAs lib S z l' q s r d _) hl1 h0).bind rest
  | some c => exact (runs_scaled hl1 hp c (hc c rfl)).bind rest

/-- An elementary operator, with its node. -/
theorem runs_elementary_node (hl : OpHeap lib l) (k : Label) (d r t : Space) :
    Runs lib (elementary lib k d r t) l fun i l' => i < l'.length ∧ nodesOf l' i = ⟨.elementary (lib.number k d t), d, r, t⟩ := by
  refine (runs_alloc hl (Or.inl ⟨_, rfl⟩)).mono fun i new h => ?_
  obtain ⟨rfl, h⟩ := h
  rw [h]
  exact ⟨by simp, nodesOf_push _ _⟩

/-- What one pass adds. -/
def stepForm (S : Surface V) (core : Core) (wave2 : Option Scalar) (a : V →ₗ[ℝ] V →ₗ[ℝ] ℂ) (s : Space) (c : Nat) : V →ₗ[ℝ] V →ₗ[ℝ] ℂ :=
  sandwich S core a s (S.curl c) + (match wave2 with | none => 0 | some w => w.value • sandwich S core a s (S.normal c))

theorem runs_compoundStep (hx : Exact lib S) (hl : OpHeap lib l) (wave2 : Option Scalar) (hc : ∀ c, wave2 = some c → c.complex = false → star c.value = c.value)
    {slp compound : Nat} (hj : StandsAs lib S z l slp s r s a) (hb : StandsAs lib S z l compound d r d b) (c : Nat) :
    Runs lib (compoundStep lib wave2 d s slp compound c) l fun q l' => StandsAs lib S z l' q d r d (b + stepForm S lib.core wave2 a s c) := by
  unfold compoundStep
  refine (runs_elementary_node hl (.curl c) d s s).bind fun p new hl1 ⟨hp, hn⟩ => ?_
  have hb1 := hb.extend hl new
  have hj1 := hj.extend hl new
  generalize l ++ new = l1 at *
  refine (runs_addSandwich hx hl1 (hx.curl c) none (fun _ h => by cases h) hp hn hj1 hb1).bind fun p2 new2 hl2 hp2 => ?_
  have hj2 := hj1.extend hl1 new2
  generalize l1 ++ new2 = l2 at *
  cases wave2 with
  | none =>
    refine Runs.pure hl2 ?_
    simpa [stepForm, factorValue] using hp2
  | some w =>
    dsimp only
    refine (runs_elementary_node hl2 (.normal c) d s s).bind fun p3 new3 hl3 ⟨hp3, hn3⟩ => ?_
    have hb3 := hp2.extend hl2 new3
    have hj3 := hj2.extend hl2 new3
    generalize l2 ++ new3 = l3 at *
    refine (runs_addSandwich hx hl3 (hx.normal c) (some w) hc hp3 hn3 hj3 hb3).mono fun q new4 hq => ?_
    simpa [stepForm, factorValue, add_assoc] using hq

end

end Verif.PyOp
