import Verif.Spec.PyOperators
import Verif.Lemmas.PyBoundary2
import Mathlib.LinearAlgebra.Matrix.NonsingularInverse
import Mathlib.LinearAlgebra.Matrix.ToLin
import Mathlib.LinearAlgebra.Matrix.ToLinearEquiv
import Mathlib.Analysis.Complex.Basic
/-
Lemmas for C95: mass matrices, L2 projections and Galerkin matrices.
-/
namespace Verif.PyOp
noncomputable section

variable {V : Type} [AddCommGroup V] [Module ℝ V] {lib : Library} {S : Surface V}

/-- The Gram matrix of a space. -/
def gramM (S : Surface V) (core : Core) (s : Space) : Matrix (Fin (core.dofs s)) (Fin (core.dofs s)) ℝ := Matrix.of fun i j => S.ip (S.basis s i) (S.basis s j)

theorem gram_injective (hx : Exact lib S) (s : Space) : Function.Injective (gramM S lib.core s).mulVec := by
  have h0 : ∀ x, (gramM S lib.core s).mulVec x = 0 → x = 0 := by
    intro x h
    by_contra hne
    have hv : (∑ i, x i • S.basis s i) ≠ 0 := by
      intro h0
      exact hne (funext fun i => Fintype.linearIndependent_iff.mp (hx.independent s) x h0 i)
    have hp := hx.positive _ hv
    have : S.ip (∑ i, x i • S.basis s i) (∑ i, x i • S.basis s i) = ∑ i, x i * (gramM S lib.core s).mulVec x i := by
      simp only [map_sum, map_smul, LinearMap.sum_apply, LinearMap.smul_apply, smul_eq_mul, Matrix.mulVec, dotProduct, gramM, Matrix.of_apply]
      simp only [Finset.mul_sum]
      rw [Finset.sum_comm]
      exact Finset.sum_congr rfl fun i _ => Finset.sum_congr rfl fun j _ => by ring
    rw [this, h] at hp
    simp at hp
  intro x y h
  have := h0 (x - y) (by rw [Matrix.mulVec_sub]; exact sub_eq_zero.mpr h)
  exact sub_eq_zero.mp this

theorem gram_det_ne (hx : Exact lib S) (s : Space) : (gramM S lib.core s).det ≠ 0 := by
  intro h
  obtain ⟨v, hv, h0⟩ := Matrix.exists_mulVec_eq_zero_iff.mpr h
  exact hv (gram_injective hx s (by rw [h0, Matrix.mulVec_zero]))

/-- The coefficients of the L2 projection. -/
def coefM (S : Surface V) (core : Core) (s : Space) (v : V) : Fin (core.dofs s) → ℝ := ((gramM S core s)⁻¹).mulVec fun k => S.ip (S.basis s k) v

/-- The L2 projection. -/
def projL (S : Surface V) (core : Core) (s : Space) : V →ₗ[ℝ] V where
  toFun v := ∑ k, coefM S core s v k • S.basis s k
  map_add' v w := by
    rw [← Finset.sum_add_distrib]
    refine Finset.sum_congr rfl fun k _ => ?_
    rw [← add_smul]
    congr 1
    unfold coefM
    rw [← Pi.add_apply, ← Matrix.mulVec_add]
    congr 2
    funext k
    simp
  map_smul' c v := by
    rw [Finset.smul_sum]
    refine Finset.sum_congr rfl fun k _ => ?_
    rw [smul_smul]
    congr 1
    unfold coefM
    have : (fun k : Fin (core.dofs s) => S.ip (S.basis s k) (c • v)) = c • fun k : Fin (core.dofs s) => S.ip (S.basis s k) v := by
      funext k; simp
    rw [this, Matrix.mulVec_smul]
    rfl

theorem projL_apply (s : Space) (v : V) : projL S lib.core s v = ∑ k, coefM S lib.core s v k • S.basis s k := rfl

theorem proj_spec (hx : Exact lib S) (s : Space) (v : V) : S.IsProjection lib.core s v (projL S lib.core s v) := by
  constructor
  · rw [projL_apply]
    exact Submodule.sum_mem _ fun k _ => Submodule.smul_mem _ _ (Submodule.subset_span ⟨k, rfl⟩)
  · intro w hw
    have key : ∀ k : Fin (lib.core.dofs s), S.ip (S.basis s k) (v - projL S lib.core s v) = 0 := by
      intro k
      rw [map_sub, sub_eq_zero, projL_apply]
      have h1 : (gramM S lib.core s).mulVec (coefM S lib.core s v) = fun k : Fin (lib.core.dofs s) => S.ip (S.basis s k) v := by
        unfold coefM
        rw [Matrix.mulVec_mulVec, Matrix.mul_nonsing_inv _ (isUnit_iff_ne_zero.mpr (gram_det_ne hx s)), Matrix.one_mulVec]
      have := congrFun h1 k
      rw [← this]
      simp only [Matrix.mulVec, dotProduct, gramM, Matrix.of_apply, map_sum, map_smul, smul_eq_mul]
      exact Finset.sum_congr rfl fun j _ => mul_comm _ _
    refine Submodule.span_induction (p := fun w _ => S.ip w (v - projL S lib.core s v) = 0) ?_ ?_ ?_ ?_ hw
    · rintro _ ⟨k, rfl⟩; exact key k
    · simp
    · intro x y _ _ hx hy; rw [map_add, LinearMap.add_apply, hx, hy, add_zero]
    · intro c x _ hx; rw [map_smul, LinearMap.smul_apply, hx, smul_zero]

theorem proj_unique (hx : Exact lib S) {s : Space} {v p q : V} (hp : S.IsProjection lib.core s v p) (hq : S.IsProjection lib.core s v q) : p = q := by
  by_contra hne
  have h1 : q - p ∈ S.span lib.core s := Submodule.sub_mem _ hq.1 hp.1
  have h2 : S.ip (q - p) (v - p) - S.ip (q - p) (v - q) = S.ip (q - p) (q - p) := by
    rw [← map_sub]; congr 1; abel
  rw [hp.2 _ h1, hq.2 _ h1] at h2
  have := hx.positive (q - p) (sub_ne_zero.mpr fun h => hne h.symm)
  linarith

theorem proj_eq (hx : Exact lib S) {s : Space} {v p : V} (hp : S.IsProjection lib.core s v p) : projL S lib.core s v = p := proj_unique hx (proj_spec hx s v) hp

theorem proj_self (hx : Exact lib S) {s : Space} {v : V} (h : v ∈ S.span lib.core s) : projL S lib.core s v = v :=
  proj_eq hx ⟨h, fun w _ => by rw [sub_self, map_zero]⟩

theorem basis_mem (s : Space) (i : Nat) (h : i < lib.core.dofs s) : S.basis s i ∈ S.span lib.core s := Submodule.subset_span ⟨⟨i, h⟩, rfl⟩

/-- The matrix of L2 products of two spaces. -/
def massM (S : Surface V) (core : Core) (d t : Space) : Matrix (Fin (core.dofs t)) (Fin (core.dofs d)) ℂ :=
  Matrix.of fun i j => ((S.ip (S.basis t i) (S.basis d j) : ℝ) : ℂ)

/-- Complexified inverse Gram matrix. -/
def gramInv (S : Surface V) (core : Core) (s : Space) : Matrix (Fin (core.dofs s)) (Fin (core.dofs s)) ℂ := ((gramM S core s)⁻¹).map Complex.ofReal

/-- Coefficients of the projections of a family of functions, as columns. -/
def coefC (S : Surface V) (core : Core) (s : Space) {n : Nat} (f : Fin n → V) : Matrix (Fin (core.dofs s)) (Fin n) ℂ :=
  Matrix.of fun k j => ((coefM S core s (f j) k : ℝ) : ℂ)

theorem gramInv_mul {n : Nat} (s : Space) (f : Fin n → V) :
    gramInv S lib.core s * (Matrix.of fun (k : Fin (lib.core.dofs s)) (j : Fin n) => ((S.ip (S.basis s k) (f j) : ℝ) : ℂ)) = coefC S lib.core s f := by
  ext k j
  simp only [gramInv, coefC, Matrix.mul_apply, Matrix.map_apply, Matrix.of_apply, coefM, Matrix.mulVec, dotProduct, Complex.ofReal_sum, Complex.ofReal_mul]

/-- Galerkin matrices for families of functions. -/
def gal {m n : Nat} (a : V →ₗ[ℝ] V →ₗ[ℝ] ℂ) (f : Fin m → V) (g : Fin n → V) : Matrix (Fin m) (Fin n) ℂ := Matrix.of fun i j => a (f i) (g j)

theorem gal_mul {m n : Nat} (a : V →ₗ[ℝ] V →ₗ[ℝ] ℂ) (f : Fin m → V) (s : Space) (g : Fin n → V) :
    gal a f (fun k : Fin (lib.core.dofs s) => S.basis s k) * coefC S lib.core s g = gal a f fun j => projL S lib.core s (g j) := by
  ext i j
  simp only [gal, coefC, Matrix.mul_apply, Matrix.of_apply, projL_apply, map_sum, map_smul, Complex.real_smul]
  exact Finset.sum_congr rfl fun k _ => mul_comm _ _

theorem mul_gal {m n : Nat} (a : V →ₗ[ℝ] V →ₗ[ℝ] ℂ) (f : Fin m → V) (s : Space) (g : Fin n → V) :
    (coefC S lib.core s f).transpose * gal a (fun k : Fin (lib.core.dofs s) => S.basis s k) g = gal a (fun i => projL S lib.core s (f i)) g := by
  ext i j
  simp only [gal, coefC, Matrix.mul_apply, Matrix.of_apply, Matrix.transpose_apply, projL_apply, map_sum, map_smul, LinearMap.sum_apply, LinearMap.smul_apply,
    Complex.real_smul]

theorem gramInv_symm (hx : Exact lib S) (s : Space) : (gramInv S lib.core s).transpose = gramInv S lib.core s := by
  unfold gramInv
  rw [← Matrix.transpose_map, Matrix.transpose_nonsing_inv]
  have : (gramM S lib.core s).transpose = gramM S lib.core s := by
    ext i j; exact hx.symm _ _
  rw [this]

theorem mul_gramInv {m : Nat} (hx : Exact lib S) (s : Space) (f : Fin m → V) :
    (Matrix.of fun (i : Fin m) (k : Fin (lib.core.dofs s)) => ((S.ip (f i) (S.basis s k) : ℝ) : ℂ)) * gramInv S lib.core s = (coefC S lib.core s f).transpose := by
  rw [← gramInv_mul, Matrix.transpose_mul, gramInv_symm hx]
  congr 1
  ext i k
  simp only [Matrix.of_apply, Matrix.transpose_apply]
  rw [hx.symm]

/-! ### What the expressions denote -/

theorem Denotes.cast {e : Expr} {r c r' c' : Nat} {M : Matrix (Fin r) (Fin c) ℂ} {N : Matrix (Fin r') (Fin c') ℂ} (h : Denotes e r c M) (hr : r = r') (hc : c = c')
    (hm : ∀ i j, M i j = N (Fin.cast hr i) (Fin.cast hc j)) : Denotes e r' c' N := by
  subst hr; subst hc
  have : M = N := by ext i j; exact hm i j
  exact this ▸ h

theorem denotes_mass (hx : Exact lib S) (d t : Space) : Denotes (.sparse (lib.core.mass d t)) _ _ (massM S lib.core d t) := by
  obtain ⟨-, -, hr, hc, he⟩ := hx.mass d t
  refine Denotes.cast (.sparse _) hr hc fun i j => ?_
  exact he _ (hr ▸ i.2) _ (hc ▸ j.2)

theorem mass_matrix (hx : Exact lib S) (s : Space) {A : Arr} (hA : A = lib.core.mass s s) (hr : A.rows = lib.core.dofs s) (hc : A.cols = lib.core.dofs s) :
    ∀ i j : Nat, i < lib.core.dofs s → j < lib.core.dofs s → A.e i j = ((S.ip (S.basis s i) (S.basis s j) : ℝ) : ℂ) := by
  subst hA
  intro i j hi hj
  exact (hx.mass s s).2.2.2.2 i hi j hj

theorem massM_eq (s : Space) : massM S lib.core s s = (gramM S lib.core s).map Complex.ofReal := rfl

theorem gramC_mul (hx : Exact lib S) (s : Space) : massM S lib.core s s * gramInv S lib.core s = 1 := by
  rw [massM_eq]
  unfold gramInv
  show (gramM S lib.core s).map Complex.ofRealHom * ((gramM S lib.core s)⁻¹).map Complex.ofRealHom = 1
  rw [← Matrix.map_mul, Matrix.mul_nonsing_inv _ (isUnit_iff_ne_zero.mpr (gram_det_ne hx s))]
  exact Matrix.map_one _ Complex.ofReal_zero Complex.ofReal_one

theorem gramC_mul' (hx : Exact lib S) (s : Space) : gramInv S lib.core s * massM S lib.core s s = 1 := by
  rw [massM_eq]
  unfold gramInv
  show ((gramM S lib.core s)⁻¹).map Complex.ofRealHom * (gramM S lib.core s).map Complex.ofRealHom = 1
  rw [← Matrix.map_mul, Matrix.nonsing_inv_mul _ (isUnit_iff_ne_zero.mpr (gram_det_ne hx s))]
  exact Matrix.map_one _ Complex.ofReal_zero Complex.ofReal_one

theorem inverse_aux {A : Arr} {n : Nat} (hr : A.rows = n) (hc : A.cols = n) {B X : Matrix (Fin n) (Fin n) ℂ} (he : ∀ i j : Fin n, A.e i j = B i j)
    (h1 : B * X = 1) (h2 : X * B = 1) : Denotes (.inverse A) n n X ∧ FullRank A := by
  obtain ⟨two, rows, cols, cx, e⟩ := A
  dsimp only at hr hc he
  subst cols
  subst rows
  have hB : (Matrix.of fun (i j : Fin n) => e i j) = B := by ext i j; exact he i j
  constructor
  · refine Denotes.inverse (Arr.mk two n n cx e) X ?_
    show IsPseudoInverse (Matrix.of fun (i j : Fin n) => e i j) X
    rw [hB]
    refine ⟨?_, ?_, ?_, ?_⟩
    · rw [h1, Matrix.one_mul]
    · rw [h2, Matrix.one_mul]
    · rw [h1, Matrix.conjTranspose_one]
    · rw [h2, Matrix.conjTranspose_one]
  · unfold FullRank
    dsimp only
    rw [if_pos (le_refl _), hB]
    intro x y h
    have := congrArg X.mulVec h
    rwa [Matrix.mulVec_mulVec, Matrix.mulVec_mulVec, h2, Matrix.one_mulVec, Matrix.one_mulVec] at this

theorem inverse_rect {A : Arr} {m n : Nat} (hr : A.rows = m) (hc : A.cols = n) {B : Matrix (Fin m) (Fin n) ℂ} {X : Matrix (Fin n) (Fin m) ℂ}
    (he : ∀ (i : Fin m) (j : Fin n), A.e i j = B i j) (h1 : B * X = 1) (h2 : X * B = 1) : Denotes (.inverse A) n m X ∧ FullRank A := by
  obtain ⟨two, rows, cols, cx, e⟩ := A
  dsimp only at hr hc he
  subst cols
  subst rows
  have hB : (Matrix.of fun (i : Fin m) (j : Fin n) => e i j) = B := by ext i j; exact he i j
  constructor
  · refine Denotes.inverse (Arr.mk two m n cx e) X ?_
    show IsPseudoInverse (Matrix.of fun (i : Fin m) (j : Fin n) => e i j) X
    rw [hB]
    refine ⟨?_, ?_, ?_, ?_⟩
    · rw [h1, Matrix.one_mul]
    · rw [h2, Matrix.one_mul]
    · rw [h1, Matrix.conjTranspose_one]
    · rw [h2, Matrix.conjTranspose_one]
  · unfold FullRank
    dsimp only
    rw [hB]
    split
    · intro x y h
      have := congrArg X.mulVec h
      rwa [Matrix.mulVec_mulVec, Matrix.mulVec_mulVec, h2, Matrix.one_mulVec, Matrix.one_mulVec] at this
    · intro x y h
      have := congrArg X.conjTranspose.mulVec h
      rwa [Matrix.mulVec_mulVec, Matrix.mulVec_mulVec, ← Matrix.conjTranspose_mul, h1, Matrix.conjTranspose_one, Matrix.one_mulVec, Matrix.one_mulVec] at this

theorem denotes_inverse (hx : Exact lib S) (s : Space) : Denotes (.inverse (lib.core.mass s s)) _ _ (gramInv S lib.core s) ∧
    (Expr.inverse (lib.core.mass s s)).Wellformed := by
  obtain ⟨h2, ht, hr, hc, he⟩ := hx.mass s s
  obtain ⟨hd, hf⟩ := inverse_aux hr hc (B := massM S lib.core s s) (X := gramInv S lib.core s) (fun i j => he i i.2 j j.2) (gramC_mul hx s) (gramC_mul' hx s)
  exact ⟨hd, ⟨h2, ht⟩, hf, by rw [hr]; exact hx.notOne s, by rw [hc]; exact hx.notOne s⟩

theorem wellformed_mass (hx : Exact lib S) (d t : Space) : (Expr.sparse (lib.core.mass d t)).Wellformed := ⟨(hx.mass d t).1, (hx.mass d t).2.1⟩

/-- Properties of atoms. -/
theorem IsAtom.wellformed {r c : Nat} {f : Nat → Nat → ℂ} {e : Expr} (h : IsAtom r c f e) : e.Wellformed := by
  cases h with
  | dense A h => exact h
  | sparse A h => exact h
  | nonlocal z e h => exact h
  | rankOne p q hp hq => exact ⟨hp, hq⟩

theorem IsAtom.every {r c : Nat} {f : Nat → Nat → ℂ} {e : Expr} (h : IsAtom r c f e) {P : Expr → Prop} (hp : P e) : e.Every P := by
  cases h <;> exact hp

theorem IsAtom.denotes {r c : Nat} {f : Nat → Nat → ℂ} {e : Expr} (h : IsAtom r c f e) : Denotes e r c (Matrix.of fun i j => f i j) := by
  cases h with
  | dense A h hr hc he => exact Denotes.cast (.dense A) hr hc fun i j => he _ (hr ▸ i.2) _ (hc ▸ j.2)
  | sparse A h hr hc he => exact Denotes.cast (.sparse A) hr hc fun i j => he _ (hr ▸ i.2) _ (hc ▸ j.2)
  | nonlocal z e h he => exact Denotes.cast (.nonlocal z r c e) rfl rfl fun i j => he _ i.2 _ j.2
  | rankOne p q hp hq hr hc he => exact Denotes.cast (.rankOne p q) hr hc fun i j => he _ (hr ▸ i.2) _ (hc ▸ j.2)

end

end Verif.PyOp
