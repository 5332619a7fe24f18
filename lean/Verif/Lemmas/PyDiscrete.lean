import Verif.Spec.PyDiscrete
import Mathlib.LinearAlgebra.Matrix.DotProduct
import Mathlib.LinearAlgebra.Matrix.ToLin
import Mathlib.Analysis.Complex.Order
import Mathlib.LinearAlgebra.Matrix.NonsingularInverse
namespace Verif.PyOp
open Verif.DiscreteOp
noncomputable section

/-! ### Pseudo-inverses -/

section
variable {m n : Nat} {A : Matrix (Fin m) (Fin n) ℂ} {X : Matrix (Fin n) (Fin m) ℂ}

theorem mp_normal (h : IsPseudoInverse A X) : A.conjTranspose * A * X = A.conjTranspose := by
  obtain ⟨h1, -, h3, -⟩ := h
  calc A.conjTranspose * A * X = A.conjTranspose * (A * X) := Matrix.mul_assoc _ _ _
    _ = A.conjTranspose * (A * X).conjTranspose := by rw [h3]
    _ = (A * X * A).conjTranspose := by rw [Matrix.conjTranspose_mul (A * X) A]
    _ = A.conjTranspose := by rw [h1]

theorem mp_normal' (h : IsPseudoInverse A X) : X * (A * A.conjTranspose) = A.conjTranspose := by
  obtain ⟨h1, -, -, h4⟩ := h
  calc X * (A * A.conjTranspose) = X * A * A.conjTranspose := (Matrix.mul_assoc _ _ _).symm
    _ = (X * A).conjTranspose * A.conjTranspose := by rw [h4]
    _ = (A * (X * A)).conjTranspose := by rw [Matrix.conjTranspose_mul A (X * A)]
    _ = A.conjTranspose := by rw [← Matrix.mul_assoc, h1]

theorem mp_thin (h : IsPseudoInverse A X) (hd : (A.conjTranspose * A).det ≠ 0) :
    X = (A.conjTranspose * A)⁻¹ * A.conjTranspose := by
  have hu : IsUnit (A.conjTranspose * A).det := isUnit_iff_ne_zero.mpr hd
  have h1 := congrArg (fun Z => (A.conjTranspose * A)⁻¹ * Z) (mp_normal h)
  rw [← h1, ← Matrix.mul_assoc, Matrix.nonsing_inv_mul _ hu, Matrix.one_mul]

theorem mp_thick (h : IsPseudoInverse A X) (hd : (A * A.conjTranspose).det ≠ 0) :
    X = A.conjTranspose * (A * A.conjTranspose)⁻¹ := by
  have hu : IsUnit (A * A.conjTranspose).det := isUnit_iff_ne_zero.mpr hd
  have h1 := congrArg (fun Z => Z * (A * A.conjTranspose)⁻¹) (mp_normal' h)
  rw [← h1, Matrix.mul_assoc X, Matrix.mul_nonsing_inv _ hu, Matrix.mul_one]

theorem mp_square {A X : Matrix (Fin n) (Fin n) ℂ} (h : IsPseudoInverse A X) (hd : A.det ≠ 0) : X = A⁻¹ := by
  have hu : IsUnit A.det := isUnit_iff_ne_zero.mpr hd
  have h1 := h.1
  have : A⁻¹ * (A * X * A) * A⁻¹ = A⁻¹ * A * A⁻¹ := by rw [h1]
  rw [Matrix.mul_assoc A, ← Matrix.mul_assoc A⁻¹, Matrix.nonsing_inv_mul _ hu, Matrix.one_mul, Matrix.mul_assoc X,
    Matrix.mul_nonsing_inv _ hu, Matrix.mul_one, Matrix.one_mul] at this
  exact this

theorem mp_transpose (h : IsPseudoInverse A X) : IsPseudoInverse A.transpose X.transpose := by
  obtain ⟨h1, h2, h3, h4⟩ := h
  refine ⟨?_, ?_, ?_, ?_⟩
  · rw [← Matrix.transpose_mul, ← Matrix.transpose_mul, ← Matrix.mul_assoc, h1]
  · rw [← Matrix.transpose_mul, ← Matrix.transpose_mul, ← Matrix.mul_assoc, h2]
  · rw [← Matrix.transpose_mul]; exact congrArg Matrix.transpose h4
  · rw [← Matrix.transpose_mul]; exact congrArg Matrix.transpose h3

theorem mp_adjoint (h : IsPseudoInverse A X) : IsPseudoInverse A.conjTranspose X.conjTranspose := by
  obtain ⟨h1, h2, h3, h4⟩ := h
  refine ⟨?_, ?_, ?_, ?_⟩
  · rw [← Matrix.conjTranspose_mul, ← Matrix.conjTranspose_mul, ← Matrix.mul_assoc, h1]
  · rw [← Matrix.conjTranspose_mul, ← Matrix.conjTranspose_mul, ← Matrix.mul_assoc, h2]
  · rw [← Matrix.conjTranspose_mul, h4]; exact h4
  · rw [← Matrix.conjTranspose_mul, h3]; exact h3

theorem det_iff_injective (S : Matrix (Fin n) (Fin n) ℂ) : S.det ≠ 0 ↔ Function.Injective S.mulVec := by
  rw [Matrix.mulVec_injective_iff_isUnit, Matrix.isUnit_iff_isUnit_det, isUnit_iff_ne_zero]

theorem injective_iff_zero (S : Matrix (Fin m) (Fin n) ℂ) :
    Function.Injective S.mulVec ↔ ∀ v, S.mulVec v = 0 → v = 0 := by
  constructor
  · intro h v hv
    exact h (by rw [hv, Matrix.mulVec_zero])
  · intro h u v huv
    have := h (u - v) (by rw [Matrix.mulVec_sub, sub_eq_zero]; exact huv)
    exact sub_eq_zero.mp this

open scoped ComplexOrder in
theorem gram_det : (A.conjTranspose * A).det ≠ 0 ↔ Function.Injective A.mulVec := by
  rw [det_iff_injective, injective_iff_zero, injective_iff_zero]
  constructor
  · intro h v hv
    exact h v (by rw [← Matrix.mulVec_mulVec, hv, Matrix.mulVec_zero])
  · intro h v hv
    exact h v (Matrix.conjTranspose_mul_self_mulVec_eq_zero A v |>.mp hv)

theorem gram_det' : (A * A.conjTranspose).det ≠ 0 ↔ Function.Injective A.conjTranspose.mulVec := by
  have := gram_det (A := A.conjTranspose)
  rwa [Matrix.conjTranspose_conjTranspose] at this

end

/-! ### Products -/

section
variable {r c k : Nat} {M N : Matrix (Fin r) (Fin c) ℂ} {x y u v : Arr}

theorem ok_bind {α β : Type} (a : α) (f : α → Res β) : (Except.ok a >>= f : Res β) = f a := rfl
theorem error_bind {α β : Type} (e : Exn) (f : α → Res β) : (Except.error e >>= f : Res β) = .error e := rfl

theorem dot_ok (A : Arr) (h : x.rows = A.cols) :
    ∃ y, A.dot x = .ok y ∧ IsProduct (toM A.rows A.cols A.e) x y ∧ y.complex = (A.complex || x.complex) := by
  unfold Arr.dot
  rw [if_neg (by simpa using h)]
  refine ⟨_, rfl, ⟨rfl, rfl, rfl, fun j hj => ?_⟩, rfl⟩
  funext i
  simp only [Matrix.mulVec, dotProduct, toM, Matrix.of_apply]
  rw [Finset.sum_range]

theorem add_ok (hu : IsProduct M x u) (hv : IsProduct N x v) : ∃ y, u.add v = .ok y ∧ IsProduct (M + N) x y := by
  obtain ⟨u1, u2, u3, u4⟩ := hu
  obtain ⟨v1, v2, v3, v4⟩ := hv
  unfold Arr.add broadcast
  rw [u2, v2, u3, v3]
  simp only [if_true]
  refine ⟨_, rfl, u1, rfl, rfl, fun j hj => ?_⟩
  funext i
  have hi : (if r = 1 then 0 else (i : Nat)) = i := by
    split
    · rename_i h; have := i.isLt; omega
    · rfl
  have hj' : (if x.cols = 1 then 0 else j) = j := by
    split
    · omega
    · rfl
  dsimp only
  rw [hi, hj', Matrix.add_mulVec, Pi.add_apply, ← u4 j hj, ← v4 j hj]

theorem smul_ok (s : Scalar) (hu : IsProduct M x u) : IsProduct (s.value • M) x (u.smul s) := by
  obtain ⟨u1, u2, u3, u4⟩ := hu
  refine ⟨u1, u2, u3, fun j hj => ?_⟩
  rw [Matrix.smul_mulVec, ← u4 j hj]
  rfl

theorem split_ok (hu : IsProduct M x.real u) (hv : IsProduct M x.imag v) :
    ∃ y, u.add (v.smul imaginaryUnit) = .ok y ∧ IsProduct M x y := by
  have hv' := smul_ok imaginaryUnit hv
  have hu' : IsProduct M x.real u := hu
  -- both are products with arrays of the same dimensions
  obtain ⟨u1, u2, u3, u4⟩ := hu'
  obtain ⟨v1, v2, v3, v4⟩ := hv'
  simp only [Arr.real, Arr.imag] at u1 u3 v1 v3 u4 v4
  generalize hw : v.smul imaginaryUnit = w at v1 v2 v3 v4
  unfold Arr.add broadcast
  rw [u2, v2, u3, v3]
  simp only [if_true]
  refine ⟨_, rfl, u1, rfl, rfl, fun j hj => ?_⟩
  funext i
  have hi : (if r = 1 then 0 else (i : Nat)) = i := by
    split
    · rename_i h; have := i.isLt; omega
    · rfl
  have hj' : (if x.cols = 1 then 0 else j) = j := by
    split
    · omega
    · rfl
  dsimp only
  rw [hi, hj']
  have e1 := congrFun (u4 j hj) i
  have e2 := congrFun (v4 j hj) i
  rw [e1, e2, Matrix.smul_mulVec, Pi.smul_apply, smul_eq_mul]
  simp only [Matrix.mulVec, dotProduct, Finset.mul_sum, ← Finset.sum_add_distrib]
  refine Finset.sum_congr rfl fun l _ => ?_
  have hx : x.e l j = ((x.e l j).re : ℂ) + Complex.I * ((x.e l j).im : ℂ) := by
    rw [mul_comm]; exact (Complex.re_add_im _).symm
  conv_rhs => rw [hx]
  simp only [imaginaryUnit]
  ring

theorem reshape_ok (hy : IsProduct M x y) (hx : x.cols = 1) :
    ∃ z, y.reshape x.twoD r = .ok z ∧ IsProduct M x z := by
  obtain ⟨h1, h2, h3, h4⟩ := hy
  unfold Arr.reshape
  rw [if_neg (by rw [h2, h3, hx]; simp)]
  refine ⟨_, rfl, rfl, rfl, hx.symm, fun j hj => ?_⟩
  rw [← h4 j hj]
  funext i
  dsimp only
  have : j = 0 := by omega
  rw [h3, hx, this, Nat.div_one, Nat.mod_one]

theorem wrapVec_ok {raw : Arr → Res Arr} (hr : x.rows = c) (hx : x.cols = 1) (h : ∃ y, raw x = .ok y ∧ IsProduct M x y) :
    ∃ y, wrapVec r c raw x = .ok y ∧ IsProduct M x y := by
  obtain ⟨y, h1, h2⟩ := h
  obtain ⟨z, h3, h4⟩ := reshape_ok h2 hx
  refine ⟨z, ?_, h4⟩
  unfold wrapVec
  rw [if_pos ⟨hr, hx⟩, h1, ok_bind, h3]

theorem wrapMat_ok {raw : Arr → Res Arr} (hr : x.rows = c) (hx : x.twoD = true) (h : ∃ y, raw x = .ok y ∧ IsProduct M x y) :
    ∃ y, wrapMat c raw x = .ok y ∧ IsProduct M x y := by
  unfold wrapMat
  rw [if_pos ⟨hx, hr⟩]; exact h

theorem comp_ok {B : Matrix (Fin c) (Fin k) ℂ} (hu : IsProduct B x u) (hy : IsProduct M u y) : IsProduct (M * B) x y := by
  obtain ⟨u1, u2, u3, u4⟩ := hu
  obtain ⟨y1, y2, y3, y4⟩ := hy
  refine ⟨y1.trans u1, y2, y3.trans u3, fun j hj => ?_⟩
  rw [y4 j (by omega), u4 j hj, Matrix.mulVec_mulVec]

theorem mapM_ok {α β : Type} (f : α → Res β) (g : α → β) (l : List α) (h : ∀ a ∈ l, f a = .ok (g a)) :
    l.mapM f = .ok (l.map g) := by
  induction l with
  | nil => rfl
  | cons a l ih =>
    rw [List.mapM_cons, h a (by simp), ok_bind, ih (fun b hb => h b (by simp [hb]))]
    rfl

theorem defaultMatmat_ok {mv : Arr → Res Arr} (h2 : x.twoD = true) (hc : 1 ≤ x.cols) (hr : x.rows = c)
    (h : ∀ z : Arr, z.rows = c → z.cols = 1 → ∃ y, mv z = .ok y ∧ IsProduct M z y) :
    ∃ y, defaultMatmat r mv x = .ok y ∧ IsProduct M x y := by
  have hz : ∀ j : Nat, ∃ y, mv (x.column j) = .ok y ∧ IsProduct M (x.column j) y := fun j => h _ hr rfl
  choose g hg1 hg2 using hz
  unfold defaultMatmat
  rw [if_neg (by omega), mapM_ok _ g _ (fun j _ => hg1 j), ok_bind]
  refine ⟨_, rfl, h2.symm, rfl, rfl, fun j hj => ?_⟩
  have := (hg2 j).2.2.2 0 (by simp [Arr.column])
  funext i
  have e := congrFun this i
  simp only [Arr.column] at e
  simp only [List.getElem?_map, List.getElem?_range hj, Option.map_some, Option.getD_some]
  exact e

end

/-! ### The solver -/

section
variable {x : Arr}

theorem luSolve_ok (S : Arr) (hr : x.rows = S.rows) (hc : S.complex = false → x.complex = false) :
    ∃ y, luSolve S x = .ok y ∧ IsProduct (toM S.rows S.rows S.e)⁻¹ x y := by
  unfold luSolve
  rw [if_neg (by rintro ⟨h1, h2⟩; rw [hc h1] at h2; exact Bool.noConfusion h2), if_neg (by simpa using hr)]
  refine ⟨_, rfl, rfl, rfl, rfl, fun j hj => ?_⟩
  funext i
  dsimp only
  rw [dif_pos i.isLt]

theorem toM_conj (A : Arr) : toM A.cols A.rows (A.conjugate.transpose).e = (toM A.rows A.cols A.e).conjTranspose := by
  ext i j
  simp [toM, Arr.conjugate, Arr.transpose, Matrix.conjTranspose_apply]

/-- The matrix that is factorised. -/
theorem gram_thin (A : Arr) (h : A.rows > A.cols) : ∃ S, gram A = .ok S ∧ S.rows = A.cols ∧ S.complex = A.complex ∧
    toM A.cols A.cols S.e = (toM A.rows A.cols A.e).conjTranspose * toM A.rows A.cols A.e := by
  unfold gram
  rw [if_neg (by omega), if_pos h]
  unfold Arr.dot
  rw [if_neg (by simp [Arr.transpose, Arr.conjugate])]
  refine ⟨_, rfl, rfl, by simp [Arr.transpose, Arr.conjugate], ?_⟩
  ext i j
  simp only [toM, Matrix.of_apply, Matrix.mul_apply, Matrix.conjTranspose_apply, Arr.transpose, Arr.conjugate]
  rw [Finset.sum_range]

theorem gram_thick (A : Arr) (h : A.rows < A.cols) : ∃ S, gram A = .ok S ∧ S.rows = A.rows ∧ S.complex = A.complex ∧
    toM A.rows A.rows S.e = toM A.rows A.cols A.e * (toM A.rows A.cols A.e).conjTranspose := by
  unfold gram
  rw [if_neg (by omega), if_neg (by omega)]
  unfold Arr.dot
  rw [if_neg (by simp [Arr.transpose, Arr.conjugate])]
  refine ⟨_, rfl, rfl, by simp [Arr.transpose, Arr.conjugate], ?_⟩
  ext i j
  simp only [toM, Matrix.of_apply, Matrix.mul_apply, Matrix.conjTranspose_apply, Arr.transpose, Arr.conjugate]
  rw [Finset.sum_range]

/-- The factorised matrix is nonsingular exactly for matrices of full rank. -/
theorem mkInverse_eq (A : Arr) : (FullRank A → mkInverse A = .ok (.inverse A)) ∧
    (¬ FullRank A → mkInverse A = .error .RuntimeError) := by
  have key : ∃ S, gram A = .ok S ∧ ((toM S.rows S.rows S.e).det ≠ 0 ↔ FullRank A) := by
    rcases lt_trichotomy A.rows A.cols with h | h | h
    · obtain ⟨S, h1, h2, h3, h4⟩ := gram_thick A h
      refine ⟨S, h1, ?_⟩
      rw [h2, h4, gram_det']
      unfold FullRank
      rw [if_neg (by omega)]; rfl
    · refine ⟨A, by unfold gram; rw [if_pos h], ?_⟩
      unfold FullRank
      rw [if_pos (by omega)]
      obtain ⟨t, m, n, z, e⟩ := A
      dsimp only at h ⊢
      subst h
      exact det_iff_injective _
    · obtain ⟨S, h1, h2, h3, h4⟩ := gram_thin A h
      refine ⟨S, h1, ?_⟩
      rw [h2, h4, gram_det]
      unfold FullRank
      rw [if_pos (by omega)]; rfl
  obtain ⟨S, h1, h2⟩ := key
  constructor
  · intro h
    unfold mkInverse
    rw [h1, ok_bind, if_neg (h2.mpr h)]
  · intro h
    unfold mkInverse
    rw [h1, ok_bind, if_pos (by by_contra hd; exact h (h2.mp hd))]

theorem solveFun_ok (A : Arr) (hf : FullRank A) {X : Matrix (Fin A.cols) (Fin A.rows) ℂ}
    (hX : IsPseudoInverse (toM A.rows A.cols A.e) X) (hr : x.rows = A.rows) (hc : A.complex = false → x.complex = false) :
    ∃ y, solveFun A x = .ok y ∧ IsProduct X x y := by
  unfold solveFun
  rcases lt_trichotomy A.rows A.cols with h | h | h
  · obtain ⟨S, h1, h2, h3, h4⟩ := gram_thick A h
    rw [h1, ok_bind, if_neg (by omega), if_neg (by omega)]
    have hd : (toM A.rows A.cols A.e * (toM A.rows A.cols A.e).conjTranspose).det ≠ 0 := by
      rw [gram_det']
      unfold FullRank at hf
      rwa [if_neg (by omega)] at hf
    obtain ⟨t, m, n, z, e⟩ := S
    dsimp only at h2 h3 h4
    subst h2
    obtain ⟨u, hu1, hu2⟩ := luSolve_ok (x := x) ⟨t, A.rows, n, z, e⟩ hr (by dsimp only; rw [h3]; exact hc)
    rw [hu1, ok_bind]
    dsimp only at hu2
    rw [h4] at hu2
    have hur : u.rows = A.rows := hu2.2.1
    obtain ⟨y, hy1, hy2, -⟩ := dot_ok (x := u) A.conjugate.transpose hur
    refine ⟨y, hy1, ?_⟩
    rw [mp_thick hX hd]
    refine comp_ok hu2 ?_
    rw [← toM_conj]; exact hy2
  · have hs : gram A = .ok A := by unfold gram; rw [if_pos h]
    rw [hs, ok_bind, if_pos h]
    obtain ⟨t, m, n, z, e⟩ := A
    dsimp only at h hX hr hc ⊢
    subst h
    obtain ⟨u, hu1, hu2⟩ := luSolve_ok (x := x) ⟨t, m, m, z, e⟩ hr hc
    refine ⟨u, hu1, ?_⟩
    unfold FullRank at hf
    rw [if_pos (le_refl _)] at hf
    rw [mp_square hX ((det_iff_injective _).mpr hf)]
    exact hu2
  · obtain ⟨S, h1, h2, h3, h4⟩ := gram_thin A h
    rw [h1, ok_bind, if_neg (by omega), if_pos h]
    have hd : ((toM A.rows A.cols A.e).conjTranspose * toM A.rows A.cols A.e).det ≠ 0 := by
      rw [gram_det]
      unfold FullRank at hf
      rwa [if_pos (by omega)] at hf
    obtain ⟨b, hb1, hb2, hb3⟩ := dot_ok (x := x) A.conjugate.transpose hr
    rw [hb1, ok_bind]
    have hbr : b.rows = A.cols := hb2.2.1
    obtain ⟨t, m, n, z, e⟩ := S
    dsimp only at h2 h3 h4
    subst h2
    obtain ⟨u, hu1, hu2⟩ := luSolve_ok (x := b) ⟨t, A.cols, n, z, e⟩ hbr (by
      dsimp only; rw [h3, hb3]
      intro hA
      have : A.conjugate.transpose.complex = A.complex := rfl
      rw [this, hA, hc hA]; rfl)
    refine ⟨u, hu1, ?_⟩
    rw [mp_thin hX hd]
    dsimp only at hu2
    rw [h4] at hu2
    refine comp_ok ?_ hu2
    rw [← toM_conj]; exact hb2

theorem solveReal_ok (A : Arr) (hf : FullRank A) (h1 : A.rows ≠ 1) {X : Matrix (Fin A.cols) (Fin A.rows) ℂ}
    (hX : IsPseudoInverse (toM A.rows A.cols A.e) X) (hr : x.rows = A.rows) (hx : x.cols = 1)
    (hc : A.complex = false → x.complex = false) : ∃ y, solveReal A x = .ok y ∧ IsProduct X x y := by
  unfold solveReal
  rw [if_neg (by rw [hx, hr]; simpa using h1)]
  obtain ⟨u, hu1, hu2⟩ := solveFun_ok (x := { x with twoD := false }) A hf hX hr hc
  rw [hu1, ok_bind]
  have hu3 : IsProduct X { x with twoD := false } u := hu2
  obtain ⟨a1, a2, a3, a4⟩ := hu2
  dsimp only at a1 a3 a4
  cases ht : x.twoD with
  | false =>
    rw [if_neg (by simp)]
    exact ⟨u, rfl, by rw [a1, ht], a2, a3, a4⟩
  | true =>
    rw [if_pos rfl]
    unfold Arr.reshape
    rw [if_neg (by rw [a2, a3, hx]; simp)]
    refine ⟨_, rfl, ht.symm, rfl, hx.symm, fun j hj => ?_⟩
    rw [← a4 j hj]
    funext i
    have : j = 0 := by omega
    dsimp only
    rw [a3, hx, this, Nat.div_one, Nat.mod_one]

theorem solve_ok (A : Arr) (hf : FullRank A) (h1 : A.rows ≠ 1) {X : Matrix (Fin A.cols) (Fin A.rows) ℂ}
    (hX : IsPseudoInverse (toM A.rows A.cols A.e) X) (hr : x.rows = A.rows) (hx : x.cols = 1) :
    ∃ y, solve A x = .ok y ∧ IsProduct X x y := by
  unfold solve
  by_cases hc : A.complex = false ∧ x.complex = true
  · rw [if_pos hc]
    obtain ⟨u, hu1, hu2⟩ := solveReal_ok (x := x.real) A hf h1 hX hr hx (fun _ => rfl)
    obtain ⟨v, hv1, hv2⟩ := solveReal_ok (x := x.imag) A hf h1 hX hr hx (fun _ => rfl)
    rw [hu1, ok_bind, hv1, ok_bind]
    exact split_ok hu2 hv2
  · rw [if_neg hc]
    refine solveReal_ok A hf h1 hX hr hx fun h => ?_
    by_contra hn
    exact hc ⟨h, by simpa using hn⟩

end

/-! ### Operators as matrices -/

/-- The matrix of an operator. -/
inductive Rep : Op → (r c : Nat) → Matrix (Fin r) (Fin c) ℂ → Prop where
  | sum {a b : Op} {r c : Nat} {A B : Matrix (Fin r) (Fin c) ℂ} (ha : Rep a r c A) (hb : Rep b r c B) : Rep (.sum a b) r c (A + B)
  | product {a b : Op} {r k c : Nat} {A : Matrix (Fin r) (Fin k) ℂ} {B : Matrix (Fin k) (Fin c) ℂ} (ha : Rep a r k A)
      (hb : Rep b k c B) : Rep (.product a b) r c (A * B)
  | scaled {a : Op} {r c : Nat} {A : Matrix (Fin r) (Fin c) ℂ} (s : Scalar) (ha : Rep a r c A) : Rep (.scaled a s) r c (s.value • A)
  | nonlocal (b : Backend) : Rep (.nonlocal b) b.shape.1 b.shape.2 (toM _ _ (modeEntry b.mode b.e))
  | dense (A : Arr) (h : A.twoD = true) : Rep (.dense A) A.rows A.cols (toM _ _ A.e)
  | sparse (A : Arr) (h : A.twoD = true) : Rep (.sparse A) A.rows A.cols (toM _ _ A.e)
  | inverse (A : Arr) (X : Matrix (Fin A.cols) (Fin A.rows) ℂ) (hf : FullRank A) (h1 : A.rows ≠ 1) (h2 : A.cols ≠ 1)
      (hX : IsPseudoInverse (toM A.rows A.cols A.e) X) : Rep (.inverse A) A.cols A.rows X
  | zero (r c : Nat) : Rep (.zero r c) r c 0
  | rankOne (p q : Arr) (hp : p.cols = 1) (hq : q.cols = 1) : Rep (.rankOne p q) p.rows q.rows (toM _ _ fun i j => p.e i 0 * q.e j 0)

theorem Rep.shape {op : Op} {r c : Nat} {M : Matrix (Fin r) (Fin c) ℂ} (h : Rep op r c M) : op.shape = (r, c) := by
  induction h with
  | sum ha hb iha ihb => exact iha
  | product ha hb iha ihb => simp [Op.shape, iha, ihb]
  | scaled s ha ih => exact ih
  | _ => rfl

theorem backend_ok (b : Backend) {x : Arr} (hr : x.rows = b.shape.2) :
    ∃ y, b.matvec x = .ok y ∧ IsProduct (toM b.shape.1 b.shape.2 (modeEntry b.mode b.e)) x y := by
  have key : ∀ z : Arr, z.rows = b.shape.2 →
      ∃ y, b.apply z = .ok y ∧ IsProduct (toM b.shape.1 b.shape.2 (modeEntry b.mode b.e)) z y := by
    intro z hz
    unfold Backend.apply
    rw [if_neg (by simpa using hz)]
    refine ⟨_, rfl, rfl, rfl, rfl, fun j hj => ?_⟩
    funext i
    simp only [Matrix.mulVec, dotProduct, toM, Matrix.of_apply]
    rw [Finset.sum_range]
  unfold Backend.matvec
  split
  · obtain ⟨u, hu1, hu2⟩ := key x.real hr
    obtain ⟨v, hv1, hv2⟩ := key x.imag hr
    rw [hu1, ok_bind, hv1, ok_bind]
    exact split_ok hu2 hv2
  · exact key x hr

theorem sparse_ok (A : Arr) {x : Arr} (hr : x.rows = A.cols) :
    ∃ y, sparseMatvec A x = .ok y ∧ IsProduct (toM A.rows A.cols A.e) x y := by
  unfold sparseMatvec
  split
  · obtain ⟨u, hu1, hu2, -⟩ := dot_ok (x := x.real) A hr
    obtain ⟨v, hv1, hv2, -⟩ := dot_ok (x := x.imag) A hr
    rw [hu1, ok_bind, hv1, ok_bind]
    exact split_ok hu2 hv2
  · obtain ⟨u, hu1, hu2, -⟩ := dot_ok (x := x) A hr
    exact ⟨u, hu1, hu2⟩

theorem rankOne_ok (p q : Arr) {x : Arr} (hr : x.rows = q.rows) :
    ∃ y, rankOneMatvec p q x = .ok y ∧ IsProduct (toM p.rows q.rows fun i j => p.e i 0 * q.e j 0) x y := by
  unfold rankOneMatvec
  rw [if_neg (by simpa using hr)]
  refine ⟨_, rfl, rfl, rfl, rfl, fun j hj => ?_⟩
  funext i
  simp only [Matrix.mulVec, dotProduct, toM, Matrix.of_apply]
  rw [Finset.sum_range, Finset.mul_sum]
  exact Finset.sum_congr rfl fun l _ => by ring

theorem Rep.rawMatvec {op : Op} {r c : Nat} {M : Matrix (Fin r) (Fin c) ℂ} (h : Rep op r c M) :
    ∀ x : Arr, x.rows = c → x.cols = 1 → ∃ y, op.rawMatvec x = .ok y ∧ IsProduct M x y := by
  induction h with
  | sum ha hb iha ihb =>
    intro x hr hx
    obtain ⟨u, hu1, hu2⟩ := wrapVec_ok hr hx (iha x hr hx)
    obtain ⟨v, hv1, hv2⟩ := wrapVec_ok hr hx (ihb x hr hx)
    rw [Op.rawMatvec, ha.shape, hb.shape, hu1, ok_bind, hv1, ok_bind]
    exact add_ok hu2 hv2
  | product ha hb iha ihb =>
    intro x hr hx
    obtain ⟨u, hu1, hu2⟩ := wrapVec_ok hr hx (ihb x hr hx)
    have hur := hu2.2.1
    have huc : u.cols = 1 := hu2.2.2.1.trans hx
    obtain ⟨v, hv1, hv2⟩ := wrapVec_ok hur huc (iha u hur huc)
    rw [Op.rawMatvec, ha.shape, hb.shape, hu1, ok_bind, hv1]
    exact ⟨v, rfl, comp_ok hu2 hv2⟩
  | scaled s ha ih =>
    intro x hr hx
    obtain ⟨u, hu1, hu2⟩ := wrapVec_ok hr hx (ih x hr hx)
    rw [Op.rawMatvec, ha.shape, hu1, ok_bind]
    exact ⟨_, rfl, smul_ok s hu2⟩
  | nonlocal b => intro x hr hx; exact backend_ok b hr
  | dense A h =>
    intro x hr hx
    obtain ⟨u, hu1, hu2, -⟩ := dot_ok (x := x) A hr
    exact ⟨u, hu1, hu2⟩
  | sparse A h => intro x hr hx; exact sparse_ok A hr
  | inverse A X hf h1 h2 hX => intro x hr hx; exact solve_ok A hf h1 hX hr hx
  | zero r c =>
    intro x hr hx
    refine ⟨_, rfl, rfl, rfl, rfl, fun j hj => ?_⟩
    rw [Matrix.zero_mulVec]; rfl
  | rankOne p q hp hq => intro x hr hx; exact rankOne_ok p q hr

theorem Rep.matvec {op : Op} {r c : Nat} {M : Matrix (Fin r) (Fin c) ℂ} (h : Rep op r c M) (x : Arr) (hr : x.rows = c)
    (hx : x.cols = 1) : ∃ y, op.matvec x = .ok y ∧ IsProduct M x y := by
  unfold Op.matvec
  rw [h.shape]
  exact wrapVec_ok hr hx (h.rawMatvec x hr hx)

theorem Rep.rawMatmat {op : Op} {r c : Nat} {M : Matrix (Fin r) (Fin c) ℂ} (h : Rep op r c M) :
    ∀ x : Arr, x.rows = c → 1 ≤ x.cols → x.twoD = true → ∃ y, op.rawMatmat x = .ok y ∧ IsProduct M x y := by
  induction h with
  | sum ha hb iha ihb =>
    intro x hr hx ht
    obtain ⟨u, hu1, hu2⟩ := wrapMat_ok hr ht (iha x hr hx ht)
    obtain ⟨v, hv1, hv2⟩ := wrapMat_ok hr ht (ihb x hr hx ht)
    rw [Op.rawMatmat, ha.shape, hb.shape, hu1, ok_bind, hv1, ok_bind]
    exact add_ok hu2 hv2
  | product ha hb iha ihb =>
    intro x hr hx ht
    obtain ⟨u, hu1, hu2⟩ := wrapMat_ok hr ht (ihb x hr hx ht)
    have hur := hu2.2.1
    have huc : 1 ≤ u.cols := by rw [hu2.2.2.1]; exact hx
    have hut : u.twoD = true := hu2.1.trans ht
    obtain ⟨v, hv1, hv2⟩ := wrapMat_ok hur hut (iha u hur huc hut)
    rw [Op.rawMatmat, ha.shape, hb.shape, hu1, ok_bind, hv1]
    exact ⟨v, rfl, comp_ok hu2 hv2⟩
  | scaled s ha ih =>
    intro x hr hx ht
    obtain ⟨u, hu1, hu2⟩ := wrapMat_ok hr ht (ih x hr hx ht)
    rw [Op.rawMatmat, ha.shape, hu1, ok_bind]
    exact ⟨_, rfl, smul_ok s hu2⟩
  | nonlocal b => intro x hr hx ht; exact backend_ok b hr
  | dense A h =>
    intro x hr hx ht
    obtain ⟨u, hu1, hu2, -⟩ := dot_ok (x := x) A hr
    exact ⟨u, hu1, hu2⟩
  | sparse A h => intro x hr hx ht; exact sparse_ok A hr
  | inverse A X hf h1 h2 hX =>
    intro x hr hx ht
    exact defaultMatmat_ok ht hx hr fun z hz hz' => (Rep.inverse A X hf h1 h2 hX).matvec z hz hz'
  | zero r c =>
    intro x hr hx ht
    exact defaultMatmat_ok ht hx hr fun z hz hz' => (Rep.zero r c).matvec z hz hz'
  | rankOne p q hp hq =>
    intro x hr hx ht
    exact defaultMatmat_ok ht hx hr fun z hz hz' => (Rep.rankOne p q hp hq).matvec z hz hz'

theorem Rep.acts {op : Op} {r c : Nat} {M : Matrix (Fin r) (Fin c) ℂ} (h : Rep op r c M) : Acts op M := by
  refine ⟨h.shape, fun x hr hx ht => ⟨?_, fun h1 => h.matvec x hr h1, fun h2 => ?_⟩⟩
  · unfold Op.apply
    split
    · rename_i h1; exact h.rawMatvec x hr h1
    · rename_i h1
      refine h.rawMatmat x hr hx ?_
      by_contra hn
      exact h1 (ht (by simpa using hn))
  · unfold Op.matmat
    rw [h.shape]
    exact wrapMat_ok hr h2 (h.rawMatmat x hr hx h2)

theorem Rep.cast {op : Op} {r c : Nat} {M N : Matrix (Fin r) (Fin c) ℂ} (h : Rep op r c M) (e : M = N) : Rep op r c N := e ▸ h

theorem Rep.add {a b : Op} {r c : Nat} {A B : Matrix (Fin r) (Fin c) ℂ} (ha : Rep a r c A) (hb : Rep b r c B) :
    ∃ o, a.add b = .ok o ∧ Rep o r c (A + B) := by
  have gen : a.shape = b.shape := by rw [ha.shape, hb.shape]
  have hs := Rep.sum ha hb
  unfold Op.add
  split
  · rename_i P Q
    have h1 := ha.shape; have h2 := hb.shape
    simp only [Op.shape, Prod.mk.injEq] at h1 h2
    obtain ⟨tp, mp, np, zp, ep⟩ := P
    obtain ⟨tq, mq, nq, zq, eq⟩ := Q
    dsimp only at h1 h2
    obtain ⟨rfl, rfl⟩ := h1
    obtain ⟨rfl, rfl⟩ := h2
    cases ha with
    | dense _ h =>
    cases hb with
    | dense _ h' =>
    unfold Arr.add broadcast
    simp only [if_true]
    rw [ok_bind]
    refine ⟨_, rfl, ?_⟩
    have hh : tp = true := h
    refine Rep.cast (Rep.dense (Arr.mk tp mq nq (zp || zq) _) hh) ?_
    ext i j
    simp only [toM, Matrix.of_apply, Matrix.add_apply]
    have hi : (if mq = 1 then 0 else (i : Nat)) = i := by
      split
      · rename_i h; have := i.isLt; dsimp only at this; omega
      · rfl
    have hj : (if nq = 1 then 0 else (j : Nat)) = j := by
      split
      · rename_i h; have := j.isLt; dsimp only at this; omega
      · rfl
    rw [hi, hj]
  · rename_i P Q
    have h1 := ha.shape; have h2 := hb.shape
    simp only [Op.shape, Prod.mk.injEq] at h1 h2
    obtain ⟨tp, mp, np, zp, ep⟩ := P
    obtain ⟨tq, mq, nq, zq, eq⟩ := Q
    dsimp only at h1 h2
    obtain ⟨rfl, rfl⟩ := h1
    obtain ⟨rfl, rfl⟩ := h2
    cases ha with
    | sparse _ h =>
    cases hb with
    | sparse _ h' =>
    rw [if_neg (by simp)]
    exact ⟨_, rfl, (Rep.sparse _ rfl).cast rfl⟩
  · rw [if_neg (by simpa using gen)]
    exact ⟨_, rfl, hs⟩

theorem Rep.smul {a : Op} {r c : Nat} {A : Matrix (Fin r) (Fin c) ℂ} (ha : Rep a r c A) (s : Scalar) :
    Rep (a.smul s) r c (s.value • A) := by
  have hs := Rep.scaled s ha
  unfold Op.smul
  split
  · cases ha with
    | dense _ h => exact Rep.dense (Arr.smul s _) h
  · cases ha with
    | sparse _ h => exact Rep.sparse (Arr.smul s _) h
  · exact hs

theorem Rep.neg {a : Op} {r c : Nat} {A : Matrix (Fin r) (Fin c) ℂ} (ha : Rep a r c A) : Rep a.neg r c (-A) := by
  have hs : Rep (a.smul ⟨-1, false⟩) r c (-A) := (ha.smul ⟨-1, false⟩).cast (by simp)
  unfold Op.neg
  split
  · rename_i P
    cases ha with
    | dense _ h => exact Rep.dense ⟨P.twoD, P.rows, P.cols, P.complex, fun i j => -P.e i j⟩ h
  · rename_i P
    cases ha with
    | sparse _ h => exact Rep.sparse ⟨P.twoD, P.rows, P.cols, P.complex, fun i j => -P.e i j⟩ h
  · exact hs

theorem Rep.sub {a b : Op} {r c : Nat} {A B : Matrix (Fin r) (Fin c) ℂ} (ha : Rep a r c A) (hb : Rep b r c B) :
    ∃ o, a.sub b = .ok o ∧ Rep o r c (A - B) := by
  obtain ⟨o, h1, h2⟩ := ha.add hb.neg
  exact ⟨o, h1, h2.cast (sub_eq_add_neg A B).symm⟩

theorem toM_dot {A B C : Arr} (h : B.rows = A.cols) (hd : A.dot B = .ok C) : C.rows = A.rows ∧ C.cols = B.cols ∧ C.twoD = B.twoD ∧
    C.complex = (A.complex || B.complex) ∧ toM A.rows B.cols C.e = toM A.rows A.cols A.e * toM A.cols B.cols B.e := by
  unfold Arr.dot at hd
  rw [if_neg (by simpa using h)] at hd
  cases hd
  refine ⟨rfl, rfl, rfl, rfl, ?_⟩
  ext i j
  simp only [toM, Matrix.of_apply, Matrix.mul_apply]
  rw [Finset.sum_range]

theorem Rep.mul {a b : Op} {r k c : Nat} {A : Matrix (Fin r) (Fin k) ℂ} {B : Matrix (Fin k) (Fin c) ℂ} (ha : Rep a r k A)
    (hb : Rep b k c B) : ∃ o, a.mul b = .ok o ∧ Rep o r c (A * B) := by
  have gen : a.shape.2 = b.shape.1 := by rw [ha.shape, hb.shape]
  have hs := Rep.product ha hb
  unfold Op.mul
  split
  · rename_i P Q
    have h1 := ha.shape; have h2 := hb.shape
    simp only [Op.shape, Prod.mk.injEq] at h1 h2
    obtain ⟨tp, mp, np, zp, ep⟩ := P
    obtain ⟨tq, mq, nq, zq, eq⟩ := Q
    dsimp only at h1 h2
    obtain ⟨rfl, rfl⟩ := h1
    obtain ⟨rfl, rfl⟩ := h2
    cases ha with
    | dense _ h =>
    cases hb with
    | dense _ h' =>
    cases hd : Arr.dot ⟨tp, mp, mq, zp, ep⟩ ⟨tq, mq, nq, zq, eq⟩ with
    | error e => simp [Arr.dot] at hd
    | ok C =>
      obtain ⟨c1, c2, c3, c4, c5⟩ := toM_dot rfl hd
      dsimp only at c1 c2 c3 c4 c5
      obtain ⟨t, m, n, z, e⟩ := C
      dsimp only at c1 c2 c3 c4 c5
      subst c1 c2
      exact ⟨_, rfl, (Rep.dense ⟨t, m, n, z, e⟩ (c3.trans h')).cast c5⟩
  · rename_i P Q
    have h1 := ha.shape; have h2 := hb.shape
    simp only [Op.shape, Prod.mk.injEq] at h1 h2
    obtain ⟨tp, mp, np, zp, ep⟩ := P
    obtain ⟨tq, mq, nq, zq, eq⟩ := Q
    dsimp only at h1 h2
    obtain ⟨rfl, rfl⟩ := h1
    obtain ⟨rfl, rfl⟩ := h2
    cases ha with
    | sparse _ h =>
    cases hb with
    | sparse _ h' =>
    cases hd : Arr.dot ⟨tp, mp, mq, zp, ep⟩ ⟨tq, mq, nq, zq, eq⟩ with
    | error e => simp [Arr.dot] at hd
    | ok C =>
      obtain ⟨c1, c2, c3, c4, c5⟩ := toM_dot rfl hd
      dsimp only at c1 c2 c3 c4 c5
      obtain ⟨t, m, n, z, e⟩ := C
      dsimp only at c1 c2 c3 c4 c5
      subst c1 c2
      exact ⟨_, rfl, (Rep.sparse ⟨t, m, n, z, e⟩ (c3.trans h')).cast c5⟩
  · rw [if_neg (by simpa using gen)]
    exact ⟨_, rfl, hs⟩

/-! ### Transposition -/

theorem fullRank_tall {A : Arr} (h : A.rows ≥ A.cols) : FullRank A ↔ Function.Injective (toM A.rows A.cols A.e).mulVec := by
  unfold FullRank
  rw [if_pos h]; rfl

theorem fullRank_wide {A : Arr} (h : ¬ A.rows ≥ A.cols) :
    FullRank A ↔ Function.Injective (toM A.rows A.cols A.e).conjTranspose.mulVec := by
  unfold FullRank
  rw [if_neg h]; rfl

theorem fullRank_transpose (A : Arr) (h : FullRank A) (X : Matrix (Fin A.cols) (Fin A.rows) ℂ)
    (hX : IsPseudoInverse (toM A.rows A.cols A.e) X) : FullRank A.transpose ∧ FullRank A.transpose.conjugate := by
  have hT : (Matrix.of fun (i : Fin A.cols) (j : Fin A.rows) => A.e j i) = (toM A.rows A.cols A.e).transpose := rfl
  have hTc : (Matrix.of fun (i : Fin A.cols) (j : Fin A.rows) => star (A.e j i)) = (toM A.rows A.cols A.e).conjTranspose := rfl
  have hl : A.rows ≥ A.cols → X * toM A.rows A.cols A.e = 1 := by
    intro hc
    unfold FullRank at h
    rw [if_pos hc] at h
    have hd := (gram_det (A := toM A.rows A.cols A.e)).mpr h
    rw [mp_thin hX hd, Matrix.mul_assoc, Matrix.nonsing_inv_mul _ (isUnit_iff_ne_zero.mpr hd)]
  have hr : ¬ A.rows ≥ A.cols → toM A.rows A.cols A.e * X = 1 := by
    intro hc
    unfold FullRank at h
    rw [if_neg hc] at h
    have hd := (gram_det' (A := toM A.rows A.cols A.e)).mpr h
    rw [mp_thick hX hd, ← Matrix.mul_assoc, Matrix.mul_nonsing_inv _ (isUnit_iff_ne_zero.mpr hd)]
  have inj : ∀ {m n : Nat} (P : Matrix (Fin m) (Fin n) ℂ) (Q : Matrix (Fin n) (Fin m) ℂ), Q * P = 1 →
      Function.Injective P.mulVec := by
    intro m n P Q hPQ u v huv
    have := congrArg Q.mulVec huv
    simp only [Matrix.mulVec_mulVec, hPQ, Matrix.one_mulVec] at this
    exact this
  by_cases hs : A.rows = A.cols
  · -- square
    have hl := hl (by omega)
    obtain ⟨t, m, n, z, e⟩ := A
    dsimp only at hs X hX hl hT hTc
    subst hs
    have hr' := mul_eq_one_comm.mp hl
    constructor
    · refine (fullRank_tall (A := (Arr.mk t m m z e).transpose) (le_refl m)).mpr ?_
      refine inj (toM m m e).transpose X.transpose ?_
      rw [← Matrix.transpose_mul, hr', Matrix.transpose_one]
    · refine (fullRank_tall (A := (Arr.mk t m m z e).transpose.conjugate) (le_refl m)).mpr ?_
      refine inj (toM m m e).conjTranspose X.conjTranspose ?_
      rw [← Matrix.conjTranspose_mul, hr', Matrix.conjTranspose_one]
  · by_cases hc : A.rows ≥ A.cols
    · have hl := hl hc
      have h2 : ¬ A.cols ≥ A.rows := by omega
      constructor
      · refine (fullRank_wide (A := A.transpose) h2).mpr ?_
        refine inj (toM A.rows A.cols A.e).transpose.conjTranspose X.transpose.conjTranspose ?_
        rw [← Matrix.conjTranspose_mul, ← Matrix.transpose_mul, hl, Matrix.transpose_one, Matrix.conjTranspose_one]
      · refine (fullRank_wide (A := A.transpose.conjugate) h2).mpr ?_
        refine inj (toM A.rows A.cols A.e).conjTranspose.conjTranspose X ?_
        rw [Matrix.conjTranspose_conjTranspose]
        exact hl
    · have hr := hr hc
      have h2 : A.cols ≥ A.rows := by omega
      constructor
      · refine (fullRank_tall (A := A.transpose) h2).mpr ?_
        refine inj (toM A.rows A.cols A.e).transpose X.transpose ?_
        rw [← Matrix.transpose_mul, hr, Matrix.transpose_one]
      · refine (fullRank_tall (A := A.transpose.conjugate) h2).mpr ?_
        refine inj (toM A.rows A.cols A.e).conjTranspose X.conjTranspose ?_
        rw [← Matrix.conjTranspose_mul, hr, Matrix.conjTranspose_one]

/-- Conditions on the parts of an operator: zero operators, modes of nonlocal operators, numbers. -/
def Op.Parts (pz : Prop) (pm : TranspositionMode → Prop) (ps : ℂ → Prop) : Op → Prop
  | .sum a b => a.Parts pz pm ps ∧ b.Parts pz pm ps
  | .product a b => a.Parts pz pm ps ∧ b.Parts pz pm ps
  | .scaled a c => a.Parts pz pm ps ∧ ps c.value
  | .nonlocal b => pm b.mode
  | .zero _ _ => pz
  | _ => True

section
variable {pz : Prop} {pm : TranspositionMode → Prop} {ps : ℂ → Prop}

theorem Op.Parts.add {a b o : Op} (ha : a.Parts pz pm ps) (hb : b.Parts pz pm ps) (h : a.add b = .ok o) : o.Parts pz pm ps := by
  unfold Op.add at h
  split at h
  · rename_i P Q
    cases hd : P.add Q with
    | error e => rw [hd] at h; cases h
    | ok C => rw [hd] at h; cases h; trivial
  · split at h
    · cases h
    · cases h; trivial
  · split at h
    · cases h
    · cases h; exact ⟨ha, hb⟩

theorem Op.Parts.mul {a b o : Op} (ha : a.Parts pz pm ps) (hb : b.Parts pz pm ps) (h : a.mul b = .ok o) : o.Parts pz pm ps := by
  unfold Op.mul at h
  split at h
  · rename_i P Q
    cases hd : P.dot Q with
    | error e => rw [hd] at h; cases h
    | ok C => rw [hd] at h; cases h; trivial
  · rename_i P Q
    cases hd : P.dot Q with
    | error e => rw [hd] at h; cases h
    | ok C => rw [hd] at h; cases h; trivial
  · split at h
    · cases h
    · cases h; exact ⟨ha, hb⟩

theorem Op.Parts.smul {a : Op} (ha : a.Parts pz pm ps) {c : Scalar} (hc : ps c.value) : (a.smul c).Parts pz pm ps := by
  unfold Op.smul
  split
  · trivial
  · trivial
  · exact ⟨ha, hc⟩

theorem Op.Parts.neg {a : Op} (ha : a.Parts pz pm ps) (hc : ps (-1)) : a.neg.Parts pz pm ps := by
  unfold Op.neg
  split
  · trivial
  · trivial
  · exact ha.smul hc

theorem mkInverse_parts {A : Arr} {o : Op} (h : mkInverse A = .ok o) : o.Parts pz pm ps := by
  unfold mkInverse at h
  cases hg : gram A with
  | error e => rw [hg] at h; cases h
  | ok S =>
    rw [hg, ok_bind] at h
    split at h
    · cases h
    · cases h; trivial

theorem Op.Parts.transpose {pm' : TranspositionMode → Prop} (hm : ∀ t, pm t → pm' (computeTransposeMode t .TRANSPOSE)) {a : Op} :
    ∀ {o : Op}, a.Parts pz pm ps → a.transpose = .ok o → o.Parts pz pm' ps := by
  induction a with
  | sum a b iha ihb =>
    intro o ha h
    rw [Op.transpose] at h
    cases h1 : a.transpose with
    | error e => rw [h1] at h; cases h
    | ok u =>
      rw [h1, ok_bind] at h
      cases h2 : b.transpose with
      | error e => rw [h2] at h; cases h
      | ok v => rw [h2, ok_bind] at h; exact (iha ha.1 h1).add (ihb ha.2 h2) h
  | product a b iha ihb =>
    intro o ha h
    rw [Op.transpose] at h
    cases h2 : b.transpose with
    | error e => rw [h2] at h; cases h
    | ok u =>
      rw [h2, ok_bind] at h
      cases h1 : a.transpose with
      | error e => rw [h1] at h; cases h
      | ok v => rw [h1, ok_bind] at h; exact (ihb ha.2 h2).mul (iha ha.1 h1) h
  | scaled a c ih =>
    intro o ha h
    rw [Op.transpose] at h
    cases h1 : a.transpose with
    | error e => rw [h1] at h; cases h
    | ok u => rw [h1, ok_bind] at h; cases h; exact (ih ha.1 h1).smul ha.2
  | nonlocal b => intro o ha h; cases h; exact hm _ ha
  | dense A => intro o ha h; cases h; trivial
  | sparse A => intro o ha h; cases h; trivial
  | inverse A => intro o ha h; exact mkInverse_parts h
  | zero r c => intro o ha h; cases h
  | rankOne p q => intro o ha h; cases h; trivial

theorem Op.Parts.adjoint {pm' : TranspositionMode → Prop} (hm : ∀ t, pm t → pm' (computeTransposeMode t .CONJUGATE_TRANSPOSE))
    {a : Op} : ∀ {o : Op}, a.Parts pz pm ps → a.adjoint = .ok o → o.Parts pz pm' ps := by
  induction a with
  | sum a b iha ihb =>
    intro o ha h
    rw [Op.adjoint] at h
    cases h1 : a.adjoint with
    | error e => rw [h1] at h; cases h
    | ok u =>
      rw [h1, ok_bind] at h
      cases h2 : b.adjoint with
      | error e => rw [h2] at h; cases h
      | ok v => rw [h2, ok_bind] at h; exact (iha ha.1 h1).add (ihb ha.2 h2) h
  | product a b iha ihb =>
    intro o ha h
    rw [Op.adjoint] at h
    cases h2 : b.adjoint with
    | error e => rw [h2] at h; cases h
    | ok u =>
      rw [h2, ok_bind] at h
      cases h1 : a.adjoint with
      | error e => rw [h1] at h; cases h
      | ok v => rw [h1, ok_bind] at h; exact (ihb ha.2 h2).mul (iha ha.1 h1) h
  | scaled a c ih =>
    intro o ha h
    rw [Op.adjoint] at h
    cases h1 : a.adjoint with
    | error e => rw [h1] at h; cases h
    | ok u => rw [h1, ok_bind] at h; cases h; exact (ih ha.1 h1).smul ha.2
  | nonlocal b => intro o ha h; cases h; exact hm _ ha
  | dense A => intro o ha h; cases h; trivial
  | sparse A => intro o ha h; cases h; trivial
  | inverse A => intro o ha h; exact mkInverse_parts h
  | zero r c => intro o ha h; cases h
  | rankOne p q => intro o ha h; cases h; trivial

end

theorem Rep.nonlocal_cast (b : Backend) {r c : Nat} (M : Matrix (Fin r) (Fin c) ℂ) (hr : b.shape = (r, c))
    (hM : ∀ (i : Fin r) (j : Fin c), modeEntry b.mode b.e i j = M i j) : Rep (.nonlocal b) r c M := by
  have h1 : b.shape.1 = r := by rw [hr]
  have h2 : b.shape.2 = c := by rw [hr]
  subst h1 h2
  refine (Rep.nonlocal b).cast ?_
  ext i j
  exact hM i j

theorem Rep.transpose {op : Op} {r c : Nat} {M : Matrix (Fin r) (Fin c) ℂ} (h : Rep op r c M)
    (hz : op.Parts False (fun _ => True) (fun _ => True)) : ∃ t, op.transpose = .ok t ∧ Rep t c r M.transpose := by
  induction h with
  | sum ha hb iha ihb =>
    obtain ⟨u, hu1, hu2⟩ := iha hz.1
    obtain ⟨v, hv1, hv2⟩ := ihb hz.2
    rw [Op.transpose, hu1, ok_bind, hv1, ok_bind, Matrix.transpose_add]
    exact hu2.add hv2
  | product ha hb iha ihb =>
    obtain ⟨u, hu1, hu2⟩ := iha hz.1
    obtain ⟨v, hv1, hv2⟩ := ihb hz.2
    rw [Op.transpose, hv1, ok_bind, hu1, ok_bind, Matrix.transpose_mul]
    exact hv2.mul hu2
  | scaled s ha ih =>
    obtain ⟨u, hu1, hu2⟩ := ih hz.1
    rw [Op.transpose, hu1, ok_bind, Matrix.transpose_smul]
    exact ⟨_, rfl, hu2.smul s⟩
  | nonlocal b =>
    refine ⟨_, rfl, Rep.nonlocal_cast _ _ ?_ ?_⟩
    · obtain ⟨z, m, n, e, t⟩ := b
      cases t <;> simp [Backend.shape, Backend.transpose, computeTransposeMode]
    · intro i j
      obtain ⟨z, m, n, e, t⟩ := b
      cases t <;> simp [Backend.transpose, computeTransposeMode, modeEntry, toM]
  | dense A h => exact ⟨_, rfl, Rep.dense A.transpose h⟩
  | sparse A h => exact ⟨_, rfl, Rep.sparse A.transpose h⟩
  | inverse A X hf h1 h2 hX =>
    have hf' := (fullRank_transpose A hf X hX).1
    refine ⟨_, (mkInverse_eq A.transpose).1 hf', ?_⟩
    exact Rep.inverse A.transpose X.transpose hf' h2 h1 (mp_transpose hX)
  | zero r c => exact hz.elim
  | rankOne p q hp hq =>
    refine ⟨_, rfl, (Rep.rankOne q p hq hp).cast ?_⟩
    ext i j
    simp [toM, mul_comm]

theorem Rep.adjoint {op : Op} {r c : Nat} {M : Matrix (Fin r) (Fin c) ℂ} (h : Rep op r c M)
    (hz : op.Parts False (fun t => t ≠ .TRANSPOSE) (fun s => star s = s)) :
    ∃ t, op.adjoint = .ok t ∧ Rep t c r M.conjTranspose := by
  induction h with
  | sum ha hb iha ihb =>
    obtain ⟨u, hu1, hu2⟩ := iha hz.1
    obtain ⟨v, hv1, hv2⟩ := ihb hz.2
    rw [Op.adjoint, hu1, ok_bind, hv1, ok_bind, Matrix.conjTranspose_add]
    exact hu2.add hv2
  | product ha hb iha ihb =>
    obtain ⟨u, hu1, hu2⟩ := iha hz.1
    obtain ⟨v, hv1, hv2⟩ := ihb hz.2
    rw [Op.adjoint, hv1, ok_bind, hu1, ok_bind, Matrix.conjTranspose_mul]
    exact hv2.mul hu2
  | scaled s ha ih =>
    obtain ⟨u, hu1, hu2⟩ := ih hz.1
    rw [Op.adjoint, hu1, ok_bind, Matrix.conjTranspose_smul, hz.2]
    exact ⟨_, rfl, hu2.smul s⟩
  | nonlocal b =>
    refine ⟨_, rfl, Rep.nonlocal_cast _ _ ?_ ?_⟩
    · obtain ⟨z, m, n, e, t⟩ := b
      cases t <;> simp [Backend.shape, Backend.adjoint, computeTransposeMode] <;> exact (hz rfl).elim
    · intro i j
      obtain ⟨z, m, n, e, t⟩ := b
      cases t <;> simp [Backend.adjoint, computeTransposeMode, modeEntry, toM] <;> exact (hz rfl).elim
  | dense A h => exact ⟨_, rfl, (Rep.dense A.conjugate.transpose h).cast (toM_conj A)⟩
  | sparse A h => exact ⟨_, rfl, (Rep.sparse A.transpose.conjugate h).cast (toM_conj A)⟩
  | inverse A X hf h1 h2 hX =>
    have hf' := (fullRank_transpose A hf X hX).2
    refine ⟨_, (mkInverse_eq A.transpose.conjugate).1 hf', ?_⟩
    exact Rep.inverse A.transpose.conjugate X.conjTranspose hf' h2 h1 (mp_adjoint hX)
  | zero r c => exact hz.elim
  | rankOne p q hp hq =>
    refine ⟨_, rfl, (Rep.rankOne q.conjugate p.conjugate hq hp).cast ?_⟩
    ext i j
    show star (q.e i 0) * star (p.e j 0) = star (p.e j 0 * q.e i 0)
    rw [star_mul]

/-! ### Expressions -/

theorem Op.Parts.mono {pz pz' : Prop} {pm pm' : TranspositionMode → Prop} {ps ps' : ℂ → Prop} (hz : pz → pz')
    (hm : ∀ t, pm t → pm' t) (hs : ∀ s, ps s → ps' s) {o : Op} : o.Parts pz pm ps → o.Parts pz' pm' ps' := by
  induction o with
  | sum a b iha ihb => exact fun h => ⟨iha h.1, ihb h.2⟩
  | product a b iha ihb => exact fun h => ⟨iha h.1, ihb h.2⟩
  | scaled a c ih => exact fun h => ⟨ih h.1, hs _ h.2⟩
  | nonlocal b => exact hm _
  | zero r c => exact hz
  | _ => exact fun _ => trivial

theorem Op.Parts.and {pz pz' : Prop} {pm pm' : TranspositionMode → Prop} {ps ps' : ℂ → Prop} {o : Op} :
    o.Parts pz pm ps → o.Parts pz' pm' ps' → o.Parts (pz ∧ pz') (fun t => pm t ∧ pm' t) (fun s => ps s ∧ ps' s) := by
  induction o with
  | sum a b iha ihb => exact fun h h' => ⟨iha h.1 h'.1, ihb h.2 h'.2⟩
  | product a b iha ihb => exact fun h h' => ⟨iha h.1 h'.1, ihb h.2 h'.2⟩
  | scaled a c ih => exact fun h h' => ⟨ih h.1 h'.1, h.2, h'.2⟩
  | nonlocal b => exact fun h h' => ⟨h, h'⟩
  | zero r c => exact fun h h' => ⟨h, h'⟩
  | _ => exact fun _ _ => trivial

theorem bind_eq_ok {α β : Type} {a : Res α} {f : α → Res β} {b : β} (h : (a >>= f) = .ok b) : ∃ u, a = .ok u ∧ f u = .ok b := by
  cases a with
  | error e => cases h
  | ok u => exact ⟨u, rfl, h⟩

/-- The parts of the operator an expression evaluates to. -/
theorem eval_parts {Q : Expr → Prop} {pz : Prop} {pm : TranspositionMode → Prop} {ps : ℂ → Prop} (h1 : ps (-1))
    (hz : ∀ r c, Q (.zero r c) → pz) (hn : ∀ z r c f, Q (.nonlocal z r c f) → pm .NO_TRANSPOSE)
    (hs : ∀ c a, Q (.smul c a) → ps c.value)
    (ht : ∀ a o t, Q (.transpose a) → a.eval = .ok o → o.Parts pz pm ps → o.transpose = .ok t → t.Parts pz pm ps)
    (ha : ∀ t, pm t → pm (computeTransposeMode t .CONJUGATE_TRANSPOSE)) (e : Expr) :
    ∀ {o : Op}, e.Every Q → e.eval = .ok o → o.Parts pz pm ps := by
  induction e with
  | dense A => intro o hQ h; cases h; trivial
  | sparse A => intro o hQ h; cases h; trivial
  | nonlocal z r c f => intro o hQ h; cases h; exact hn _ _ _ _ hQ
  | zero r c => intro o hQ h; cases h; exact hz _ _ hQ
  | rankOne p q => intro o hQ h; cases h; trivial
  | inverse A => intro o hQ h; exact mkInverse_parts h
  | add a b iha ihb =>
    intro o hQ h
    obtain ⟨u, hu, h⟩ := bind_eq_ok h
    obtain ⟨v, hv, h⟩ := bind_eq_ok h
    exact (iha hQ.2.1 hu).add (ihb hQ.2.2 hv) h
  | sub a b iha ihb =>
    intro o hQ h
    obtain ⟨u, hu, h⟩ := bind_eq_ok h
    obtain ⟨v, hv, h⟩ := bind_eq_ok h
    exact (iha hQ.2.1 hu).add ((ihb hQ.2.2 hv).neg h1) h
  | neg a ih =>
    intro o hQ h
    obtain ⟨u, hu, h⟩ := bind_eq_ok h
    cases h
    exact (ih hQ.2 hu).neg h1
  | smul c a ih =>
    intro o hQ h
    obtain ⟨u, hu, h⟩ := bind_eq_ok h
    cases h
    exact (ih hQ.2 hu).smul (hs _ _ hQ.1)
  | mul a b iha ihb =>
    intro o hQ h
    obtain ⟨u, hu, h⟩ := bind_eq_ok h
    obtain ⟨v, hv, h⟩ := bind_eq_ok h
    exact (iha hQ.2.1 hu).mul (ihb hQ.2.2 hv) h
  | transpose a ih =>
    intro o hQ h
    obtain ⟨u, hu, h⟩ := bind_eq_ok h
    exact ht a u o hQ.1 hu (ih hQ.2 hu) h
  | adjoint a ih =>
    intro o hQ h
    obtain ⟨u, hu, h⟩ := bind_eq_ok h
    exact (ih hQ.2 hu).adjoint ha h

theorem zeroFree_parts {e : Expr} {o : Op} (hQ : e.ZeroFree) (h : e.eval = .ok o) :
    o.Parts False (fun _ => True) (fun _ => True) :=
  eval_parts trivial (fun r c hh => (hh r c rfl).elim) (fun _ _ _ _ _ => trivial) (fun _ _ _ => trivial)
    (fun _ _ _ _ _ hp ht => hp.transpose (fun _ _ => trivial) ht) (fun _ _ => trivial) e hQ h

theorem realScalars_parts {e : Expr} {o : Op} (hQ : e.RealScalars) (h : e.eval = .ok o) :
    o.Parts True (fun _ => True) (fun s => star s = s) :=
  eval_parts (by simp) (fun _ _ _ => trivial) (fun _ _ _ _ _ => trivial) (fun c a hh => hh c a rfl)
    (fun _ _ _ _ _ hp ht => hp.transpose (fun _ _ => trivial) ht) (fun _ _ => trivial) e hQ h

theorem nonlocalFree_parts {e : Expr} {o : Op} (hQ : e.NonlocalFree) (h : e.eval = .ok o) :
    o.Parts True (fun _ => False) (fun _ => True) :=
  eval_parts (pm := fun _ => False) (ps := fun _ => True) trivial (fun _ _ _ => trivial)
    (fun z r c f hh => (hh z r c f rfl).elim) (fun _ _ _ => trivial)
    (fun _ _ _ _ _ hp ht => hp.transpose (pm := fun _ => False) (pm' := fun _ => False) (fun _ h => h) ht) (fun _ h => h) e hQ h

theorem untransposed_parts {e : Expr} {o : Op} (hQ : e.NonlocalUntransposed) (h : e.eval = .ok o) :
    o.Parts True (fun t => t = .NO_TRANSPOSE ∨ t = .CONJUGATE_TRANSPOSE) (fun _ => True) := by
  refine eval_parts trivial (fun _ _ _ => trivial) (fun z r c f hh => Or.inl rfl) (fun _ _ _ => trivial) ?_ ?_ e hQ h
  · intro a o t hh ho hp ht
    exact (nonlocalFree_parts (hh a rfl) ho).transpose (fun _ h => h.elim) ht
  · rintro t (rfl | rfl)
    · exact Or.inr rfl
    · exact Or.inl rfl

theorem denotes_rep {e : Expr} {r c : Nat} {M : Matrix (Fin r) (Fin c) ℂ} (h : Denotes e r c M) :
    e.Wellformed → e.Permitted → ∃ op, e.eval = .ok op ∧ Rep op r c M := by
  induction h with
  | dense A => exact fun hw _ => ⟨_, rfl, Rep.dense A hw.1⟩
  | sparse A => exact fun hw _ => ⟨_, rfl, Rep.sparse A hw.1⟩
  | nonlocal z m n e => exact fun _ _ => ⟨_, rfl, Rep.nonlocal_cast _ _ (by simp [Backend.shape]) (fun i j => rfl)⟩
  | zero m n => exact fun _ _ => ⟨_, rfl, Rep.zero m n⟩
  | rankOne p q => exact fun hw _ => ⟨_, rfl, Rep.rankOne p q hw.1.2.1 hw.2.2.1⟩
  | inverse A X hX =>
    intro hw _
    exact ⟨_, (mkInverse_eq A).1 hw.2.1, Rep.inverse A X hw.2.1 hw.2.2.1 hw.2.2.2 hX⟩
  | add ha hb iha ihb =>
    intro hw hp
    obtain ⟨u, hu1, hu2⟩ := iha hw.1 hp.2.1
    obtain ⟨v, hv1, hv2⟩ := ihb hw.2 hp.2.2
    rw [Expr.eval, hu1, ok_bind, hv1, ok_bind]
    exact hu2.add hv2
  | sub ha hb iha ihb =>
    intro hw hp
    obtain ⟨u, hu1, hu2⟩ := iha hw.1 hp.2.1
    obtain ⟨v, hv1, hv2⟩ := ihb hw.2 hp.2.2
    rw [Expr.eval, hu1, ok_bind, hv1, ok_bind]
    exact hu2.sub hv2
  | neg ha ih =>
    intro hw hp
    obtain ⟨u, hu1, hu2⟩ := ih hw hp.2
    rw [Expr.eval, hu1, ok_bind]
    exact ⟨_, rfl, hu2.neg⟩
  | smul s ha ih =>
    intro hw hp
    obtain ⟨u, hu1, hu2⟩ := ih hw.2 hp.2
    rw [Expr.eval, hu1, ok_bind]
    exact ⟨_, rfl, hu2.smul s⟩
  | mul ha hb iha ihb =>
    intro hw hp
    obtain ⟨u, hu1, hu2⟩ := iha hw.1 hp.2.1
    obtain ⟨v, hv1, hv2⟩ := ihb hw.2 hp.2.2
    rw [Expr.eval, hu1, ok_bind, hv1, ok_bind]
    exact hu2.mul hv2
  | transpose ha ih =>
    intro hw hp
    obtain ⟨u, hu1, hu2⟩ := ih hw hp.2
    rw [Expr.eval, hu1, ok_bind]
    exact hu2.transpose (zeroFree_parts (hp.1.1 _ rfl) hu1)
  | adjoint ha ih =>
    intro hw hp
    obtain ⟨u, hu1, hu2⟩ := ih hw hp.2
    rw [Expr.eval, hu1, ok_bind]
    obtain ⟨p1, p2, p3⟩ := hp.1.2 _ rfl
    refine hu2.adjoint (Op.Parts.mono ?_ ?_ ?_
      ((zeroFree_parts p1 hu1).and ((realScalars_parts p2 hu1).and (untransposed_parts p3 hu1))))
    · exact fun h => h.1
    · rintro t ⟨-, -, rfl | rfl⟩ <;> simp
    · exact fun s h => h.2.1

/-! ### Types -/

theorem add_complex {a b o : Op} (h : a.add b = .ok o) : o.complex = (a.complex || b.complex) := by
  unfold Op.add at h
  split at h
  · rename_i P Q
    obtain ⟨C, hC, h⟩ := bind_eq_ok h
    cases h
    unfold Arr.add at hC
    split at hC
    · cases hC; rfl
    · cases hC
  · split at h
    · cases h
    · cases h; rfl
  · split at h
    · cases h
    · cases h; rfl

theorem mul_complex {a b o : Op} (h : a.mul b = .ok o) : o.complex = (a.complex || b.complex) := by
  unfold Op.mul at h
  split at h
  · obtain ⟨C, hC, h⟩ := bind_eq_ok h
    cases h
    unfold Arr.dot at hC
    split at hC
    · cases hC
    · cases hC; rfl
  · obtain ⟨C, hC, h⟩ := bind_eq_ok h
    cases h
    unfold Arr.dot at hC
    split at hC
    · cases hC
    · cases hC; rfl
  · split at h
    · cases h
    · cases h; rfl

theorem smul_complex (a : Op) (c : Scalar) : (a.smul c).complex = (a.complex || c.complex) := by
  unfold Op.smul
  split <;> rfl

theorem neg_complex (a : Op) : a.neg.complex = a.complex := by
  unfold Op.neg
  split
  · rfl
  · rfl
  · rw [smul_complex]; simp

theorem mkInverse_complex {A : Arr} {o : Op} (h : mkInverse A = .ok o) : o.complex = A.complex := by
  unfold mkInverse at h
  obtain ⟨S, hS, h⟩ := bind_eq_ok h
  split at h
  · cases h
  · cases h; rfl

theorem transpose_complex {a : Op} : ∀ {o : Op}, a.transpose = .ok o → o.complex = a.complex := by
  induction a with
  | sum a b iha ihb =>
    intro o h
    obtain ⟨u, hu, h⟩ := bind_eq_ok h
    obtain ⟨v, hv, h⟩ := bind_eq_ok h
    rw [add_complex h, iha hu, ihb hv]; rfl
  | product a b iha ihb =>
    intro o h
    obtain ⟨u, hu, h⟩ := bind_eq_ok h
    obtain ⟨v, hv, h⟩ := bind_eq_ok h
    rw [mul_complex h, ihb hu, iha hv, Bool.or_comm]; rfl
  | scaled a c ih =>
    intro o h
    obtain ⟨u, hu, h⟩ := bind_eq_ok h
    cases h
    rw [smul_complex, ih hu]; rfl
  | inverse A => intro o h; exact mkInverse_complex (A := A.transpose) h
  | zero r c => intro o h; cases h
  | rankOne p q => intro o h; cases h; exact Bool.or_comm _ _
  | _ => intro o h; cases h; rfl

theorem adjoint_complex {a : Op} : ∀ {o : Op}, a.adjoint = .ok o → o.complex = a.complex := by
  induction a with
  | sum a b iha ihb =>
    intro o h
    obtain ⟨u, hu, h⟩ := bind_eq_ok h
    obtain ⟨v, hv, h⟩ := bind_eq_ok h
    rw [add_complex h, iha hu, ihb hv]; rfl
  | product a b iha ihb =>
    intro o h
    obtain ⟨u, hu, h⟩ := bind_eq_ok h
    obtain ⟨v, hv, h⟩ := bind_eq_ok h
    rw [mul_complex h, ihb hu, iha hv, Bool.or_comm]; rfl
  | scaled a c ih =>
    intro o h
    obtain ⟨u, hu, h⟩ := bind_eq_ok h
    cases h
    rw [smul_complex, ih hu]; rfl
  | inverse A => intro o h; exact mkInverse_complex (A := A.transpose.conjugate) h
  | zero r c => intro o h; cases h
  | rankOne p q => intro o h; cases h; exact Bool.or_comm _ _
  | _ => intro o h; cases h; rfl

/-- A matrix with real entries. -/
def RealM {r c : Nat} (M : Matrix (Fin r) (Fin c) ℂ) : Prop := ∀ i j, star (M i j) = M i j

theorem mp_unique {m n : Nat} {A : Matrix (Fin m) (Fin n) ℂ} {X Y : Matrix (Fin n) (Fin m) ℂ} (hX : IsPseudoInverse A X)
    (hY : IsPseudoInverse A Y) : X = Y := by
  have e1 : A * X = A * Y := by
    calc A * X = (A * X).conjTranspose := hX.2.2.1.symm
      _ = (A * Y * A * X).conjTranspose := by rw [hY.1]
      _ = (A * Y * (A * X)).conjTranspose := by rw [Matrix.mul_assoc (A * Y)]
      _ = (A * X) * (A * Y) := by rw [Matrix.conjTranspose_mul, hX.2.2.1, hY.2.2.1]
      _ = A * Y := by rw [← Matrix.mul_assoc, hX.1]
  have e2 : X * A = Y * A := by
    calc X * A = (X * A).conjTranspose := hX.2.2.2.symm
      _ = (X * (A * Y * A)).conjTranspose := by rw [hY.1]
      _ = (X * A * (Y * A)).conjTranspose := by rw [Matrix.mul_assoc A, ← Matrix.mul_assoc X]
      _ = (Y * A) * (X * A) := by rw [Matrix.conjTranspose_mul, hX.2.2.2, hY.2.2.2]
      _ = Y * A := by rw [Matrix.mul_assoc, ← Matrix.mul_assoc A, hX.1]
  calc X = X * A * X := hX.2.1.symm
    _ = Y * A * X := by rw [e2]
    _ = Y * (A * X) := Matrix.mul_assoc _ _ _
    _ = Y * (A * Y) := by rw [e1]
    _ = Y * A * Y := (Matrix.mul_assoc _ _ _).symm
    _ = Y := hY.2.1

theorem mp_real {m n : Nat} {A : Matrix (Fin m) (Fin n) ℂ} {X : Matrix (Fin n) (Fin m) ℂ} (hX : IsPseudoInverse A X)
    (hA : RealM A) : RealM X := by
  have hAt : A.conjTranspose.transpose = A := by
    ext i j; simp [Matrix.conjTranspose_apply]; exact hA i j
  have h := mp_transpose (mp_adjoint hX)
  rw [hAt] at h
  have := mp_unique h hX
  intro i j
  have := congrFun (congrFun this i) j
  simpa [Matrix.conjTranspose_apply] using this

theorem realM_mul {r k c : Nat} {A : Matrix (Fin r) (Fin k) ℂ} {B : Matrix (Fin k) (Fin c) ℂ} (hA : RealM A) (hB : RealM B) :
    RealM (A * B) := by
  intro i j
  rw [Matrix.mul_apply, star_sum]
  refine Finset.sum_congr rfl fun l _ => ?_
  rw [star_mul, hA, hB, mul_comm]

theorem eval_real {e : Expr} {r c : Nat} {M : Matrix (Fin r) (Fin c) ℂ} (h : Denotes e r c M) :
    e.Wellformed → ∀ {o : Op}, e.eval = .ok o → o.complex = false → RealM M := by
  induction h with
  | dense A => intro hw o he hc; cases he; exact fun i j => hw.2 hc i j
  | sparse A => intro hw o he hc; cases he; exact fun i j => hw.2 hc i j
  | nonlocal z m n e => intro hw o he hc; cases he; exact fun i j => hw hc i j
  | zero m n => intro hw o he hc i j; simp
  | rankOne p q =>
    intro hw o he hc i j
    cases he
    simp only [Op.complex, Bool.or_eq_false_iff] at hc
    simp only [Matrix.of_apply]
    rw [star_mul, hw.1.2.2 hc.2, hw.2.2.2 hc.1, mul_comm]
  | inverse A X hX =>
    intro hw o he hc
    rw [mkInverse_complex he] at hc
    exact mp_real hX fun i j => hw.1.2 hc i j
  | add ha hb iha ihb =>
    intro hw o he hc i j
    obtain ⟨u, hu, he⟩ := bind_eq_ok he
    obtain ⟨v, hv, he⟩ := bind_eq_ok he
    rw [add_complex he, Bool.or_eq_false_iff] at hc
    rw [Matrix.add_apply, star_add, iha hw.1 hu hc.1, ihb hw.2 hv hc.2]
  | sub ha hb iha ihb =>
    intro hw o he hc i j
    obtain ⟨u, hu, he⟩ := bind_eq_ok he
    obtain ⟨v, hv, he⟩ := bind_eq_ok he
    rw [add_complex he, neg_complex, Bool.or_eq_false_iff] at hc
    rw [Matrix.sub_apply, star_sub, iha hw.1 hu hc.1, ihb hw.2 hv hc.2]
  | neg ha ih =>
    intro hw o he hc i j
    obtain ⟨u, hu, he⟩ := bind_eq_ok he
    cases he
    rw [neg_complex] at hc
    rw [Matrix.neg_apply, star_neg, ih hw hu hc]
  | smul s ha ih =>
    intro hw o he hc i j
    obtain ⟨u, hu, he⟩ := bind_eq_ok he
    cases he
    rw [smul_complex, Bool.or_eq_false_iff] at hc
    rw [Matrix.smul_apply, smul_eq_mul, star_mul, ih hw.2 hu hc.1, hw.1 hc.2, mul_comm]
  | mul ha hb iha ihb =>
    intro hw o he hc
    obtain ⟨u, hu, he⟩ := bind_eq_ok he
    obtain ⟨v, hv, he⟩ := bind_eq_ok he
    rw [mul_complex he, Bool.or_eq_false_iff] at hc
    exact realM_mul (iha hw.1 hu hc.1) (ihb hw.2 hv hc.2)
  | transpose ha ih =>
    intro hw o he hc i j
    obtain ⟨u, hu, he⟩ := bind_eq_ok he
    rw [transpose_complex he] at hc
    exact ih hw hu hc j i
  | adjoint ha ih =>
    intro hw o he hc i j
    obtain ⟨u, hu, he⟩ := bind_eq_ok he
    rw [adjoint_complex he] at hc
    rw [Matrix.conjTranspose_apply, ih hw hu hc j i, ih hw hu hc j i]

end

end Verif.PyOp
