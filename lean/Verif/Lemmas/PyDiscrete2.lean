import Verif.Lemmas.PyDiscrete
namespace Verif.PyOp
open Verif.DiscreteOp
noncomputable section

/-! ### Products with the adjoint -/

/-- The operators whose `rmatvec` is correct. -/
def Op.R : Op → Prop
  | .sum a b => a.R ∧ b.R
  | .product a b => a.R ∧ b.R
  | .scaled a c => a.R ∧ star c.value = c.value
  | .nonlocal _ => False
  | .dense A => ∀ i j, star (A.e i j) = A.e i j
  | .sparse _ => False
  | _ => True

theorem Op.R.add {a b o : Op} (ha : a.R) (hb : b.R) (h : a.add b = .ok o) : o.R := by
  unfold Op.add at h
  split at h
  · obtain ⟨C, hC, h⟩ := bind_eq_ok h
    cases h
    unfold Arr.add at hC
    split at hC
    · cases hC
      intro i j
      dsimp only
      rw [star_add, ha, hb]
    · cases hC
  · exact ha.elim
  · split at h
    · cases h
    · cases h; exact ⟨ha, hb⟩

theorem Op.R.mul {a b o : Op} (ha : a.R) (hb : b.R) (h : a.mul b = .ok o) : o.R := by
  unfold Op.mul at h
  split at h
  · obtain ⟨C, hC, h⟩ := bind_eq_ok h
    cases h
    unfold Arr.dot at hC
    split at hC
    · cases hC
    · cases hC
      intro i j
      dsimp only
      rw [star_sum]
      refine Finset.sum_congr rfl fun l _ => ?_
      rw [star_mul, ha, hb, mul_comm]
  · exact ha.elim
  · split at h
    · cases h
    · cases h; exact ⟨ha, hb⟩

theorem Op.R.smul {a : Op} (ha : a.R) {c : Scalar} (hc : star c.value = c.value) : (a.smul c).R := by
  unfold Op.smul
  split
  · intro i j
    simp only [Arr.smul]
    rw [star_mul, ha, hc, mul_comm]
  · exact ha.elim
  · exact ⟨ha, hc⟩

theorem Op.R.neg {a : Op} (ha : a.R) : a.neg.R := by
  unfold Op.neg
  split
  · intro i j
    dsimp only
    rw [star_neg, ha]
  · exact ha.elim
  · exact ha.smul (by simp)

theorem eval_R (e : Expr) : ∀ {o : Op}, e.RMatvecAllowed → e.eval = .ok o → o.R := by
  induction e with
  | dense A => intro o hQ h; cases h; exact hQ.1 A rfl
  | sparse A => intro o hQ h; exact (hQ.2.1 A rfl).elim
  | nonlocal z r c f => intro o hQ h; exact (hQ.2.2.1 z r c f rfl).elim
  | zero r c => intro o hQ h; cases h; trivial
  | rankOne p q => intro o hQ h; cases h; trivial
  | inverse A =>
    intro o hQ h
    unfold Expr.eval mkInverse at h
    obtain ⟨S, hS, h⟩ := bind_eq_ok h
    split at h
    · cases h
    · cases h; trivial
  | add a b iha ihb =>
    intro o hQ h
    obtain ⟨u, hu, h⟩ := bind_eq_ok h
    obtain ⟨v, hv, h⟩ := bind_eq_ok h
    exact (iha hQ.2.1 hu).add (ihb hQ.2.2 hv) h
  | sub a b iha ihb =>
    intro o hQ h
    obtain ⟨u, hu, h⟩ := bind_eq_ok h
    obtain ⟨v, hv, h⟩ := bind_eq_ok h
    exact (iha hQ.2.1 hu).add (ihb hQ.2.2 hv).neg h
  | neg a ih =>
    intro o hQ h
    obtain ⟨u, hu, h⟩ := bind_eq_ok h
    cases h
    exact (ih hQ.2 hu).neg
  | smul c a ih =>
    intro o hQ h
    obtain ⟨u, hu, h⟩ := bind_eq_ok h
    cases h
    exact (ih hQ.2 hu).smul (hQ.1.2.2.2.1 _ _ rfl)
  | mul a b iha ihb =>
    intro o hQ h
    obtain ⟨u, hu, h⟩ := bind_eq_ok h
    obtain ⟨v, hv, h⟩ := bind_eq_ok h
    exact (iha hQ.2.1 hu).mul (ihb hQ.2.2 hv) h
  | transpose a ih => intro o hQ h; exact (hQ.1.2.2.2.2.1 a rfl).elim
  | adjoint a ih => intro o hQ h; exact (hQ.1.2.2.2.2.2 a rfl).elim

theorem Rep.rawRmatvec {op : Op} {r c : Nat} {M : Matrix (Fin r) (Fin c) ℂ} (h : Rep op r c M) : op.R →
    ∀ x : Arr, x.rows = r → x.cols = 1 → x.twoD = false → ∃ y, op.rawRmatvec x = .ok y ∧ IsProduct M.conjTranspose x y := by
  induction h with
  | sum ha hb iha ihb =>
    intro hR x hr hx ht
    obtain ⟨u, hu1, hu2⟩ := wrapVec_ok hr hx (iha hR.1 x hr hx ht)
    obtain ⟨v, hv1, hv2⟩ := wrapVec_ok hr hx (ihb hR.2 x hr hx ht)
    rw [Op.rawRmatvec, ha.shape, hb.shape, hu1, ok_bind, hv1, ok_bind, Matrix.conjTranspose_add]
    exact add_ok hu2 hv2
  | product ha hb iha ihb =>
    intro hR x hr hx ht
    obtain ⟨u, hu1, hu2⟩ := wrapVec_ok hr hx (iha hR.1 x hr hx ht)
    have hur := hu2.2.1
    have huc : u.cols = 1 := hu2.2.2.1.trans hx
    have hut : u.twoD = false := hu2.1.trans ht
    obtain ⟨v, hv1, hv2⟩ := wrapVec_ok hur huc (ihb hR.2 u hur huc hut)
    rw [Op.rawRmatvec, ha.shape, hb.shape, hu1, ok_bind, hv1, Matrix.conjTranspose_mul]
    exact ⟨v, rfl, comp_ok hu2 hv2⟩
  | scaled s ha ih =>
    intro hR x hr hx ht
    obtain ⟨u, hu1, hu2⟩ := wrapVec_ok hr hx (ih hR.1 x hr hx ht)
    rw [Op.rawRmatvec, ha.shape, hu1, ok_bind, Matrix.conjTranspose_smul, hR.2]
    exact ⟨_, rfl, smul_ok s hu2⟩
  | nonlocal b => intro hR; exact hR.elim
  | dense A h =>
    intro hR x hr hx ht
    rw [Op.rawRmatvec]
    unfold dotLeft
    rw [if_neg (by simp [ht]), if_neg (by simpa using hr)]
    refine ⟨_, rfl, ht.symm, rfl, hx.symm, fun j hj => ?_⟩
    have hj0 : j = 0 := by omega
    subst hj0
    funext i
    simp only [Matrix.mulVec, dotProduct, Matrix.conjTranspose_apply, toM, Matrix.of_apply]
    rw [Finset.sum_range]
    refine Finset.sum_congr rfl fun l _ => ?_
    rw [hR, mul_comm]
  | sparse A h => intro hR; exact hR.elim
  | inverse A X hf h1 h2 hX =>
    intro hR x hr hx ht
    obtain ⟨o, ho1, ho2⟩ := (Rep.inverse A X hf h1 h2 hX).adjoint trivial
    rw [Op.rawRmatvec, ho1, ok_bind]
    exact (ho2.acts.2 x hr (by omega) (fun _ => hx)).1
  | zero r c =>
    intro hR x hr hx ht
    rw [Op.rawRmatvec, if_neg (by simp [ht])]
    refine ⟨_, rfl, ht.symm, rfl, hx.symm, fun j hj => ?_⟩
    rw [Matrix.conjTranspose_zero, Matrix.zero_mulVec]; rfl
  | rankOne p q hp hq =>
    intro hR x hr hx ht
    obtain ⟨o, ho1, ho2⟩ := (Rep.rankOne p q hp hq).adjoint trivial
    cases ho1
    exact ho2.rawMatvec x hr hx

theorem Rep.rmatvec {op : Op} {r c : Nat} {M : Matrix (Fin r) (Fin c) ℂ} (h : Rep op r c M) (hR : op.R) (x : Arr)
    (hr : x.rows = r) (hx : x.cols = 1) (ht : x.twoD = false) : ∃ y, op.rmatvec x = .ok y ∧ IsProduct M.conjTranspose x y := by
  unfold Op.rmatvec
  rw [h.shape]
  exact wrapVec_ok hr hx (h.rawRmatvec hR x hr hx ht)

/-! ### Arrays of the wrong size -/

theorem dot_error {A x : Arr} (h : x.rows ≠ A.cols) : A.dot x = .error .ValueError := by
  unfold Arr.dot; rw [if_pos h]

theorem wrapVec_error {M N : Nat} {raw : Arr → Res Arr} {x : Arr} (h : x.rows ≠ N) : wrapVec M N raw x = .error .ValueError := by
  unfold wrapVec; rw [if_neg (fun hh => h hh.1)]

theorem wrapMat_error {N : Nat} {raw : Arr → Res Arr} {x : Arr} (h : x.rows ≠ N) : wrapMat N raw x = .error .ValueError := by
  unfold wrapMat; rw [if_neg (fun hh => h hh.2)]

theorem backend_error {b : Backend} {x : Arr} (h : x.rows ≠ b.shape.2) : b.matvec x = .error .ValueError := by
  unfold Backend.matvec
  split
  · have : b.apply x.real = .error .ValueError := by unfold Backend.apply; rw [if_pos (by exact h)]
    rw [this, error_bind]
  · unfold Backend.apply; rw [if_pos h]

theorem sparse_error {A x : Arr} (h : x.rows ≠ A.cols) : sparseMatvec A x = .error .ValueError := by
  unfold sparseMatvec
  split
  · rw [dot_error (x := x.real) h, error_bind]
  · exact dot_error h

theorem solveReal_error {A x : Arr} (h : x.rows ≠ A.rows) : ∃ e, solveReal A x = .error e := by
  unfold solveReal
  split
  · exact ⟨_, rfl⟩
  · have key : ∃ e, solveFun A { x with twoD := false } = .error e := by
      unfold solveFun
      rcases lt_trichotomy A.rows A.cols with h1 | h1 | h1
      · obtain ⟨S, h2, h3, h4, h5⟩ := gram_thick A h1
        rw [h2, ok_bind, if_neg (by omega), if_neg (by omega)]
        unfold luSolve
        by_cases hc : S.complex = false ∧ x.complex = true
        · rw [if_pos hc]; exact ⟨_, rfl⟩
        · rw [if_neg hc, if_pos (by rw [h3]; exact h)]; exact ⟨_, rfl⟩
      · have hs : gram A = .ok A := by unfold gram; rw [if_pos h1]
        rw [hs, ok_bind, if_pos h1]
        unfold luSolve
        by_cases hc : A.complex = false ∧ x.complex = true
        · rw [if_pos hc]; exact ⟨_, rfl⟩
        · rw [if_neg hc, if_pos (by exact h)]; exact ⟨_, rfl⟩
      · obtain ⟨S, h2, h3, h4, h5⟩ := gram_thin A h1
        rw [h2, ok_bind, if_neg (by omega), if_pos h1, dot_error (by exact h)]
        exact ⟨_, rfl⟩
    obtain ⟨e, he⟩ := key
    rw [he]; exact ⟨e, rfl⟩

theorem solve_error {A x : Arr} (h : x.rows ≠ A.rows) : ∃ e, solve A x = .error e := by
  unfold solve
  split
  · obtain ⟨e, he⟩ := solveReal_error (x := x.real) h
    rw [he]; exact ⟨e, rfl⟩
  · exact solveReal_error h

theorem default_error {M N : Nat} {raw : Arr → Res Arr} {x : Arr} (h : x.rows ≠ N) (hc : 1 ≤ x.cols) :
    ∃ e, defaultMatmat M (wrapVec M N raw) x = .error e := by
  unfold defaultMatmat
  rw [if_neg (by omega)]
  obtain ⟨n, hn⟩ : ∃ n, x.cols = n + 1 := ⟨x.cols - 1, by omega⟩
  rw [hn, List.range_succ_eq_map, List.mapM_cons, wrapVec_error (by exact h)]
  exact ⟨_, rfl⟩

theorem apply_error (op : Op) (x : Arr) (h : x.rows ≠ op.shape.2) (hs : ∀ a b, op = .sum a b → a.shape = b.shape)
    (hc : 1 ≤ x.cols) (hz : ∀ r c, op = .zero r c → x.cols ≠ 1) : ∃ e, op.apply x = .error e := by
  unfold Op.apply
  cases op with
  | sum a b =>
    split
    · rw [Op.rawMatvec, wrapVec_error (by exact h)]; exact ⟨_, rfl⟩
    · rw [Op.rawMatmat, wrapMat_error (by exact h)]; exact ⟨_, rfl⟩
  | product a b =>
    split
    · rw [Op.rawMatvec, wrapVec_error (by exact h)]; exact ⟨_, rfl⟩
    · rw [Op.rawMatmat, wrapMat_error (by exact h)]; exact ⟨_, rfl⟩
  | scaled a c =>
    split
    · rw [Op.rawMatvec, wrapVec_error (by exact h)]; exact ⟨_, rfl⟩
    · rw [Op.rawMatmat, wrapMat_error (by exact h)]; exact ⟨_, rfl⟩
  | nonlocal b =>
    split
    · exact ⟨_, backend_error h⟩
    · exact ⟨_, backend_error h⟩
  | dense A =>
    split
    · exact ⟨_, dot_error h⟩
    · exact ⟨_, dot_error h⟩
  | sparse A =>
    split
    · exact ⟨_, sparse_error h⟩
    · exact ⟨_, sparse_error h⟩
  | inverse A =>
    split
    · exact solve_error h
    · exact default_error h hc
  | zero r c =>
    rw [if_neg (hz r c rfl)]
    exact default_error h hc
  | rankOne p q =>
    split
    · rw [Op.rawMatvec]; unfold rankOneMatvec; rw [if_pos (by exact h)]; exact ⟨_, rfl⟩
    · exact default_error h hc

/-! ### Least squares -/

section
variable {m n : Nat} {A : Matrix (Fin m) (Fin n) ℂ} {X : Matrix (Fin n) (Fin m) ℂ}

theorem mp_of_thin (hd : (A.conjTranspose * A).det ≠ 0) : IsPseudoInverse A ((A.conjTranspose * A)⁻¹ * A.conjTranspose) := by
  have hu : IsUnit (A.conjTranspose * A).det := isUnit_iff_ne_zero.mpr hd
  have hXA : (A.conjTranspose * A)⁻¹ * A.conjTranspose * A = 1 := by rw [Matrix.mul_assoc, Matrix.nonsing_inv_mul _ hu]
  have hG : (A.conjTranspose * A).conjTranspose = A.conjTranspose * A := by
    rw [Matrix.conjTranspose_mul, Matrix.conjTranspose_conjTranspose]
  refine ⟨?_, ?_, ?_, ?_⟩
  · rw [Matrix.mul_assoc, hXA, Matrix.mul_one]
  · rw [hXA, Matrix.one_mul]
  · rw [Matrix.conjTranspose_mul, Matrix.conjTranspose_mul, Matrix.conjTranspose_conjTranspose, Matrix.conjTranspose_nonsing_inv, hG,
      Matrix.mul_assoc]
  · rw [hXA, Matrix.conjTranspose_one]

theorem mp_of_thick (hd : (A * A.conjTranspose).det ≠ 0) : IsPseudoInverse A (A.conjTranspose * (A * A.conjTranspose)⁻¹) := by
  have := mp_adjoint (mp_of_thin (A := A.conjTranspose) (by rwa [Matrix.conjTranspose_conjTranspose]))
  have hG : (A * A.conjTranspose).conjTranspose = A * A.conjTranspose := by
    rw [Matrix.conjTranspose_mul, Matrix.conjTranspose_conjTranspose]
  rwa [Matrix.conjTranspose_mul, Matrix.conjTranspose_conjTranspose, Matrix.conjTranspose_nonsing_inv, hG] at this

theorem mp_of_square {A : Matrix (Fin n) (Fin n) ℂ} (hd : A.det ≠ 0) : IsPseudoInverse A A⁻¹ := by
  have hu : IsUnit A.det := isUnit_iff_ne_zero.mpr hd
  refine ⟨?_, ?_, ?_, ?_⟩
  · rw [Matrix.mul_nonsing_inv _ hu, Matrix.one_mul]
  · rw [Matrix.nonsing_inv_mul _ hu, Matrix.one_mul]
  · rw [Matrix.mul_nonsing_inv _ hu, Matrix.conjTranspose_one]
  · rw [Matrix.nonsing_inv_mul _ hu, Matrix.conjTranspose_one]

theorem mp_exists (A : Arr) (hf : FullRank A) : ∃ X : Matrix (Fin A.cols) (Fin A.rows) ℂ,
    IsPseudoInverse (toM A.rows A.cols A.e) X ∧ (A.cols ≤ A.rows → X * toM A.rows A.cols A.e = 1) ∧
    (A.rows ≤ A.cols → toM A.rows A.cols A.e * X = 1) := by
  rcases lt_trichotomy A.rows A.cols with h | h | h
  · have hd := gram_det'.mpr ((fullRank_wide (by omega)).mp hf)
    refine ⟨_, mp_of_thick hd, fun h' => absurd h' (by omega), fun _ => ?_⟩
    rw [← Matrix.mul_assoc, Matrix.mul_nonsing_inv _ (isUnit_iff_ne_zero.mpr hd)]
  · have hi := (fullRank_tall (by omega)).mp hf
    obtain ⟨t, m, n, z, e⟩ := A
    dsimp only at h hi ⊢
    subst h
    have hd := (det_iff_injective _).mpr hi
    have hu := isUnit_iff_ne_zero.mpr hd
    exact ⟨_, mp_of_square hd, fun _ => Matrix.nonsing_inv_mul _ hu, fun _ => Matrix.mul_nonsing_inv _ hu⟩
  · have hd := gram_det.mpr ((fullRank_tall (by omega)).mp hf)
    refine ⟨_, mp_of_thin hd, fun _ => ?_, fun h' => absurd h' (by omega)⟩
    rw [Matrix.mul_assoc, Matrix.nonsing_inv_mul _ (isUnit_iff_ne_zero.mpr hd)]

theorem energy_eq {k : Nat} (v : Fin k → ℂ) : energy v = (star v ⬝ᵥ v).re := by
  unfold energy
  rw [dotProduct, Complex.re_sum]
  refine Finset.sum_congr rfl fun i _ => ?_
  rw [Pi.star_apply, Complex.star_def, ← Complex.normSq_eq_conj_mul_self, Complex.ofReal_re]

theorem energy_nonneg {k : Nat} (v : Fin k → ℂ) : 0 ≤ energy v := Finset.sum_nonneg fun i _ => Complex.normSq_nonneg _

theorem energy_add {k : Nat} (u v : Fin k → ℂ) (h : star v ⬝ᵥ u = 0) : energy (u + v) = energy u + energy v := by
  have h' : star u ⬝ᵥ v = 0 := by
    rw [Matrix.star_dotProduct, h, star_zero]
  rw [energy_eq, energy_eq, energy_eq, star_add, add_dotProduct, dotProduct_add, dotProduct_add, h, h', Complex.add_re,
    Complex.add_re, Complex.add_re]
  simp

theorem least_squares (h : IsPseudoInverse A X) (b : Fin m → ℂ) (z : Fin n → ℂ) :
    energy (A.mulVec (X.mulVec b) - b) ≤ energy (A.mulVec z - b) := by
  have e : A.mulVec z - b = (A.mulVec (X.mulVec b) - b) + A.mulVec (z - X.mulVec b) := by
    rw [Matrix.mulVec_sub]; abel
  rw [e, energy_add]
  · have := energy_nonneg (A.mulVec (z - X.mulVec b)); linarith
  · rw [Matrix.star_mulVec, ← Matrix.dotProduct_mulVec, Matrix.mulVec_sub, Matrix.mulVec_mulVec, Matrix.mulVec_mulVec,
      mp_normal h, sub_self, dotProduct_zero]

theorem least_norm (h : IsPseudoInverse A X) (b : Fin m → ℂ) (z : Fin n → ℂ) (hz : A.mulVec z = A.mulVec (X.mulVec b)) :
    energy (X.mulVec b) ≤ energy z := by
  have e : z = X.mulVec b + (z - X.mulVec b) := by abel
  have hy : X.mulVec b = A.conjTranspose.mulVec ((X.conjTranspose * X).mulVec b) := by
    rw [Matrix.mulVec_mulVec, ← Matrix.mul_assoc, ← Matrix.conjTranspose_mul, h.2.2.2, h.2.1]
  have hw : A.mulVec (z - X.mulVec b) = 0 := by rw [Matrix.mulVec_sub, hz, sub_self]
  rw [e, energy_add]
  · have := energy_nonneg (z - X.mulVec b); linarith
  · conv_lhs => rw [hy]
    rw [Matrix.dotProduct_mulVec, ← Matrix.star_mulVec, ← hy, hw, star_zero, zero_dotProduct]

end

end

end Verif.PyOp
