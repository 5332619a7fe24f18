import Verif.Lemmas.Osrc2
import Mathlib.Analysis.SpecialFunctions.Trigonometric.Bounds
/-
C89: the OSRC operators.
-/
namespace Verif.PyOp
open Complex
noncomputable section

/-- `_pade_coeffs` never divides by zero, whatever the number of terms and the angle. -/
theorem C89_coefficients (n j : Nat) (hj : j < n) (theta : ℝ) :
    1 + Complex.cos (((j : ℂ) + 1) * Real.pi / (2 * n + 1)) ^ 2 * (Complex.exp (-I * theta) - 1) ≠ 0 := denominator_ne hj theta

/-- The rational function with the coefficients of `_pade_coeffs` approximates the square root of `1 + z` with the branch cut given by
the angle: it has no poles off the cut, and the relative error decreases like a geometric sequence. -/
theorem C89_square_root (theta : ℝ) (z : ℂ) (h : OffCut theta z) :
    branchSqrt theta z ^ 2 = 1 + z ∧ (∀ n, ∀ j < n, 1 + (padeCoeffs n theta).beta j * z ≠ 0) ∧
    ∃ q : ℂ, ‖q‖ < 1 ∧ ∀ n, rational (padeCoeffs n theta).c0 (padeCoeffs n theta).alpha (padeCoeffs n theta).beta n z =
      branchSqrt theta z * ((1 - q ^ (2 * n + 1)) / (1 + q ^ (2 * n + 1))) :=
  ⟨branchSqrt_sq h, fun _ _ hj => offcut_denominator h hj, _, (half_plane (half_power h).1).2.2, value_closed h⟩

theorem ratio_tendsto {q : ℂ} (hq : ‖q‖ < 1) :
    Filter.Tendsto (fun n : Nat => (1 - q ^ (2 * n + 1)) / (1 + q ^ (2 * n + 1))) Filter.atTop (nhds 1) := by
  have h1 : Filter.Tendsto (fun n : Nat => q ^ (2 * n + 1)) Filter.atTop (nhds 0) :=
    (tendsto_pow_atTop_nhds_zero_of_norm_lt_one hq).comp
      (Filter.tendsto_atTop_mono (fun n => by omega : ∀ n : Nat, n ≤ 2 * n + 1) Filter.tendsto_id)
  have := (tendsto_const_nhds (x := (1 : ℂ)).sub h1).div (tendsto_const_nhds (x := (1 : ℂ)).add h1) (by simp)
  simp only [sub_zero, add_zero, div_one] at this
  exact this

/-- With more terms the rational functions converge to the square root, everywhere off the cut. -/
theorem C89_converges (theta : ℝ) (z : ℂ) (h : OffCut theta z) :
    Filter.Tendsto (fun n => rational (padeCoeffs n theta).c0 (padeCoeffs n theta).alpha (padeCoeffs n theta).beta n z) Filter.atTop
      (nhds (branchSqrt theta z)) := by
  obtain ⟨_, _, q, hq, he⟩ := C89_square_root theta z h
  simp only [he]
  simpa using (ratio_tendsto hq).const_mul (branchSqrt theta z)

/-- The order of a Padé approximant: with `n` terms the error is of order `2 n + 1` at `exp(iθ) - 1` (for `θ = 0`: at `0`). -/
theorem C89_order (n : Nat) (theta : ℝ) (z : ℂ) (h : ‖z - (Complex.exp (I * theta) - 1)‖ ≤ 1 / 2) :
    ‖rational (padeCoeffs n theta).c0 (padeCoeffs n theta).alpha (padeCoeffs n theta).beta n z - branchSqrt theta z‖ ≤
      8 * ‖z - (Complex.exp (I * theta) - 1)‖ ^ (2 * n + 1) := by
  have hE : Complex.exp (I * theta) * Complex.exp (-I * theta) = 1 := by
    rw [← Complex.exp_add, ← Complex.exp_zero]; congr 1; ring
  have hnE := (exp_rotation theta).2.2.1
  have hx1 : (1 + z) * Complex.exp (-I * theta) - 1 = (z - (Complex.exp (I * theta) - 1)) * Complex.exp (-I * theta) := by
    linear_combination hE
  have hnx : ‖(1 + z) * Complex.exp (-I * theta) - 1‖ = ‖z - (Complex.exp (I * theta) - 1)‖ := by
    rw [hx1, norm_mul, hnE, mul_one]
  have hcut : OffCut theta z := by
    refine Complex.mem_slitPlane_iff.mpr (Or.inl ?_)
    have h1 := Complex.abs_re_le_norm ((1 + z) * Complex.exp (-I * theta) - 1)
    rw [hnx, Complex.sub_re, Complex.one_re] at h1
    have := (abs_le.mp (h1.trans h)).1
    linarith
  rw [value_closed hcut n]
  obtain ⟨hw, hw2⟩ := half_power hcut
  obtain ⟨hw0, hw1, hq⟩ := half_plane hw
  have hbr : ‖branchSqrt theta z‖ = ‖((1 + z) * Complex.exp (-I * theta)) ^ ((1 : ℂ) / 2)‖ := by
    unfold branchSqrt
    rw [norm_mul, (exp_rotation theta).2.2.2, one_mul]
  generalize ((1 + z) * Complex.exp (-I * theta)) ^ ((1 : ℂ) / 2) = w at *
  have hw2' : w ^ 2 - 1 = (1 + z) * Complex.exp (-I * theta) - 1 := by rw [hw2]
  set d := ‖z - (Complex.exp (I * theta) - 1)‖ with hd
  have hnw : ‖w‖ ≤ 2 := by
    have : ‖w‖ ^ 2 ≤ 3 / 2 := by
      rw [← norm_pow]
      calc ‖w ^ 2‖ = ‖(w ^ 2 - 1) + 1‖ := by ring_nf
        _ ≤ ‖w ^ 2 - 1‖ + ‖(1 : ℂ)‖ := norm_add_le _ _
        _ ≤ 1 / 2 + 1 := by rw [hw2', hnx, norm_one]; linarith
        _ = 3 / 2 := by norm_num
    nlinarith [norm_nonneg w]
  have hqe : (w - 1) / (w + 1) = (w ^ 2 - 1) / (w + 1) ^ 2 := by field_simp; ring
  have hnw1 : 1 ≤ ‖w + 1‖ := by
    have := Complex.abs_re_le_norm (w + 1)
    rw [Complex.add_re, Complex.one_re, abs_of_pos (by linarith)] at this
    linarith
  have hqd : ‖(w - 1) / (w + 1)‖ ≤ d := by
    rw [hqe, norm_div, hw2', hnx, norm_pow]
    exact div_le_self (norm_nonneg _) (one_le_pow₀ hnw1)
  generalize (w - 1) / (w + 1) = q at *
  have hqM : ‖q ^ (2 * n + 1)‖ ≤ d ^ (2 * n + 1) := by
    rw [norm_pow]; exact pow_le_pow_left₀ (norm_nonneg _) hqd _
  have hdM : d ^ (2 * n + 1) ≤ 1 / 2 := by
    calc d ^ (2 * n + 1) ≤ d ^ 1 := pow_le_pow_of_le_one (norm_nonneg _) (by linarith) (by omega)
      _ ≤ 1 / 2 := by rw [pow_one]; exact h
  have hne := pow_ne_neg_one hq (2 * n + 1) (by omega)
  have hlow : 1 / 2 ≤ ‖1 + q ^ (2 * n + 1)‖ := by
    have := norm_sub_le (1 + q ^ (2 * n + 1)) (q ^ (2 * n + 1))
    rw [add_sub_cancel_right, norm_one] at this
    linarith
  have e : branchSqrt theta z * ((1 - q ^ (2 * n + 1)) / (1 + q ^ (2 * n + 1))) - branchSqrt theta z =
      -2 * branchSqrt theta z * q ^ (2 * n + 1) / (1 + q ^ (2 * n + 1)) := by
    field_simp
    ring
  rw [e, norm_div, norm_mul, norm_mul, hbr, norm_neg, Complex.norm_ofNat, div_le_iff₀ (by linarith)]
  have hdn : 0 ≤ d ^ (2 * n + 1) := pow_nonneg (norm_nonneg _) _
  calc 2 * ‖w‖ * ‖q ^ (2 * n + 1)‖ ≤ 2 * 2 * d ^ (2 * n + 1) := by
        have h1 : 2 * ‖w‖ ≤ 2 * 2 := by linarith
        exact mul_le_mul h1 hqM (norm_nonneg _) (by norm_num)
    _ = 8 * d ^ (2 * n + 1) * (1 / 2) := by ring
    _ ≤ 8 * d ^ (2 * n + 1) * ‖1 + q ^ (2 * n + 1)‖ := mul_le_mul_of_nonneg_left hlow (by positivity)

/-- The default damping of a positive wave number is admissible for every angle in `[0, π)`, if the bounding box is not a point. -/
theorem C89_default (theta : ℝ) (h0 : 0 ≤ theta) (hpi : theta < Real.pi) (k : ℝ) (hk : 0 < k) (bbox : BBox) (complex : Bool)
    (hb : ∃ i, bbox.lower i ≠ bbox.upper i) : Admissible theta (dampedWavenumber ⟨k, complex⟩ none bbox).value := by
  have hr : 0 < bbox.rad := by
    obtain ⟨i, hi⟩ := hb
    unfold BBox.rad
    refine div_pos (Real.sqrt_pos.mpr ?_) two_pos
    refine Finset.sum_pos' (fun j _ => sq_nonneg _) ⟨i, Finset.mem_univ _, ?_⟩
    exact lt_of_le_of_ne (sq_nonneg _) (Ne.symm (pow_ne_zero 2 (sub_ne_zero.mpr (Ne.symm hi))))
  obtain ⟨ε, he, h⟩ := damped_default k bbox.rad hk hr
  have : (dampedWavenumber ⟨k, complex⟩ none bbox).value = k + I * ε := h
  rw [this]
  exact damped_admissible h0 hpi hk he

/-- `osrc_dtn`: if no eigenvalue can be on the branch cut, all inverted matrices are nonsingular and the weak form acts as the matrix
`i k (c₀ M - Σⱼ αⱼ/κ² K (M - βⱼ/κ² K)⁻¹ M)`. -/
theorem C89_dtn (n : Nat) (hn : n ≠ 1) (mass stiff : Arr) (hp : Pencil n mass stiff) (npade : Nat) (theta : ℝ) (k : Scalar)
    (given : Option Scalar) (bbox : BBox) (dk : ℂ) (hdk : dk = (dampedWavenumber k given bbox).value) (ha : Admissible theta dk) :
    (∀ i < npade, (mat n mass - ((padeCoeffs npade theta).beta i / dk ^ 2) • mat n stiff).det ≠ 0) ∧
    ∃ op, osrcDtn mass stiff npade theta k given bbox = .ok op ∧
      Acts op ((I * k.value) • ((padeCoeffs npade theta).c0 • mat n mass -
        (∑ i ∈ Finset.range npade, ((padeCoeffs npade theta).alpha i / dk ^ 2) • mat n stiff *
          (mat n mass - ((padeCoeffs npade theta).beta i / dk ^ 2) • mat n stiff)⁻¹) * mat n mass)) := by
  have hd : ∀ i < npade, (mat n mass - ((padeCoeffs npade theta).beta i / dk ^ 2) • mat n stiff).det ≠ 0 :=
    fun i hi => admissible_det hp ha hi
  refine ⟨hd, ?_⟩
  subst hdk
  obtain ⟨op, h1, h2⟩ := dtn_acts hp.mass_square hp.stiff_square hn npade theta k given bbox hd
  refine ⟨op, h1, ?_⟩
  unfold rootMatrix termMatrix at h2
  rw [Matrix.neg_mul, ← sub_eq_add_neg] at h2
  exact h2

/-- `osrc_ntd`: likewise, with the matrix `1/(i k) M (M - K/κ²)⁻¹ (c₀ M - Σⱼ αⱼ/κ² K (M - βⱼ/κ² K)⁻¹ M)`. -/
theorem C89_ntd (n : Nat) (hn : n ≠ 1) (mass stiff : Arr) (hp : Pencil n mass stiff) (npade : Nat) (theta : ℝ) (k : Scalar)
    (given : Option Scalar) (hg : ∀ s ∈ given, s.complex = false → star s.value = s.value) (bbox : BBox) (dk : ℂ)
    (hdk : dk = (dampedWavenumber k given bbox).value) (ha : Admissible theta dk) :
    (mat n mass - (1 / dk ^ 2) • mat n stiff).det ≠ 0 ∧
    ∃ op, osrcNtd mass stiff npade theta k given bbox = .ok op ∧
      Acts op ((1 / (I * k.value)) • (mat n mass * (mat n mass - (1 / dk ^ 2) • mat n stiff)⁻¹ *
        ((padeCoeffs npade theta).c0 • mat n mass -
        (∑ i ∈ Finset.range npade, ((padeCoeffs npade theta).alpha i / dk ^ 2) • mat n stiff *
          (mat n mass - ((padeCoeffs npade theta).beta i / dk ^ 2) • mat n stiff)⁻¹) * mat n mass))) := by
  refine ⟨admissible_det_one hp ha, ?_⟩
  subst hdk
  have ht : (dampedWavenumber k given bbox).complex = false →
      star (dampedWavenumber k given bbox).value = (dampedWavenumber k given bbox).value := by
    intro h
    cases given with
    | none => cases h
    | some s => exact hg s rfl h
  obtain ⟨op, h1, h2⟩ := ntd_acts hp.mass_square hp.stiff_square hn npade theta k given bbox ht
    (fun i hi => admissible_det hp ha hi) (admissible_det_one hp ha)
  refine ⟨op, h1, ?_⟩
  unfold rootMatrix termMatrix at h2
  rw [Matrix.neg_mul, ← sub_eq_add_neg] at h2
  exact h2

/-- On a discrete eigenfunction of the Laplace-Beltrami operator the DtN operator is the product of `i k` and an approximation of
`√(1 + Δ/κ²)`, the NtD operator the product of `1/(i k)` and an approximation of `1/√(1 + Δ/κ²)`; the relative errors decrease like a
geometric sequence in the number of terms, and both are discretised with the mass matrix. -/
theorem C89_modes (n : Nat) (hn : n ≠ 1) (mass stiff : Arr) (hp : Pencil n mass stiff) (theta : ℝ) (k : Scalar) (given : Option Scalar)
    (hg : ∀ s ∈ given, s.complex = false → star s.value = s.value) (bbox : BBox) (dk : ℂ)
    (hdk : dk = (dampedWavenumber k given bbox).value) (ha : Admissible theta dk)
    (v : Nat → ℂ) (eig : ℝ) (he : 0 ≤ eig) (hv : IsMode n mass stiff v eig) (x : Arr) (hr : x.rows = n) (hc : x.cols = 1)
    (hx : ∀ i < n, x.e i 0 = v i) :
    ∃ q : ℂ, ‖q‖ < 1 ∧ ∀ npade,
      (∃ op y, osrcDtn mass stiff npade theta k given bbox = .ok op ∧ op.apply x = .ok y ∧ y.rows = n ∧ ∀ i < n, y.e i 0 =
        I * k.value * branchSqrt theta (-eig / dk ^ 2) * ((1 - q ^ (2 * npade + 1)) / (1 + q ^ (2 * npade + 1))) *
          ∑ j ∈ Finset.range n, mass.e i j * v j) ∧
      (∃ op y, osrcNtd mass stiff npade theta k given bbox = .ok op ∧ op.apply x = .ok y ∧ y.rows = n ∧ ∀ i < n, y.e i 0 =
        1 / (I * k.value * branchSqrt theta (-eig / dk ^ 2)) * ((1 - q ^ (2 * npade + 1)) / (1 + q ^ (2 * npade + 1))) *
          ∑ j ∈ Finset.range n, mass.e i j * v j) := by
  have hcut := ha eig he
  obtain ⟨hsq, hden, q, hq, hval⟩ := C89_square_root theta _ hcut
  have hv' := mode_mulVec hv
  have hxv : (fun i : Fin n => x.e i 0) = fun i : Fin n => v i := funext fun i => hx i i.2
  refine ⟨q, hq, fun npade => ?_⟩
  have hd : ∀ i < npade, (mat n mass - ((padeCoeffs npade theta).beta i / dk ^ 2) • mat n stiff).det ≠ 0 :=
    fun i hi => admissible_det hp ha hi
  have hroot := root_mode hv' (padeCoeffs npade theta) dk npade hd (hden npade)
  rw [hval npade] at hroot
  have hM : ∀ i (hi : i < n), (mat n mass).mulVec (fun j : Fin n => v j) ⟨i, hi⟩ = ∑ j ∈ Finset.range n, mass.e i j * v j := by
    intro i hi
    rw [Finset.sum_range]
    rfl
  have hsq' : branchSqrt theta (-eig / dk ^ 2) ^ 2 = 1 - 1 / dk ^ 2 * eig := by
    have : branchSqrt theta (symbolAt dk eig) ^ 2 = 1 + symbolAt dk eig := hsq
    unfold symbolAt at this
    rw [this]; ring
  have hne1 : 1 - 1 / dk ^ 2 * (eig : ℂ) ≠ 0 := by
    have := offcut_ne hcut
    unfold symbolAt at this
    intro h
    exact this (by rw [← h]; ring)
  have hsym : symbolAt dk eig = -eig / dk ^ 2 := rfl
  rw [hsym] at hroot
  have hdet1 := admissible_det_one hp ha
  subst hdk
  constructor
  · obtain ⟨op, h1, h2⟩ := dtn_acts hp.mass_square hp.stiff_square hn npade theta k given bbox hd
    obtain ⟨y, h3, _, h5, _, h7⟩ := (h2.2 x hr (by omega) (fun _ => hc)).1
    refine ⟨op, y, h1, h3, h5, fun i hi => ?_⟩
    have := congrFun (h7 0 (by omega)) ⟨i, hi⟩
    rw [hxv, Matrix.smul_mulVec, hroot, Pi.smul_apply, Pi.smul_apply, hM i hi, smul_eq_mul, smul_eq_mul] at this
    rw [this]; ring
  · have ht : (dampedWavenumber k given bbox).complex = false →
        star (dampedWavenumber k given bbox).value = (dampedWavenumber k given bbox).value := by
      intro h
      cases given with
      | none => cases h
      | some s => exact hg s rfl h
    obtain ⟨op, h1, h2⟩ := ntd_acts hp.mass_square hp.stiff_square hn npade theta k given bbox ht hd hdet1
    obtain ⟨y, h3, _, h5, _, h7⟩ := (h2.2 x hr (by omega) (fun _ => hc)).1
    refine ⟨op, y, h1, h3, h5, fun i hi => ?_⟩
    have := congrFun (h7 0 (by omega)) ⟨i, hi⟩
    rw [hxv, Matrix.smul_mulVec, ← Matrix.mulVec_mulVec, hroot, ← Matrix.mulVec_mulVec, Matrix.mulVec_smul,
      inverse_mode hv' _ hdet1 hne1, Matrix.mulVec_smul, Matrix.mulVec_smul, Pi.smul_apply, Pi.smul_apply, Pi.smul_apply, hM i hi,
      smul_eq_mul, smul_eq_mul, smul_eq_mul] at this
    rw [this, ← hsq']
    have hb : branchSqrt theta (-eig / (dampedWavenumber k given bbox).value ^ 2) ≠ 0 := by
      intro h
      rw [h] at hsq'
      exact hne1 (by rw [← hsq']; norm_num)
    generalize branchSqrt theta (-eig / (dampedWavenumber k given bbox).value ^ 2) = b at *
    have : ∀ u r s : ℂ, 1 / u * (b * r * (1 / b ^ 2 * s)) = 1 / (u * b) * r * s := by
      intro u r s
      by_cases hu : u = 0
      · rw [hu]; simp
      · field_simp
    exact this _ _ _

/-- A mass matrix with positive and a stiffness matrix with nonnegative entries on the diagonal. -/
def exampleOsrcMass : Arr := ⟨true, 2, 2, false, fun i j => if i = j then 1 else 0⟩

/-- The stiffness matrix of one edge. -/
def exampleOsrcStiff : Arr := ⟨true, 2, 2, false, fun i j => if i = j then 1 else -1⟩

/-- The hypotheses can be met: two dofs, the mode `(1, -1)` with the eigenvalue 2, default angle and default damping. -/
theorem C89_example : Pencil 2 exampleOsrcMass exampleOsrcStiff ∧
    IsMode 2 exampleOsrcMass exampleOsrcStiff (fun i => if i = 0 then 1 else -1) 2 ∧
    Admissible (Real.pi / 3) (dampedWavenumber ⟨((1 : ℝ) : ℂ), false⟩ none ⟨fun _ => 0, fun _ => 1⟩).value := by
  refine ⟨⟨⟨rfl, rfl, rfl⟩, ⟨rfl, rfl, rfl⟩, ?_, ?_, ?_, ?_, ?_, ?_⟩, ?_, ?_⟩
  · intro i j
    show star (if i = j then (1 : ℂ) else 0) = if i = j then (1 : ℂ) else 0
    split <;> simp
  · intro i j
    show star (if i = j then (1 : ℂ) else -1) = if i = j then (1 : ℂ) else -1
    split <;> simp
  · intro i j
    show (if i = j then (1 : ℂ) else 0) = if j = i then (1 : ℂ) else 0
    simp only [eq_comm]
  · intro i j
    show (if i = j then (1 : ℂ) else -1) = if j = i then (1 : ℂ) else -1
    simp only [eq_comm]
  · rintro x ⟨i, hi, hx⟩
    simp [Finset.sum_range_succ, exampleOsrcMass]
    have : i = 0 ∨ i = 1 := by omega
    rcases this with rfl | rfl
    · have := mul_self_pos.mpr hx
      nlinarith [mul_self_nonneg (x 1)]
    · have := mul_self_pos.mpr hx
      nlinarith [mul_self_nonneg (x 0)]
  · intro x
    simp [Finset.sum_range_succ, exampleOsrcStiff]
    nlinarith [mul_self_nonneg (x 0 - x 1)]
  · intro i hi
    have : i = 0 ∨ i = 1 := by omega
    rcases this with rfl | rfl
    · simp [Finset.sum_range_succ, exampleOsrcStiff, exampleOsrcMass]; norm_num
    · simp [Finset.sum_range_succ, exampleOsrcStiff, exampleOsrcMass]; norm_num
  · exact C89_default _ (by have := Real.pi_pos; positivity) (by linarith [Real.pi_pos]) 1 one_pos _ false ⟨0, by norm_num⟩

/-- Without damping the matrices can be singular: `damped_wavenumber = 1`, `theta = 0`, one term, and the eigenvalue 4. -/
theorem C89_counterexample_undamped : ∃ mass stiff, Pencil 2 mass stiff ∧ ∀ k bbox,
    osrcDtn mass stiff 1 0 k (some ⟨1, false⟩) bbox = .error .RuntimeError := by
  refine ⟨exampleOsrcMass, ⟨true, 2, 2, false, fun i j => if i = j then 4 else 0⟩, ⟨⟨rfl, rfl, rfl⟩, ⟨rfl, rfl, rfl⟩, ?_, ?_, ?_, ?_,
    C89_example.1.mass_pos, ?_⟩, ?_⟩
  · exact C89_example.1.mass_real
  · intro i j
    show star (if i = j then (4 : ℂ) else 0) = if i = j then (4 : ℂ) else 0
    split <;> simp
  · exact C89_example.1.mass_symm
  · intro i j
    show (if i = j then (4 : ℂ) else 0) = if j = i then (4 : ℂ) else 0
    simp only [eq_comm]
  · intro x
    simp [Finset.sum_range_succ]
    nlinarith [mul_self_nonneg (x 0), mul_self_nonneg (x 1)]
  · intro k bbox
    have hb : (padeCoeffs 1 0).beta 0 = 1 / 4 := by
      unfold padeCoeffs padeB
      dsimp only
      have : ((0 : ℕ) : ℂ) = 0 := Nat.cast_zero
      simp only [this]
      have e : ((0 : ℂ) + 1) * Real.pi / (2 * ((1 : ℕ) : ℂ) + 1) = ((Real.pi / 3 : ℝ) : ℂ) := by push_cast; ring
      rw [e, ← Complex.ofReal_cos, Real.cos_pi_div_three]
      simp
      norm_num
    have hinv : shiftedInverse (.sparse exampleOsrcMass) (.sparse ⟨true, 2, 2, false, fun i j => if i = j then 4 else 0⟩)
        ⟨(padeCoeffs 1 0).beta 0 / (1 : ℂ) ^ 2, true⟩ = .error .RuntimeError := by
      rw [shiftedInverse_eq (mass := exampleOsrcMass)
        (stiff := ⟨true, 2, 2, false, fun i j => if i = j then 4 else 0⟩) rfl rfl]
      have hz : toM 2 2 (shifted exampleOsrcMass ⟨true, 2, 2, false, fun i j => if i = j then 4 else 0⟩
          ⟨(padeCoeffs 1 0).beta 0 / (1 : ℂ) ^ 2, true⟩).e = 0 := by
        ext i j
        show (if (i : ℕ) = j then (1 : ℂ) else 0) + -((padeCoeffs 1 0).beta 0 / 1 ^ 2 * if (i : ℕ) = j then 4 else 0) = 0
        rw [hb]
        split <;> norm_num
      have hdet : (toM 2 2 (shifted exampleOsrcMass ⟨true, 2, 2, false, fun i j => if i = j then 4 else 0⟩
          ⟨(padeCoeffs 1 0).beta 0 / (1 : ℂ) ^ 2, true⟩).e).det = 0 := by
        rw [hz, Matrix.det_zero]
      have hg : gram (shifted exampleOsrcMass ⟨true, 2, 2, false, fun i j => if i = j then 4 else 0⟩
          ⟨(padeCoeffs 1 0).beta 0 / (1 : ℂ) ^ 2, true⟩) = .ok (shifted exampleOsrcMass
          ⟨true, 2, 2, false, fun i j => if i = j then 4 else 0⟩ ⟨(padeCoeffs 1 0).beta 0 / (1 : ℂ) ^ 2, true⟩) := rfl
      unfold mkInverse
      rw [hg]
      exact if_pos hdet
    unfold osrcDtn osrcRoot
    show (do let root ← (do
               let term ← List.foldlM (osrcStep _ _ (padeCoeffs 1 0) ⟨1, false⟩) _ [0]
               let t ← term.mul _
               Op.add _ t)
             Except.ok (Op.smul root _)) = _
    rw [List.foldlM_cons]
    unfold osrcStep
    dsimp only
    rw [hinv]
    rfl

end

end Verif.PyOp
