import Verif.Lemmas.PyDiscrete2
/-
C81-C83: the discrete operators of the Python layer.
-/
namespace Verif.PyOp
open Verif.DiscreteOp
noncomputable section

/-! ### C81: operators act as their matrices -/

theorem plain_permitted {e : Expr} (h : e.Plain) : e.Permitted := by
  unfold Expr.Plain at h
  unfold Expr.Permitted
  induction e with
  | add a b iha ihb => exact ⟨⟨fun _ hh => (by cases hh), fun _ hh => (by cases hh)⟩, iha h.2.1, ihb h.2.2⟩
  | sub a b iha ihb => exact ⟨⟨fun _ hh => (by cases hh), fun _ hh => (by cases hh)⟩, iha h.2.1, ihb h.2.2⟩
  | mul a b iha ihb => exact ⟨⟨fun _ hh => (by cases hh), fun _ hh => (by cases hh)⟩, iha h.2.1, ihb h.2.2⟩
  | neg a ih => exact ⟨⟨fun _ hh => (by cases hh), fun _ hh => (by cases hh)⟩, ih h.2⟩
  | smul c a ih => exact ⟨⟨fun _ hh => (by cases hh), fun _ hh => (by cases hh)⟩, ih h.2⟩
  | transpose a ih => exact (h.1.1 a rfl).elim
  | adjoint a ih => exact (h.1.2 a rfl).elim
  | _ => exact ⟨fun _ hh => (by cases hh), fun _ hh => (by cases hh)⟩

/-- Every expression built with `+`, `-`, factors and products from dense, sparse, nonlocal, zero, rank-one and inverse operators, with
matching shapes, evaluates to an operator that acts as the matrix given by matrix algebra. -/
theorem C81_expressions (e : Expr) (hw : e.Wellformed) (hp : e.Plain) {r c : Nat} (M : Matrix (Fin r) (Fin c) ℂ)
    (h : Denotes e r c M) : ∃ op, e.eval = .ok op ∧ Acts op M := by
  obtain ⟨op, h1, h2⟩ := denotes_rep h hw (plain_permitted hp)
  exact ⟨op, h1, h2.acts⟩

/-- If the type of the operator is real, so is the matrix. -/
theorem C81_types (e : Expr) (hw : e.Wellformed) {r c : Nat} (M : Matrix (Fin r) (Fin c) ℂ) (h : Denotes e r c M) (op : Op)
    (he : e.eval = .ok op) (hc : op.complex = false) : ∀ i j, star (M i j) = M i j :=
  eval_real h hw he hc

/-- `as_matrix` returns the matrix. -/
theorem C81_as_matrix (e : Expr) (hw : e.Wellformed) (hp : e.Permitted) {r c : Nat} (hc : 1 ≤ c) (M : Matrix (Fin r) (Fin c) ℂ)
    (h : Denotes e r c M) : ∃ op y, e.eval = .ok op ∧ asMatrix op = .ok y ∧ y.rows = r ∧ y.cols = c ∧
      ∀ (i : Fin r) (j : Fin c), y.e i j = M i j := by
  obtain ⟨op, h1, h2⟩ := denotes_rep h hw hp
  refine ⟨op, ?_⟩
  have gen : ∃ y, op.apply (eye op.shape.2) = .ok y ∧ y.rows = r ∧ y.cols = c ∧ ∀ (i : Fin r) (j : Fin c), y.e i j = M i j := by
    rw [h2.shape]
    obtain ⟨y, hy1, hy2, hy3, hy4, hy5⟩ := (h2.acts.2 (eye c) rfl hc (by simp [eye])).1
    refine ⟨y, hy1, hy3, hy4, fun i j => ?_⟩
    have := congrFun (hy5 j j.isLt) i
    simp only [eye, Matrix.mulVec, dotProduct] at this
    rw [this]
    rw [Finset.sum_eq_single j]
    · simp
    · intro b _ hb
      rw [if_neg (fun hh => hb (Fin.ext hh)), mul_zero]
    · simp
  unfold asMatrix
  split
  · cases h2 with
    | dense A _ => exact ⟨_, h1, rfl, rfl, rfl, fun i j => rfl⟩
  · cases h2 with
    | sparse A _ => exact ⟨_, h1, rfl, rfl, rfl, fun i j => rfl⟩
  · obtain ⟨y, hy⟩ := gen
    exact ⟨y, h1, hy⟩

/-- Products of operators whose shapes do not match raise an exception. -/
theorem C81_product_mismatch (a b : Op) (h : a.shape.2 ≠ b.shape.1) : a.mul b = .error .ValueError := by
  unfold Op.mul
  split
  · rw [dot_error (by exact fun hh => h hh.symm)]; rfl
  · rw [dot_error (by exact fun hh => h hh.symm)]; rfl
  · rw [if_pos h]

/-- Sums of operators with different shapes raise an exception, unless both are dense and one has a single row or column.
Missing: that case, which NumPy broadcasts (see the counterexample). -/
theorem C81_sum_mismatch_partial (a b : Op) (h : a.shape ≠ b.shape)
    (hd : ∀ A B, a = .dense A → b = .dense B → A.rows ≠ 1 ∧ A.cols ≠ 1 ∧ B.rows ≠ 1 ∧ B.cols ≠ 1) :
    a.add b = .error .ValueError ∧ a.sub b = .error .ValueError := by
  have key : ∀ a b : Op, a.shape ≠ b.shape →
      (∀ A B, a = .dense A → b = .dense B → A.rows ≠ 1 ∧ A.cols ≠ 1 ∧ B.rows ≠ 1 ∧ B.cols ≠ 1) → a.add b = .error .ValueError := by
    intro a b h hd
    unfold Op.add
    split
    · rename_i A B
      obtain ⟨d1, d2, d3, d4⟩ := hd A B rfl rfl
      have : A.add B = .error .ValueError := by
        unfold Arr.add broadcast
        rw [if_neg d1, if_neg d2, if_neg d3, if_neg d4]
        simp only [Op.shape, ne_eq, Prod.mk.injEq, not_and_or] at h
        rcases h with h | h
        · rw [if_neg h]
        · rw [if_neg h]
          split <;> simp_all
      rw [this]; rfl
    · rw [if_pos (by exact h)]
    · rw [if_pos h]
  refine ⟨key a b h hd, key a b.neg ?_ ?_⟩
  · have : b.neg.shape = b.shape := by
      cases b <;> rfl
    rwa [this]
  · intro A B hA hB
    cases b with
    | dense B' =>
      obtain ⟨d1, d2, d3, d4⟩ := hd A B' hA rfl
      cases hB
      exact ⟨d1, d2, d3, d4⟩
    | _ => cases hB

/-- Applying an operator to an array with the wrong number of rows raises an exception, unless it is a zero operator applied to one
vector.  Missing: that case (see the counterexample). -/
theorem C81_size_partial (e : Expr) (hw : e.Wellformed) (hp : e.Permitted) {r c : Nat} (M : Matrix (Fin r) (Fin c) ℂ)
    (h : Denotes e r c M) (op : Op) (he : e.eval = .ok op) (x : Arr) (hx : x.rows ≠ c) (hc : 1 ≤ x.cols)
    (hz : ∀ m n, op = .zero m n → x.cols ≠ 1) : ∃ exn, op.apply x = .error exn := by
  obtain ⟨op', h1, h2⟩ := denotes_rep h hw hp
  rw [he] at h1
  cases h1
  refine apply_error op x (by rw [h2.shape]; exact hx) ?_ hc hz
  intro a b hab
  subst hab
  cases h2 with
  | sum ha hb => rw [ha.shape, hb.shape]

/-- The sum of a dense `1 × 2` and a dense `2 × 2` operator is accepted. -/
theorem C81_counterexample_broadcast : ∃ A B : Arr, (Op.dense A).shape = (1, 2) ∧ (Op.dense B).shape = (2, 2) ∧
    ∃ C, (Op.dense A).add (.dense B) = .ok (.dense C) ∧ C.rows = 2 ∧ C.cols = 2 ∧ ∀ i j, C.e i j = 3 :=
  ⟨⟨true, 1, 2, false, fun _ _ => 1⟩, ⟨true, 2, 2, false, fun _ _ => 2⟩, rfl, rfl, _, rfl, rfl, rfl, fun i j => by norm_num⟩

/-- A zero operator can be applied to vectors of any length. -/
theorem C81_counterexample_zero (x : Arr) (hx : x.cols = 1) : ∃ y, (Op.zero 2 3).apply x = .ok y ∧ y.rows = 2 := by
  unfold Op.apply
  rw [if_pos hx]
  exact ⟨_, rfl, rfl⟩

/-- The inverse of a `1 × 1` sparse operator can be constructed but not applied. -/
theorem C81_counterexample_one : ∃ A op, mkInverse A = .ok op ∧ op.shape = (1, 1) ∧
    ∀ x : Arr, x.rows = 1 → x.cols = 1 → op.apply x = .error .ValueError := by
  refine ⟨⟨true, 1, 1, false, fun _ _ => 1⟩, _, (mkInverse_eq _).1 ?_, rfl, ?_⟩
  · refine (fullRank_tall (le_refl _)).mpr ?_
    intro u v huv
    funext i
    have := congrFun huv i
    simpa [Matrix.mulVec, dotProduct, toM, Fin.fin_one_eq_zero] using this
  · intro x hr hx
    unfold Op.apply
    rw [if_pos hx]
    show solve _ x = _
    have key : ∀ z : Arr, z.rows = 1 → solveReal ⟨true, 1, 1, false, fun _ _ => 1⟩ z = .error .ValueError := by
      intro z hz
      unfold solveReal
      rw [if_pos (Or.inr hz)]
    unfold solve
    split
    · rw [key x.real hr, error_bind]
    · exact key x hr

/-! ### C82: transposes and adjoints -/

/-- Every permitted expression with transposes and adjoints acts as its matrix.  Missing: transposes and adjoints of zero operators,
adjoints of operators with complex factors and of transposed nonlocal operators (see the counterexamples). -/
theorem C82_expressions_partial (e : Expr) (hw : e.Wellformed) (hp : e.Permitted) {r c : Nat} (M : Matrix (Fin r) (Fin c) ℂ)
    (h : Denotes e r c M) : ∃ op, e.eval = .ok op ∧ Acts op M := by
  obtain ⟨op, h1, h2⟩ := denotes_rep h hw hp
  exact ⟨op, h1, h2.acts⟩

/-- `rmatvec` multiplies one-dimensional arrays by the adjoint for expressions without sparse and nonlocal operators, complex dense
operators and complex factors.  Missing: those (see the counterexamples) and arrays with one column. -/
theorem C82_rmatvec_partial (e : Expr) (hw : e.Wellformed) (hp : e.RMatvecAllowed) {r c : Nat} (M : Matrix (Fin r) (Fin c) ℂ)
    (h : Denotes e r c M) : ∃ op, e.eval = .ok op ∧ ∀ x : Arr, x.rows = r → x.cols = 1 → x.twoD = false →
      ∃ y, op.rmatvec x = .ok y ∧ IsProduct M.conjTranspose x y := by
  have hpl : e.Plain := by
    clear h hw
    unfold Expr.RMatvecAllowed at hp
    unfold Expr.Plain
    induction e with
    | add a b iha ihb => exact ⟨hp.1.2.2.2.2, iha hp.2.1, ihb hp.2.2⟩
    | sub a b iha ihb => exact ⟨hp.1.2.2.2.2, iha hp.2.1, ihb hp.2.2⟩
    | mul a b iha ihb => exact ⟨hp.1.2.2.2.2, iha hp.2.1, ihb hp.2.2⟩
    | neg a ih => exact ⟨hp.1.2.2.2.2, ih hp.2⟩
    | smul c a ih => exact ⟨hp.1.2.2.2.2, ih hp.2⟩
    | transpose a ih => exact (hp.1.2.2.2.2.1 a rfl).elim
    | adjoint a ih => exact (hp.1.2.2.2.2.2 a rfl).elim
    | _ => exact hp.2.2.2.2
  obtain ⟨op, h1, h2⟩ := denotes_rep h hw (plain_permitted hpl)
  exact ⟨op, h1, fun x hr hx ht => h2.rmatvec (eval_R e hp h1) x hr hx ht⟩

/-- Wrappers of C++ operators: shape and product in each mode are those of the transformed matrix, and so is `as_matrix`. -/
theorem C82_wrapper (b : Backend) :
    b.shape = (modeRows b.mode b.rows b.cols, modeCols b.mode b.rows b.cols) ∧
    b.asMatrix.rows = b.shape.1 ∧ b.asMatrix.cols = b.shape.2 ∧ (∀ i j, b.asMatrix.e i j = modeEntry b.mode b.e i j) ∧
    ∀ x : Arr, x.rows = b.shape.2 → ∃ y, b.matvec x = .ok y ∧
      IsProduct (Matrix.of fun (i : Fin b.shape.1) (j : Fin b.shape.2) => modeEntry b.mode b.e i j) x y := by
  refine ⟨?_, ?_, ?_, ?_, fun x hx => backend_ok b hx⟩
  all_goals
    obtain ⟨z, m, n, e, t⟩ := b
    cases t <;> simp [Backend.shape, Backend.asMatrix, modeRows, modeCols, modeEntry, Arr.transpose, Arr.conjugate]

/-- Transposing, forming the adjoint and conjugating a wrapper transforms its matrix accordingly, except for the adjoint of a
transposed wrapper and the conjugate of a wrapper with real entries.  Missing: these (see the counterexamples). -/
theorem C82_wrapper_modes_partial (b : Backend) :
    (∀ i j, b.transpose.asMatrix.e i j = b.asMatrix.e j i) ∧
    (b.mode ≠ .TRANSPOSE → ∀ i j, b.adjoint.asMatrix.e i j = star (b.asMatrix.e j i)) ∧
    (b.complex = true → ∀ i j, b.conjugate.asMatrix.e i j = star (b.asMatrix.e i j)) := by
  obtain ⟨z, m, n, e, t⟩ := b
  refine ⟨?_, ?_, ?_⟩
  · intro i j
    cases t <;> simp [Backend.transpose, Backend.asMatrix, computeTransposeMode, Arr.transpose, Arr.conjugate]
  · intro ht i j
    cases t <;> first
      | exact (ht rfl).elim
      | simp [Backend.adjoint, Backend.asMatrix, computeTransposeMode, Arr.transpose, Arr.conjugate]
  · intro hz i j
    dsimp only at hz
    subst hz
    cases t <;> simp [Backend.conjugate, Backend.asMatrix, computeTransposeMode, Arr.transpose, Arr.conjugate]

/-- The adjoint of a transposed wrapper is the transposed wrapper itself: wrong entries and, if not square, the wrong shape. -/
theorem C82_counterexample_transposed (z : Bool) (m n : Nat) (e : Nat → Nat → ℂ) :
    (Backend.mk z m n e .NO_TRANSPOSE).transpose.adjoint = (Backend.mk z m n e .NO_TRANSPOSE).transpose ∧
    (Backend.mk z m n e .NO_TRANSPOSE).transpose.adjoint.shape = (n, m) := by
  constructor
  · rfl
  · simp [Backend.transpose, Backend.adjoint, Backend.shape, computeTransposeMode]

/-- The conjugate of a wrapper with real entries is its transpose. -/
theorem C82_counterexample_conjugate (m n : Nat) (e : Nat → Nat → ℂ) (he : ∀ i j, star (e i j) = e i j) :
    (Backend.mk false m n e .NO_TRANSPOSE).conjugate.shape = (n, m) ∧
    ∀ i j, (Backend.mk false m n e .NO_TRANSPOSE).conjugate.asMatrix.e i j = e j i := by
  constructor
  · simp [Backend.conjugate, Backend.shape, computeTransposeMode]
  · intro i j
    exact he j i

/-- The adjoint of `1j` times a nonlocal operator with the entries 1 acts as multiplication by `1j`, not by `-1j`. -/
theorem C82_counterexample_scaled : ∃ e : Expr, e.Wellformed ∧ ∃ M : Matrix (Fin 1) (Fin 1) ℂ, Denotes (.adjoint e) 1 1 M ∧
    ∃ op, (Expr.adjoint e).eval = .ok op ∧ ∃ y, op.apply ⟨false, 1, 1, false, fun _ _ => 1⟩ = .ok y ∧
      y.e 0 0 = Complex.I ∧ M 0 0 = -Complex.I := by
  refine ⟨.smul ⟨Complex.I, true⟩ (.nonlocal true 1 1 fun _ _ => 1), ⟨by simp, by simp [Expr.Wellformed]⟩, _,
    .adjoint (.smul _ (.nonlocal _ _ _ _)), _, rfl, ?_⟩
  simp only [Op.apply, if_true]
  refine ⟨_, rfl, ?_, ?_⟩
  · simp [Arr.smul, Backend.adjoint, Backend.shape, computeTransposeMode, modeEntry]
  · simp [Matrix.conjTranspose_apply]

/-- Zero operators cannot be transposed, and hence neither can sums containing one. -/
theorem C82_counterexample_zero (a : Expr) (m n : Nat) : (∃ exn, (Expr.transpose (.add a (.zero m n))).eval = .error exn) ∧
    (∃ exn, (Expr.adjoint (.add a (.zero m n))).eval = .error exn) := by
  have key : ∀ u : Op, (∃ exn, u.add (.zero m n) = .error exn) ∨ u.add (.zero m n) = .ok (.sum u (.zero m n)) := by
    intro u
    have : u.add (.zero m n) = if u.shape ≠ (Op.zero m n).shape then .error .ValueError else .ok (.sum u (.zero m n)) := by
      cases u <;> rfl
    rw [this]
    split
    · exact Or.inl ⟨_, rfl⟩
    · exact Or.inr rfl
  simp only [Expr.eval]
  cases ha : a.eval with
  | error e => exact ⟨⟨e, rfl⟩, ⟨e, rfl⟩⟩
  | ok u =>
    rw [ok_bind, ok_bind]
    rcases key u with ⟨exn, h⟩ | h
    · rw [h]; exact ⟨⟨exn, rfl⟩, ⟨exn, rfl⟩⟩
    · rw [h, ok_bind, ok_bind]
      constructor
      · rw [Op.transpose]
        cases u.transpose with
        | error e => exact ⟨e, rfl⟩
        | ok v => exact ⟨_, rfl⟩
      · rw [Op.adjoint]
        cases u.adjoint with
        | error e => exact ⟨e, rfl⟩
        | ok v => exact ⟨_, rfl⟩

/-- `rmatvec` of sparse and nonlocal operators fails. -/
theorem C82_counterexample_rmatvec (A : Arr) (b : Backend) (x : Arr) (hx : x.cols = 1) :
    (x.rows = A.rows → (Op.sparse A).rmatvec x = .error .AttributeError) ∧
    (x.rows = b.shape.1 → (Op.nonlocal b).rmatvec x = .error .AttributeError) := by
  constructor
  · intro h
    unfold Op.rmatvec wrapVec
    rw [if_pos ⟨h, hx⟩]; rfl
  · intro h
    unfold Op.rmatvec wrapVec
    rw [if_pos ⟨h, hx⟩]; rfl

/-- `rmatvec` of a dense operator multiplies by the transpose: for the `1 × 1` matrix `1j` it returns `1j` instead of `-1j`. -/
theorem C82_counterexample_dense : ∃ y,
    (Op.dense ⟨true, 1, 1, true, fun _ _ => Complex.I⟩).rmatvec ⟨false, 1, 1, false, fun _ _ => 1⟩ = .ok y ∧
    y.e 0 0 = Complex.I := by
  refine ⟨_, rfl, ?_⟩
  simp

/-! ### C83: inverses of sparse operators -/

/-- The inverse of a sparse operator can be constructed exactly for matrices of full rank. -/
theorem C83_constructible (A : Arr) : (∃ op, mkInverse A = .ok op) ↔ FullRank A := by
  constructor
  · rintro ⟨op, h⟩
    by_contra hn
    rw [(mkInverse_eq A).2 hn] at h
    cases h
  · exact fun h => ⟨_, (mkInverse_eq A).1 h⟩

/-- Applied to a right-hand side `b` with at least two entries, real or complex, it returns the solution of `A y = b` if there are at
least as many columns as rows, and in general the solution of the least-squares problem; among all solutions it is the smallest. -/
theorem C83_solution (A : Arr) (op : Op) (h : mkInverse A = .ok op) (h1 : A.rows ≠ 1) (b : Arr) (hr : b.rows = A.rows)
    (hb : b.cols = 1) : ∃ y, op.apply b = .ok y ∧ y.twoD = b.twoD ∧ y.rows = A.cols ∧ y.cols = 1 ∧
      let M : Matrix (Fin A.rows) (Fin A.cols) ℂ := Matrix.of fun i j => A.e i j
      let rhs : Fin A.rows → ℂ := fun i => b.e i 0
      let sol : Fin A.cols → ℂ := fun i => y.e i 0
      (A.rows ≤ A.cols → M.mulVec sol = rhs) ∧
      (∀ z, energy (M.mulVec sol - rhs) ≤ energy (M.mulVec z - rhs)) ∧
      (∀ z, M.mulVec z = M.mulVec sol → energy sol ≤ energy z) := by
  have hf : FullRank A := (C83_constructible A).mp ⟨op, h⟩
  rw [(mkInverse_eq A).1 hf] at h
  cases h
  obtain ⟨X, hX, -, hX2⟩ := mp_exists A hf
  obtain ⟨y, hy1, hy2⟩ := solve_ok A hf h1 hX hr hb
  refine ⟨y, by unfold Op.apply; rw [if_pos hb]; exact hy1, hy2.1, hy2.2.1, hy2.2.2.1.trans hb, ?_⟩
  have hs := hy2.2.2.2 0 (by omega)
  dsimp only
  rw [hs]
  refine ⟨fun hle => ?_, fun z => least_squares hX _ z, fun z hz => least_norm hX _ z hz⟩
  rw [Matrix.mulVec_mulVec]
  have := hX2 hle
  rw [show (Matrix.of fun (i : Fin A.rows) (j : Fin A.cols) => A.e i j) * X = 1 from this, Matrix.one_mulVec]

/-! ### The hypotheses are met -/

/-- A diagonal mass matrix. -/
def exampleMass : Arr := ⟨true, 2, 2, false, fun i j => if i = j then 2 else 0⟩

theorem exampleMass_fullRank : FullRank exampleMass := by
  refine (fullRank_tall (le_refl _)).mpr ?_
  have key : ∀ u v : Fin 2 → ℂ, (toM 2 2 exampleMass.e).mulVec u = (toM 2 2 exampleMass.e).mulVec v → u = v := by
    intro u v huv
    have h0 := congrFun huv 0
    have h1 := congrFun huv 1
    simp [Matrix.mulVec, dotProduct, toM, exampleMass, Fin.sum_univ_two] at h0 h1
    funext i
    fin_cases i
    · exact h0
    · exact h1
  exact fun u v huv => key u v huv

/-- A nonlocal operator times the inverse of the mass matrix plus twice a dense operator plus a zero operator. -/
def examplePlain : Expr := .add (.add (.mul (.nonlocal true 2 2 fun i j => if i = j then Complex.I else 1) (.inverse exampleMass))
  (.smul ⟨2, false⟩ (.dense ⟨true, 2, 2, true, fun i j => if i = j then 1 else Complex.I⟩))) (.zero 2 2)

/-- The adjoint of such an operator without the zero operator. -/
def exampleAdjoint : Expr := .adjoint (.add (.mul (.nonlocal true 2 2 fun i j => if i = j then Complex.I else 1)
  (.inverse exampleMass)) (.smul ⟨2, false⟩ (.dense ⟨true, 2, 2, true, fun i j => if i = j then 1 else Complex.I⟩)))

/-- The inverse of a mass matrix times a real dense operator plus a zero operator. -/
def exampleR : Expr := .mul (.inverse exampleMass) (.add (.dense ⟨true, 2, 2, false, fun i j => if i = j then 3 else 1⟩) (.zero 2 2))

theorem example_expressions :
    (examplePlain.Wellformed ∧ examplePlain.Plain ∧ ∃ M : Matrix (Fin 2) (Fin 2) ℂ, Denotes examplePlain 2 2 M) ∧
    (exampleAdjoint.Wellformed ∧ exampleAdjoint.Permitted ∧ ∃ M : Matrix (Fin 2) (Fin 2) ℂ, Denotes exampleAdjoint 2 2 M) ∧
    (exampleR.Wellformed ∧ exampleR.RMatvecAllowed ∧ ∃ M : Matrix (Fin 2) (Fin 2) ℂ, Denotes exampleR 2 2 M) := by
  obtain ⟨X, hX, -, -⟩ := mp_exists exampleMass exampleMass_fullRank
  have hI : Denotes (.inverse exampleMass) 2 2 X := Denotes.inverse exampleMass X hX
  have hm : (Expr.inverse exampleMass).Wellformed := by
    refine ⟨⟨rfl, fun _ i j => ?_⟩, exampleMass_fullRank, by decide, by decide⟩
    simp only [exampleMass]
    split
    · exact Complex.conj_ofReal 2
    · exact star_zero _
  refine ⟨⟨?_, ?_, ?_⟩, ⟨?_, ?_, ?_⟩, ⟨?_, ?_, ?_⟩⟩
  · exact ⟨⟨⟨fun h => (by cases h), hm⟩, fun _ => (by simp), rfl, fun h => (by cases h)⟩, trivial⟩
  · simp [examplePlain, Expr.Plain, Expr.Every]
  · exact ⟨_, .add (.add (.mul (.nonlocal _ _ _ _) hI) (.smul _ (.dense (Arr.mk true 2 2 true _)))) (.zero _ _)⟩
  · exact ⟨⟨fun h => (by cases h), hm⟩, fun _ => (by simp), rfl, fun h => (by cases h)⟩
  · simp [exampleAdjoint, Expr.Permitted, Expr.ZeroFree, Expr.RealScalars, Expr.NonlocalUntransposed, Expr.Every]
    exact Complex.conj_ofReal 2
  · exact ⟨_, .adjoint (.add (.mul (.nonlocal _ _ _ _) hI) (.smul _ (.dense (Arr.mk true 2 2 true _))))⟩
  · refine ⟨hm, ⟨rfl, fun _ i j => ?_⟩, trivial⟩
    dsimp only
    split
    · exact Complex.conj_ofReal 3
    · exact Complex.conj_ofReal 1
  · simp [exampleR, Expr.RMatvecAllowed, Expr.Every]
    intro i j
    split
    · exact Complex.conj_ofReal 3
    · exact Complex.conj_ofReal 1
  · exact ⟨_, .mul hI (.add (.dense (Arr.mk true 2 2 false _)) (.zero _ _))⟩

end

end Verif.PyOp
