import Verif.Spec.DiscreteOperator
import Verif.Props.HMatrix
import Mathlib.Tactic.Ring
import Mathlib.Tactic.NormNum
import Mathlib.Analysis.Complex.Basic
/-
Properties C48 and C51: discrete boundary operators.
-/
set_option linter.unusedSectionVars false
namespace Verif.DiscreteOp
open Verif.HMat Finset

/-! ### C51: the base class -/

section base
variable {K : Type}

theorem unit_step [Zero K] [One K] (n i : Nat) (u : Vec K)
    (hu : u = if i = 0 then ⟨n, fun _ => 0⟩ else unitVec n (i - 1)) :
    (⟨u.len, Function.update (if i > 0 then Function.update u.e (i - 1) 0 else u.e) i 1⟩ : Vec K) =
      unitVec n i := by
  subst hu
  by_cases h : i = 0
  · subst h
    simp only [if_pos, unitVec]
    congr 1
    funext k
    simp [Function.update_apply]
  · have : i > 0 := Nat.pos_of_ne_zero h
    simp only [if_neg h, if_pos this, unitVec]
    congr 1
    funext k
    simp only [Function.update_apply]
    by_cases h1 : k = i
    · simp [h1]
    · by_cases h2 : k = i - 1
      · simp [h1, h2]
      · simp [h1, h2]

theorem asMatrixLoop_spec [Zero K] [One K] (op : DOp K) : ∀ (is : List Nat) (s : Nat) (u : Vec K)
    (r : Mx (Option K)) (out : Option (Mx (Option K))), is = List.range' s is.length →
    (u = if s = 0 then ⟨op.columnCount, fun _ => 0⟩ else unitVec op.columnCount (s - 1)) →
    AsMatrixLoop op is u r out → ∀ R, out = some R →
    R.rows = r.rows ∧ R.cols = r.cols ∧ (∀ j, j ∉ is → ∀ i, R.e i j = r.e i j) ∧
    ∀ j ∈ is, ∃ (g : Nat → Option K) (c : Vec (Option K)),
      op.run .NO_TRANSPOSE (unitVec op.columnCount j) ⟨r.rows, g⟩ 1 0 (some c) ∧ c.len = r.rows ∧
      ∀ i, R.e i j = c.e i := by
  intro is
  induction is with
  | nil =>
    intro s u r out _ _ h R hR
    cases h
    cases hR
    exact ⟨rfl, rfl, fun _ _ _ => rfl, by simp⟩
  | cons i is ih =>
    intro s u r out his hu h R hR
    simp only [List.length_cons, List.range'_succ, List.cons.injEq] at his
    obtain ⟨rfl, his⟩ := his
    cases h with
    | fails => cases hR
    | mismatch => cases hR
    | step _ _ _ u' _ r' g c _ hu' hrun hc rest =>
      have e := unit_step op.columnCount i u hu
      rw [← hu'] at e
      subst e
      obtain ⟨h1, h2, h3, h4⟩ := ih (i + 1) _ r' out his (by simp) rest R hR
      unfold setCol at hc
      split at hc
      · rename_i hl
        cases hc
        have hni : i ∉ is := by
          rw [his]; simp [List.mem_range']; omega
        refine ⟨h1, h2, fun j hj k => ?_, fun j hj => ?_⟩
        · simp only [List.mem_cons, not_or] at hj
          rw [h3 j hj.2]
          simp [hj.1]
        · by_cases hji : j = i
          · subst hji
            exact ⟨g, c, hrun, hl, fun k => by rw [h3 j hni]; simp⟩
          · exact h4 j (by simpa [hji] using hj)
      · cases hc

/-- **C51** For every discrete operator: if `asMatrix()` returns a matrix, it has `rowCount()` rows and
`columnCount()` columns, and its `j`-th column is a result of applying the operator to the `j`-th unit
vector. -/
theorem C51_columns [Zero K] [One K] (op : DOp K) (R : Mx (Option K)) (h : AsMatrixRun op (some R)) :
    R.rows = op.rowCount ∧ R.cols = op.columnCount ∧
    ∀ j < op.columnCount, ∃ (g : Nat → Option K) (c : Vec (Option K)),
      op.run .NO_TRANSPOSE (unitVec op.columnCount j) ⟨op.rowCount, g⟩ 1 0 (some c) ∧
      ∀ i < op.rowCount, R.e i j = c.e i := by
  obtain ⟨h1, h2, _, h4⟩ := asMatrixLoop_spec op _ 0 _ _ _ (by simp [List.range_eq_range']) (by simp) h R rfl
  refine ⟨h1, h2, fun j hj => ?_⟩
  obtain ⟨g, c, hc, _, hr⟩ := h4 j (by simpa using hj)
  exact ⟨g, c, hc, fun i _ => hr i⟩

/-- **C51** For every discrete operator that computes a linear map `F` (that is, `apply` with
`alpha = 1`, `beta = 0` of any `x` yields `F x`, whatever the target vector contained): `asMatrix()`
cannot fail, and the product of `asMatrix()` with any vector `x` is `F x`. -/
theorem C51_apply_is_asMatrix [CommRing K] (op : DOp K)
    (F : (Fin op.columnCount → K) →ₗ[K] (Fin op.rowCount → K))
    (hF : ∀ (x : Vec K) (g : Nat → Option K), x.len = op.columnCount →
      (∃ out, op.run .NO_TRANSPOSE x ⟨op.rowCount, g⟩ 1 0 out) ∧
      ∀ out, op.run .NO_TRANSPOSE x ⟨op.rowCount, g⟩ 1 0 out → ∃ c : Vec (Option K), out = some c ∧
        c.len = op.rowCount ∧ ∀ i : Fin op.rowCount, c.e i = some (F (fun k => x.e k) i)) :
    (∃ out, AsMatrixRun op out) ∧ ∀ out, AsMatrixRun op out → ∃ R : Mx (Option K), out = some R ∧
      R.rows = op.rowCount ∧ R.cols = op.columnCount ∧
      ∃ A : Nat → Nat → K, (∀ i < R.rows, ∀ j < R.cols, R.e i j = some (A i j)) ∧
        ∀ (x : Fin op.columnCount → K) (i : Fin op.rowCount), ∑ k : Fin op.columnCount, A i k * x k = F x i := by
  have hsome : ∀ (is : List Nat) (u : Vec K) (r : Mx (Option K)), u.len = op.columnCount →
      r.rows = op.rowCount → (∃ out, AsMatrixLoop op is u r out) ∧
      ∀ out, AsMatrixLoop op is u r out → ∃ R, out = some R := by
    intro is
    induction is with
    | nil => intro u r _ _; exact ⟨⟨_, .done u r⟩, fun out h => by cases h; exact ⟨_, rfl⟩⟩
    | cons i is ih =>
      intro u r hu hr
      obtain ⟨v, hv⟩ : ∃ v : Vec K, v = ⟨u.len, Function.update
        (if i > 0 then Function.update u.e (i - 1) 0 else u.e) i 1⟩ := ⟨_, rfl⟩
      have hvl : v.len = op.columnCount := by rw [hv]; exact hu
      constructor
      · obtain ⟨o, ho⟩ := (hF v (fun _ => none) hvl).1
        obtain ⟨c, rfl, hc, _⟩ := (hF v _ hvl).2 o ho
        rw [← hr] at ho
        have hs : setCol r i c = some { r with e := fun a k => if k = i then c.e a else r.e a k } := by
          simp [setCol, hc, hr]
        obtain ⟨out, hout⟩ := (ih v { r with e := fun a k => if k = i then c.e a else r.e a k } hvl hr).1
        exact ⟨out, .step i is u v r _ _ c out hv ho hs hout⟩
      · intro out h
        cases h with
        | fails _ _ _ u' _ g hu' hrun =>
          rw [← hv] at hu'
          subst hu'
          rw [hr] at hrun
          obtain ⟨c, h0, _⟩ := (hF _ g hvl).2 none hrun
          cases h0
        | mismatch _ _ _ u' _ g c hu' hrun hc =>
          rw [← hv] at hu'
          subst hu'
          rw [hr] at hrun
          obtain ⟨c', h0, hl, _⟩ := (hF _ g hvl).2 _ hrun
          cases h0
          simp [setCol, hl, hr] at hc
        | step _ _ _ u' _ r' g c _ hu' hrun hc rest =>
          refine (ih u' r' (by rw [hu']; exact hu) ?_).2 out rest
          unfold setCol at hc
          split at hc
          · cases hc; exact hr
          · cases hc
  refine ⟨(hsome _ _ _ rfl rfl).1, fun out h => ?_⟩
  obtain ⟨R, rfl⟩ := (hsome _ _ _ rfl rfl).2 out h
  obtain ⟨h1, h2, h3⟩ := C51_columns op R h
  refine ⟨R, rfl, h1, h2, fun i j => (R.e i j).getD 0, fun i hi j hj => ?_, fun x i => ?_⟩
  · rw [h1] at hi
    rw [h2] at hj
    obtain ⟨g, c, hc, hR⟩ := h3 j hj
    obtain ⟨c', h0, _, hv⟩ := (hF _ g rfl).2 _ hc
    cases h0
    simp only [hR i hi, hv ⟨i, hi⟩, Option.getD_some]
  · have key : ∀ k : Fin op.columnCount, (R.e i k).getD 0 = F (Pi.single k 1) i := by
      intro k
      obtain ⟨g, c, hc, hR⟩ := h3 k k.2
      obtain ⟨c', h0, _, hv⟩ := (hF _ g rfl).2 _ hc
      cases h0
      rw [hR i i.2, hv i, Option.getD_some]
      have : (fun k_1 : Fin op.columnCount => (unitVec op.columnCount k : Vec K).e k_1) = Pi.single k 1 := by
        funext l
        simp [unitVec, Pi.single_apply, Fin.ext_iff]
      rw [this]
    simp only [key]
    conv_rhs => rw [LinearMap.pi_apply_eq_sum_univ F x]
    simp only [Finset.sum_apply, Pi.smul_apply, smul_eq_mul]
    refine Finset.sum_congr rfl fun k _ => ?_
    rw [mul_comm]
    have : (Pi.single k 1 : Fin op.columnCount → K) = fun j => if k = j then 1 else 0 := by
      funext l
      simp [Pi.single_apply, eq_comm]
    rw [this]

/-- **C51** `apply` on matrices throws `invalid_argument` exactly if the number of rows of `x_in` is not
that of the columns of `op(M)`, the number of rows of `y_inout` is not that of the rows of `op(M)`, or
their numbers of columns differ. -/
theorem C51_dimension_checks (op : DOp K) (t : TranspositionMode) (X : Mx K) (Y : Mx (Option K)) (alpha beta : K)
    (out : Outcome K) (h : ApplyRun op t X Y alpha beta out) :
    out = .invalidArgument ↔ X.rows ≠ modeCols t op.rowCount op.columnCount ∨
      Y.rows ≠ modeRows t op.rowCount op.columnCount ∨ X.cols ≠ Y.cols := by
  have e1 : (if transposedMode t then op.rowCount else op.columnCount) =
      modeCols t op.rowCount op.columnCount := by cases t <;> rfl
  have e2 : (if transposedMode t then op.columnCount else op.rowCount) =
      modeRows t op.rowCount op.columnCount := by cases t <;> rfl
  have hl : ∀ (is : List Nat) (Y : Mx (Option K)) (out : Outcome K), ApplyLoop op t X alpha beta is Y out →
      out ≠ .invalidArgument := by
    intro is Y out h
    induction h with
    | done => simp
    | fails => simp
    | step _ _ _ _ _ _ _ ih => exact ih
  unfold ApplyRun at h
  rw [e1, e2] at h
  split at h
  · rename_i c; simp [h, c]
  · split at h
    · rename_i c; simp [h, c]
    · split at h
      · rename_i c; simp [h, c]
      · rename_i c1 c2 c3
        have := hl _ _ _ h
        simp only [not_not] at c1 c2 c3
        simp [c1, c2, c3, this]

theorem applyLoop_spec [CommRing K] [StarRing K] (op : DOp K) (M : Nat → Nat → K) (hop : Implements op M)
    (t : TranspositionMode) (X : Mx K) (alpha beta : K)
    (hX : X.rows = modeCols t op.rowCount op.columnCount) : ∀ (is : List Nat), is.Nodup → ∀ (Y : Mx (Option K)),
    Y.rows = modeRows t op.rowCount op.columnCount →
    (beta ≠ 0 → ∀ i j, i < Y.rows → j ∈ is → (Y.e i j).isSome = true) →
    (∃ out, ApplyLoop op t X alpha beta is Y out) ∧
    ∀ out, ApplyLoop op t X alpha beta is Y out → ∃ Y' : Mx (Option K), out = .result Y' ∧ Y'.rows = Y.rows ∧
      Y'.cols = Y.cols ∧ (∀ j, j ∉ is → ∀ i, Y'.e i j = Y.e i j) ∧
      ∀ i j, i < Y.rows → j ∈ is → Y'.e i j = some (beta * (Y.e i j).getD 0 +
        alpha * ∑ k ∈ range X.rows, modeEntry t M i k * X.e k j) := by
  intro is
  induction is with
  | nil =>
    intro _ Y _ _
    exact ⟨⟨_, .done Y⟩, fun out h => by cases h; exact ⟨Y, rfl, rfl, rfl, fun _ _ _ => rfl, by simp⟩⟩
  | cons j is ih =>
    intro hnd Y hY hdef
    rw [List.nodup_cons] at hnd
    have H := hop t (col X j) (col Y j) alpha beta hX hY (fun hb i hi => hdef hb i j hi (by simp))
    have hdef' : ∀ y : Vec (Option K), beta ≠ 0 → ∀ i k, i < Y.rows → k ∈ is →
        (({ Y with e := fun r k => if k = j then y.e r else Y.e r k } : Mx (Option K)).e i k).isSome = true := by
      intro y hb i k hi hk
      have : k ≠ j := fun h => hnd.1 (h ▸ hk)
      simp [this, hdef hb i k hi (by simp [hk])]
    constructor
    · obtain ⟨o, ho⟩ := H.1
      obtain ⟨y, rfl, _, _⟩ := H.2 o ho
      obtain ⟨out, hout⟩ := (ih hnd.2
        { Y with e := fun r k => if k = j then y.e r else Y.e r k } hY (hdef' y)).1
      exact ⟨out, .step j is Y y out ho hout⟩
    · intro out h
      cases h with
      | fails _ _ _ h =>
        obtain ⟨y, h0, _⟩ := H.2 _ h
        cases h0
      | step _ _ _ y _ h rest =>
        obtain ⟨y', h0, hl, hv⟩ := H.2 _ h
        cases h0
        obtain ⟨Y', h1, h2, h3, h4, h5⟩ := (ih hnd.2 _ (by exact hY) (hdef' y)).2 out rest
        refine ⟨Y', h1, h2, h3, fun k hk i => ?_, fun i k hi hk => ?_⟩
        · simp only [List.mem_cons, not_or] at hk
          rw [h4 k hk.2]
          simp [hk.1]
        · by_cases hkj : k = j
          · subst hkj
            rw [h4 k hnd.1]
            simp only [if_true]
            exact hv i hi
          · rw [h5 i k hi (by simpa [hkj] using hk)]
            simp [hkj]

/-- **C51** `apply` on matrices of matching sizes: no exception, and the result is
`beta * Y + alpha * op(M) * X`, for every operator that acts on vectors as the matrix `M`. -/
theorem C51_apply_matrix [CommRing K] [StarRing K] (op : DOp K) (M : Nat → Nat → K) (hop : Implements op M)
    (t : TranspositionMode) (X : Mx K) (Y : Mx (Option K)) (alpha beta : K)
    (hX : X.rows = modeCols t op.rowCount op.columnCount) (hY : Y.rows = modeRows t op.rowCount op.columnCount)
    (hq : X.cols = Y.cols) (hdef : beta ≠ 0 → Y.Defined) :
    (∃ out, ApplyRun op t X Y alpha beta out) ∧
    ∀ out, ApplyRun op t X Y alpha beta out → ∃ Y' : Mx (Option K), out = .result Y' ∧ Y'.rows = Y.rows ∧
      Y'.cols = Y.cols ∧ ∀ i j, i < Y.rows → j < Y.cols → Y'.e i j = some (beta * (Y.e i j).getD 0 +
        alpha * ∑ k ∈ range X.rows, modeEntry t M i k * X.e k j) := by
  have e1 : (if transposedMode t then op.rowCount else op.columnCount) =
      modeCols t op.rowCount op.columnCount := by cases t <;> rfl
  have e2 : (if transposedMode t then op.columnCount else op.rowCount) =
      modeRows t op.rowCount op.columnCount := by cases t <;> rfl
  have e : ∀ out, ApplyRun op t X Y alpha beta out ↔ ApplyLoop op t X alpha beta (List.range X.cols) Y out := by
    intro out
    unfold ApplyRun
    rw [e1, e2, if_neg (by simp [hX]), if_neg (by simp [hY]), if_neg (by simp [hq])]
  simp only [e]
  obtain ⟨h1, h2⟩ := applyLoop_spec op M hop t X alpha beta hX (List.range X.cols) List.nodup_range Y hY
    (fun hb i j hi hj => hdef hb i j hi (by rw [← hq]; simpa using hj))
  refine ⟨h1, fun out h => ?_⟩
  obtain ⟨Y', a, b, c, _, d⟩ := h2 out h
  exact ⟨Y', a, b, c, fun i j hi hj => d i j hi (by rw [← hq] at hj; simpa using hj)⟩

/-- **C51** `apply(trans, X)` returns `op(M) * X`, and throws if the number of rows of `X` does not fit. -/
theorem C51_apply_new [CommRing K] [StarRing K] (op : DOp K) (M : Nat → Nat → K) (hop : Implements op M)
    (t : TranspositionMode) (X : Mx K) :
    (∃ out, ApplyNewRun op t X out) ∧
    ∀ out, ApplyNewRun op t X out →
      if X.rows ≠ modeCols t op.rowCount op.columnCount then out = .invalidArgument
      else ∃ Y' : Mx (Option K), out = .result Y' ∧ Y'.rows = modeRows t op.rowCount op.columnCount ∧
        Y'.cols = X.cols ∧ ∀ i j, i < Y'.rows → j < X.cols →
          Y'.e i j = some (∑ k ∈ range X.rows, modeEntry t M i k * X.e k j) := by
  have e2 : (if transposedMode t then op.columnCount else op.rowCount) =
      modeRows t op.rowCount op.columnCount := by cases t <;> rfl
  by_cases hX : X.rows = modeCols t op.rowCount op.columnCount
  · have H := fun g => C51_apply_matrix op M hop t X
      ⟨if transposedMode t then op.columnCount else op.rowCount, X.cols, g⟩ 1 0 hX e2 rfl (by simp)
    refine ⟨⟨_, fun _ _ => none, (H _).1.choose_spec⟩, fun out ⟨g, h⟩ => ?_⟩
    rw [if_neg (by simp [hX])]
    obtain ⟨Y', a, b, c, d⟩ := (H g).2 out h
    refine ⟨Y', a, b.trans e2, c, fun i j hi hj => ?_⟩
    rw [d i j (by rw [b] at hi; exact hi) hj]
    simp
  · have : ∀ Y : Mx (Option K), ∀ out, ApplyRun op t X Y 1 0 out ↔ out = .invalidArgument := by
      intro Y out
      unfold ApplyRun
      have e1 : (if transposedMode t then op.rowCount else op.columnCount) =
          modeCols t op.rowCount op.columnCount := by cases t <;> rfl
      rw [e1, if_pos hX]
    refine ⟨⟨.invalidArgument, fun _ _ => none, (this _ _).2 rfl⟩, fun out ⟨g, h⟩ => ?_⟩
    rw [if_pos hX]
    exact (this _ _).1 h

/-- **C51** The default `asMatrix()` of an operator that acts as the matrix `M` is `M`. -/
theorem C51_asMatrix [CommRing K] [StarRing K] (op : DOp K) (M : Nat → Nat → K) (hop : Implements op M) :
    (∃ out, AsMatrixRun op out) ∧ ∀ out, AsMatrixRun op out → ∃ R : Mx (Option K), out = some R ∧
      R.rows = op.rowCount ∧ R.cols = op.columnCount ∧
      ∀ i < op.rowCount, ∀ j < op.columnCount, R.e i j = some (M i j) := by
  let F : (Fin op.columnCount → K) →ₗ[K] (Fin op.rowCount → K) :=
    { toFun := fun x i => ∑ k : Fin op.columnCount, M i k * x k
      map_add' := by intro x y; funext i; simp [mul_add, Finset.sum_add_distrib]
      map_smul' := by intro c x; funext i; simp [Finset.mul_sum, mul_left_comm] }
  have hF := C51_apply_is_asMatrix op F (fun x g hx => by
    have H := hop .NO_TRANSPOSE x ⟨op.rowCount, g⟩ 1 0 hx rfl (by simp)
    refine ⟨H.1, fun out h => ?_⟩
    obtain ⟨c, h0, hl, hv⟩ := H.2 out h
    refine ⟨c, h0, hl, fun i => ?_⟩
    rw [hv i i.2]
    simp only [zero_mul, zero_add, one_mul, modeEntry]
    rw [hx, Finset.sum_range]
    rfl)
  refine ⟨hF.1, fun out h => ?_⟩
  obtain ⟨R, h0, h1, h2, A, hA, hx⟩ := hF.2 out h
  refine ⟨R, h0, h1, h2, fun i hi j hj => ?_⟩
  rw [hA i (by omega) j (by omega)]
  have := hx (Pi.single ⟨j, hj⟩ 1) ⟨i, hi⟩
  simpa [F, Pi.single_apply] using this

end base

/-! ### The concrete operators -/

section dense
variable {K : Type} [CommRing K] [StarRing K] [DecidableEq K]

theorem addMul_spec (A : Mx K) (x : Vec K) (y : Vec (Option K)) (alpha beta : K) (h1 : A.cols = x.len)
    (h2 : A.rows = y.len) (hdef : beta ≠ 0 → ∀ i < y.len, (y.e i).isSome = true) :
    ∃ y', addMul A alpha x (scaleBy beta y) = some y' ∧ y'.len = y.len ∧
      ∀ i < y.len, y'.e i = some (beta * (y.e i).getD 0 + alpha * ∑ k ∈ range x.len, A.e i k * x.e k) := by
  unfold addMul
  rw [if_pos ⟨h1, h2⟩]
  refine ⟨_, rfl, rfl, fun i hi => ?_⟩
  simp only [scaleBy, h1]
  by_cases hb : beta = 0
  · simp [hb]
  · obtain ⟨v, hv⟩ := Option.isSome_iff_exists.1 (hdef hb i hi)
    simp [hb, hv]

/-- **C51** A dense operator acts as its matrix, in every mode. -/
theorem C51_dense (m : Mx K) : Implements (denseOp m) m.e := by
  intro t x y alpha beta hx hy hdef
  refine ⟨⟨_, rfl⟩, fun out h => ?_⟩
  cases h
  cases t
  · exact addMul_spec m x y alpha beta hx.symm hy.symm hdef
  · exact addMul_spec m.conjugate x y alpha beta hx.symm hy.symm hdef
  · exact addMul_spec m.transpose x y alpha beta hx.symm hy.symm hdef
  · exact addMul_spec m.adjoint x y alpha beta hx.symm hy.symm hdef

/-- **C51** The overridden `asMatrix()` of a dense operator is what the default would return. -/
theorem C51_dense_asMatrix (m : Mx K) (R : Mx (Option K)) (h : AsMatrixRun (denseOp m) (some R)) :
    R.rows = (denseAsMatrix m).rows ∧ R.cols = (denseAsMatrix m).cols ∧
    ∀ i < R.rows, ∀ j < R.cols, R.e i j = some ((denseAsMatrix m).e i j) := by
  obtain ⟨R', h0, h1, h2, h3⟩ := (C51_asMatrix _ _ (C51_dense m)).2 _ h
  cases h0
  exact ⟨h1, h2, fun i hi j hj => h3 i (by omega) j (by omega)⟩

end dense

section hmat
variable {G K : Type} [CommRing K] [StarRing K] [DecidableEq K]

/-- **C51** The operator made from an H-matrix whose blocks represent `M` acts as `M`, in every mode, for
every schedule of the parallel product (single process). -/
theorem C51_hmat (s : HSetup G) (compress : BlockData G → HData K) (M : Nat → Nat → K)
    (fits : s.CompressorFits compress) (rep : s.Represents compress M) :
    Implements (hmatOp (s.process compress 1 0) s.rows s.cols) M := by
  intro t x y alpha beta hx hy hdef
  have hi : x.toMx.rows = s.inRows (hmatTrans t) := by
    show x.len = _
    rw [hx]
    cases t <;> rfl
  have ho : y.toMx.rows = s.outRows (hmatTrans t) := by
    show y.len = _
    rw [hy]
    cases t <;> rfl
  have H := C11_apply_correct s compress M fits rep (hmatTrans t) alpha beta x.toMx y.toMx hi ho rfl
    (fun hb i j hi _ => hdef hb i hi)
  constructor
  · obtain ⟨Y', h⟩ := H.1
    exact ⟨_, Y', h, rfl⟩
  · rintro out ⟨Y', h, rfl⟩
    obtain ⟨h1, h2, h3⟩ := H.2 Y' h
    refine ⟨_, rfl, h1.trans ho.symm, fun i hi' => ?_⟩
    have := h3 i 0 (by rw [← ho]; exact hi') (by exact Nat.one_pos)
    simp only [this]
    congr 2
    rw [← hi]
    refine congrArg _ (Finset.sum_congr rfl fun k _ => ?_)
    cases t <;> rfl

/-- **C51** `asMatrix()` of an H-matrix operator is the matrix its blocks represent. -/
theorem C51_hmat_asMatrix (s : HSetup G) (compress : BlockData G → HData K) (M : Nat → Nat → K)
    (fits : s.CompressorFits compress) (rep : s.Represents compress M) :
    (∃ out, AsMatrixRun (hmatOp (s.process compress 1 0) s.rows s.cols) out) ∧
    ∀ out, AsMatrixRun (hmatOp (s.process compress 1 0) s.rows s.cols) out → ∃ R : Mx (Option K), out = some R ∧
      R.rows = s.rows ∧ R.cols = s.cols ∧ ∀ i < s.rows, ∀ j < s.cols, R.e i j = some (M i j) :=
  C51_asMatrix _ _ (C51_hmat s compress M fits rep)

/-- Example: the 5 × 3 H-matrix with four blocks meets the hypotheses, for any matrix `M`. -/
example (M : Nat → Nat → K) : ∃ (op : DOp K), op.rowCount = 5 ∧ op.columnCount = 3 ∧ Implements op M ∧
    ∃ R, AsMatrixRun op (some R) ∧ R.e 4 2 = some (M 4 2) := by
  obtain ⟨s, h5, h3, _, c, hf, hr⟩ := example_setup M
  refine ⟨hmatOp (s.process c 1 0) s.rows s.cols, h5, h3, C51_hmat s c M hf hr, ?_⟩
  obtain ⟨⟨out, h⟩, H⟩ := C51_hmat_asMatrix s c M hf hr
  obtain ⟨R, rfl, _, _, hR⟩ := H out h
  exact ⟨R, h, hR 4 (by omega) 2 (by omega)⟩

end hmat

/-! ### C48 -/

section sparse

/-- One real product. -/
theorem sparseRealApply_spec (mat : Mx ℝ) (t : TranspositionMode) (x : Vec ℝ) (y : Vec (Option ℝ))
    (alpha beta : ℝ) (hx : x.len = if transposedMode t then mat.rows else mat.cols)
    (hy : y.len = if transposedMode t then mat.cols else mat.rows)
    (hdef : beta ≠ 0 → ∀ i < y.len, (y.e i).isSome = true) :
    ∃ y', sparseRealApply mat t x y alpha beta = some y' ∧ y'.len = y.len ∧
      ∀ i < y.len, y'.e i = some (beta * (y.e i).getD 0 +
        alpha * ∑ k ∈ range x.len, (if transposedMode t then mat.e k i else mat.e i k) * x.e k) := by
  have hlen : (open Classical in if beta = 0 then (⟨y.len, fun _ => some 0⟩ : Vec (Option ℝ)) else y).len = y.len := by
    split <;> rfl
  have hval : ∀ i < y.len, ∀ s : ℝ, ((open Classical in
      if beta = 0 then (⟨y.len, fun _ => some 0⟩ : Vec (Option ℝ)) else y).e i).map (fun v => s + beta * v) =
      some (beta * (y.e i).getD 0 + s) := by
    intro i hi s
    by_cases hb : beta = 0
    · simp [hb]
    · obtain ⟨v, hv⟩ := Option.isSome_iff_exists.1 (hdef hb i hi)
      simp [hb, hv, add_comm]
  unfold sparseRealApply
  simp only
  cases ht : transposedMode t with
  | true =>
    rw [ht] at hx hy
    simp only [if_true] at hx hy ⊢
    rw [if_pos ⟨hx.symm, by rw [hlen]; exact hy.symm⟩]
    exact ⟨_, rfl, hlen, fun i hi => by rw [hx]; exact hval i hi _⟩
  | false =>
    rw [ht] at hx hy
    simp only [Bool.false_eq_true, if_false] at hx hy ⊢
    rw [if_pos ⟨hx.symm, by rw [hlen]; exact hy.symm⟩]
    exact ⟨_, rfl, hlen, fun i hi => by rw [hx]; exact hval i hi _⟩

/-- The complex product. -/
theorem sparseComplexApply_spec (mat : Mx ℝ) (t : TranspositionMode) (x : Vec ℂ) (y : Vec (Option ℂ))
    (alpha beta : ℂ) (hx : x.len = if transposedMode t then mat.rows else mat.cols)
    (hy : y.len = if transposedMode t then mat.cols else mat.rows)
    (hdef : beta ≠ 0 → ∀ i < y.len, (y.e i).isSome = true) :
    ∃ y', sparseComplexApply mat t x y alpha beta = some y' ∧ y'.len = y.len ∧
      ∀ i < y.len, y'.e i = some (beta * (y.e i).getD 0 +
        alpha * ∑ k ∈ range x.len, ((if transposedMode t then mat.e k i else mat.e i k : ℝ) : ℂ) * x.e k) := by
  classical
  have hval : ∀ i < y.len, (scaleBy beta y).e i = some (beta * (y.e i).getD 0) := by
    intro i hi
    by_cases hb : beta = 0
    · simp [scaleBy, hb]
    · obtain ⟨v, hv⟩ := Option.isSome_iff_exists.1 (hdef hb i hi)
      simp [scaleBy, hb, hv]
  obtain ⟨r1, e1, l1, v1⟩ := sparseRealApply_spec mat t ⟨x.len, fun i => (x.e i).re⟩
    ⟨y.len, fun i => ((scaleBy beta y).e i).map Complex.re⟩ alpha.re 1 hx hy
    (fun _ i hi => by simp [hval i hi])
  obtain ⟨r2, e2, l2, v2⟩ := sparseRealApply_spec mat t ⟨x.len, fun i => (x.e i).im⟩ r1 (-alpha.im) 1 hx
    (l1.trans hy) (fun _ i hi => by rw [v1 i (by rw [l1] at hi; exact hi)]; rfl)
  obtain ⟨i1, e3, l3, v3⟩ := sparseRealApply_spec mat t ⟨x.len, fun i => (x.e i).re⟩
    ⟨y.len, fun i => ((scaleBy beta y).e i).map Complex.im⟩ alpha.im 1 hx hy
    (fun _ i hi => by simp [hval i hi])
  obtain ⟨i2, e4, l4, v4⟩ := sparseRealApply_spec mat t ⟨x.len, fun i => (x.e i).im⟩ i1 alpha.re 1 hx
    (l3.trans hy) (fun _ i hi => by rw [v3 i (by rw [l3] at hi; exact hi)]; rfl)
  refine ⟨⟨y.len, fun i => (r2.e i).bind fun r => (i2.e i).map fun s => ⟨r, s⟩⟩, ?_, rfl, fun i hi => ?_⟩
  · unfold sparseComplexApply
    have e1' : sparseRealApply mat t ⟨x.len, fun i => (x.e i).re⟩
      ⟨(scaleBy beta y).len, fun i => ((scaleBy beta y).e i).map Complex.re⟩ alpha.re 1 = some r1 := e1
    have e3' : sparseRealApply mat t ⟨x.len, fun i => (x.e i).re⟩
      ⟨(scaleBy beta y).len, fun i => ((scaleBy beta y).e i).map Complex.im⟩ alpha.im 1 = some i1 := e3
    simp only [e1', e2, e3', e4, Option.bind_eq_bind, Option.bind_some]
    rfl
  · have hi1 : i < r1.len := by rw [l1]; exact hi
    have hi3 : i < i1.len := by rw [l3]; exact hi
    simp only [v2 i hi1, v1 i hi, v4 i hi3, v3 i hi, hval i hi]
    simp only [Option.getD_some, Option.bind_some, Option.map_some, one_mul, Option.some.injEq]
    have hre : (∑ k ∈ range x.len, ((if transposedMode t then mat.e k i else mat.e i k : ℝ) : ℂ) * x.e k).re =
        ∑ k ∈ range x.len, (if transposedMode t then mat.e k i else mat.e i k) * (x.e k).re := by
      rw [Complex.re_sum]; exact Finset.sum_congr rfl fun k _ => by simp
    have him : (∑ k ∈ range x.len, ((if transposedMode t then mat.e k i else mat.e i k : ℝ) : ℂ) * x.e k).im =
        ∑ k ∈ range x.len, (if transposedMode t then mat.e k i else mat.e i k) * (x.e k).im := by
      rw [Complex.im_sum]; exact Finset.sum_congr rfl fun k _ => by simp
    apply Complex.ext
    · simp only [Complex.add_re, Complex.mul_re alpha, hre, him]; ring
    · simp only [Complex.add_im, Complex.mul_im alpha, hre, him]; ring

theorem realTrans_transposed (mode t : TranspositionMode) :
    transposedMode (realTrans mode t) = (isTransposed mode != transposedMode t) := by
  cases mode <;> cases t <;> rfl

/-- What the real operator computes in every case: it acts as the matrix if `isTransposed()` is false and
as the transposed matrix otherwise. -/
theorem sparseReal_implements (mat : Mx ℝ) (mode : TranspositionMode) :
    Implements (sparseOpReal mat mode) (fun i j => if isTransposed mode then mat.e j i else mat.e i j) := by
  intro t x y alpha beta hx hy hdef
  refine ⟨⟨_, rfl⟩, fun out h => ?_⟩
  cases h
  have H := sparseRealApply_spec mat (realTrans mode t) x y alpha beta
    (by rw [hx]; cases mode <;> cases t <;> rfl) (by rw [hy]; cases mode <;> cases t <;> rfl) hdef
  obtain ⟨y', h0, h1, h2⟩ := H
  refine ⟨y', h0, h1, fun i hi => ?_⟩
  rw [h2 i hi, realTrans_transposed]
  congr 3
  refine Finset.sum_congr rfl fun k _ => ?_
  cases hm : isTransposed mode <;> cases t <;> simp [modeEntry, transposedMode]

/-- The same for the complex operator. -/
theorem sparseComplex_implements (mat : Mx ℝ) (mode : TranspositionMode) :
    Implements (sparseOpComplex mat mode)
      (fun i j => ((if isTransposed mode then mat.e j i else mat.e i j : ℝ) : ℂ)) := by
  intro t x y alpha beta hx hy hdef
  refine ⟨⟨_, rfl⟩, fun out h => ?_⟩
  cases h
  have H := sparseComplexApply_spec mat (realTrans mode t) x y alpha beta
    (by rw [hx]; cases mode <;> cases t <;> rfl) (by rw [hy]; cases mode <;> cases t <;> rfl) hdef
  obtain ⟨y', h0, h1, h2⟩ := H
  refine ⟨y', h0, h1, fun i hi => ?_⟩
  rw [h2 i hi, realTrans_transposed]
  congr 3
  refine Finset.sum_congr rfl fun k _ => ?_
  cases hm : isTransposed mode <;> cases t <;> simp [modeEntry, transposedMode]

theorem isTransposed_eq (mode : TranspositionMode) (h : mode ≠ .CONJUGATE) :
    isTransposed mode = decide (mode = .TRANSPOSE ∨ mode = .CONJUGATE_TRANSPOSE) := by
  cases mode <;> first | rfl | exact absurd rfl h

/-- **C48**, real value type: a sparse operator built with mode `t` other than `CONJUGATE` reports the
dimensions of `op_t(A)`, and applied with any mode `s` it computes
`beta * y + alpha * op_s(op_t(A)) * x`.  Missing: `t = CONJUGATE`, where the claim is false
(`C48_counterexample_conjugate`). -/
theorem C48_apply_real_partial (mat : Mx ℝ) (mode : TranspositionMode) (h : mode ≠ .CONJUGATE) :
    (sparseOpReal mat mode).rowCount = modeRows mode mat.rows mat.cols ∧
    (sparseOpReal mat mode).columnCount = modeCols mode mat.rows mat.cols ∧
    Implements (sparseOpReal mat mode) (modeEntry mode mat.e) := by
  have := sparseReal_implements mat mode
  cases mode
  · exact ⟨rfl, rfl, by convert this using 1; funext i j; simp [isTransposed_eq, modeEntry]⟩
  · exact absurd rfl h
  · exact ⟨rfl, rfl, by convert this using 1; funext i j; simp [isTransposed_eq, modeEntry]⟩
  · exact ⟨rfl, rfl, by convert this using 1; funext i j; simp [isTransposed_eq, modeEntry]⟩

/-- **C48**, complex value type, `t` other than `CONJUGATE`. -/
theorem C48_apply_complex_partial (mat : Mx ℝ) (mode : TranspositionMode) (h : mode ≠ .CONJUGATE) :
    (sparseOpComplex mat mode).rowCount = modeRows mode mat.rows mat.cols ∧
    (sparseOpComplex mat mode).columnCount = modeCols mode mat.rows mat.cols ∧
    Implements (sparseOpComplex mat mode) (modeEntry mode fun i j => (mat.e i j : ℂ)) := by
  have := sparseComplex_implements mat mode
  cases mode
  · exact ⟨rfl, rfl, by convert this using 1; funext i j; simp [isTransposed_eq, modeEntry]⟩
  · exact absurd rfl h
  · exact ⟨rfl, rfl, by convert this using 1; funext i j; simp [isTransposed_eq, modeEntry]⟩
  · exact ⟨rfl, rfl, by convert this using 1; funext i j; simp [isTransposed_eq, modeEntry]⟩

/-- **C48** What an operator built with `CONJUGATE` does instead: it acts as the transposed matrix. -/
theorem C48_conjugate_transposes (mat : Mx ℝ) :
    (sparseOpReal mat .CONJUGATE).rowCount = mat.cols ∧ (sparseOpReal mat .CONJUGATE).columnCount = mat.rows ∧
    Implements (sparseOpReal mat .CONJUGATE) (fun i j => mat.e j i) ∧
    Implements (sparseOpComplex mat .CONJUGATE) (fun i j => (mat.e j i : ℂ)) := by
  refine ⟨rfl, rfl, ?_, ?_⟩
  · simpa [show isTransposed .CONJUGATE = true from rfl] using sparseReal_implements mat .CONJUGATE
  · simpa [show isTransposed .CONJUGATE = true from rfl] using sparseComplex_implements mat .CONJUGATE

/-- **C48** The claim is false for `t = CONJUGATE`: the operator built from a 1 × 2 matrix (whose
conjugate is 1 × 2) reports 2 rows, and the one built from the 2 × 2 matrix with the single non-zero entry
`(0,1)`, applied to the vector `(0, 1)`, gives `(0, 0)` instead of `(1, 0)`. -/
theorem C48_counterexample_conjugate :
    (∃ mat : Mx ℝ, (sparseOpReal mat .CONJUGATE).rowCount ≠ modeRows .CONJUGATE mat.rows mat.cols) ∧
    ∃ mat : Mx ℝ, mat.rows = 2 ∧ mat.cols = 2 ∧
      ∀ out, (sparseOpReal mat .CONJUGATE).run .NO_TRANSPOSE (unitVec 2 1) ⟨2, fun _ => some 0⟩ 1 0 out →
        ∃ y, out = some y ∧ y.e 0 = some 0 ∧ modeEntry .NO_TRANSPOSE (modeEntry .CONJUGATE mat.e) 0 1 = 1 := by
  refine ⟨⟨⟨1, 2, fun _ _ => 0⟩, by decide⟩, ⟨2, 2, fun i j => if i = 0 ∧ j = 1 then 1 else 0⟩, rfl, rfl, ?_⟩
  intro out h
  obtain ⟨y, h0, _, hv⟩ := ((C48_conjugate_transposes _).2.2.1 .NO_TRANSPOSE (unitVec 2 1)
    ⟨2, fun _ => some 0⟩ 1 0 rfl rfl (by simp)).2 out h
  refine ⟨y, h0, ?_, by simp [modeEntry]⟩
  rw [hv 0 (by norm_num)]
  simp [modeEntry, unitVec]

/-- **C51** The overridden `asMatrix()` of sparse operators is what the default would return (all modes,
real and complex). -/
theorem C51_sparse_asMatrix (mat : Mx ℝ) (mode : TranspositionMode) :
    (∀ R, AsMatrixRun (sparseOpReal mat mode) (some R) → R.rows = (sparseAsMatrix id mat mode).rows ∧
      R.cols = (sparseAsMatrix id mat mode).cols ∧
      ∀ i < R.rows, ∀ j < R.cols, R.e i j = some ((sparseAsMatrix id mat mode).e i j)) ∧
    ∀ R, AsMatrixRun (sparseOpComplex mat mode) (some R) →
      R.rows = (sparseAsMatrix Complex.ofReal mat mode).rows ∧
      R.cols = (sparseAsMatrix Complex.ofReal mat mode).cols ∧
      ∀ i < R.rows, ∀ j < R.cols, R.e i j = some ((sparseAsMatrix Complex.ofReal mat mode).e i j) := by
  constructor
  · intro R h
    obtain ⟨R', h0, h1, h2, h3⟩ := (C51_asMatrix _ _ (sparseReal_implements mat mode)).2 _ h
    cases h0
    refine ⟨h1.trans (by cases mode <;> rfl), h2.trans (by cases mode <;> rfl), fun i hi j hj => ?_⟩
    rw [h3 i (by omega) j (by omega)]
    unfold sparseAsMatrix
    split <;> rfl
  · intro R h
    obtain ⟨R', h0, h1, h2, h3⟩ := (C51_asMatrix _ _ (sparseComplex_implements mat mode)).2 _ h
    cases h0
    refine ⟨h1.trans (by cases mode <;> rfl), h2.trans (by cases mode <;> rfl), fun i hi j hj => ?_⟩
    rw [h3 i (by omega) j (by omega)]
    unfold sparseAsMatrix
    split <;> rfl

/-- Example: a 2 × 3 matrix built with `CONJUGATE_TRANSPOSE`, multiplied by a complex vector, on an
uninitialised target. -/
example : ∃ y, (sparseOpComplex ⟨2, 3, fun i j => i + 2 * j⟩ .CONJUGATE_TRANSPOSE).run .NO_TRANSPOSE
    ⟨2, fun _ => Complex.I⟩ ⟨3, fun _ => none⟩ 1 0 (some y) ∧ y.e 2 = some (9 * Complex.I) := by
  have H := (C48_apply_complex_partial ⟨2, 3, fun i j => i + 2 * j⟩ .CONJUGATE_TRANSPOSE (by decide)).2.2
    .NO_TRANSPOSE ⟨2, fun _ => Complex.I⟩ ⟨3, fun _ => none⟩ 1 0 rfl rfl (by simp)
  obtain ⟨out, h⟩ := H.1
  obtain ⟨y, rfl, _, hv⟩ := H.2 out h
  refine ⟨y, h, ?_⟩
  rw [hv 2 (by norm_num)]
  simp [modeEntry, Finset.sum_range_succ]
  ring

end sparse
end Verif.DiscreteOp
