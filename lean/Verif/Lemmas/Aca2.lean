import Verif.Lemmas.Aca
/-
ACA: the block norm and the reachability of all states of the algorithm.
-/
set_option linter.unusedSectionVars false
namespace Verif.HMat.Aca
open Finset
variable {K : Type} [RCLike K]

/-- Sum of the squared moduli of the entries of `A * B`. -/
noncomputable def normSqAB (e : Env K) (s : St K) : ℝ :=
  ∑ i ∈ range e.m, ∑ j ∈ range e.n, ‖s.ab i j‖ ^ 2

theorem norm_add_sq_rclike (x y : K) :
    ‖x + y‖ ^ 2 = ‖x‖ ^ 2 + ‖y‖ ^ 2 + 2 * RCLike.re (star x * y) := by
  have h := RCLike.normSq_add x y
  rw [RCLike.normSq_eq_def', RCLike.normSq_eq_def', RCLike.normSq_eq_def'] at h
  rw [h]
  congr 2
  have : star x * y = starRingEnd K (x * starRingEnd K y) := by
    rw [map_mul, RCLike.conj_conj]; rfl
  rw [this, RCLike.conj_re]

theorem crossTerm_eq (e : Env K) (s : St K) (row col : Nat → K) :
    crossTerm e s.A s.B row col =
      ∑ i ∈ range e.m, ∑ j ∈ range e.n, star (s.ab i j) * (col i * row j) := by
  unfold crossTerm St.ab
  rw [Finset.sum_comm]
  refine Finset.sum_congr rfl fun j _ => ?_
  simp only [star_sum, Finset.mul_sum, Finset.sum_mul]
  rw [Finset.sum_comm]
  refine Finset.sum_congr rfl fun i _ => Finset.sum_congr rfl fun k _ => ?_
  rw [star_mul]; ring

theorem normSq_expand (e : Env K) (s : St K) (row col : Nat → K) :
    ∑ i ∈ range e.m, ∑ j ∈ range e.n, ‖s.ab i j + col i * row j‖ ^ 2 =
      sqNorm e.n row * sqNorm e.m col +
        (2 * RCLike.re (crossTerm e s.A s.B row col) + normSqAB e s) := by
  rw [crossTerm_eq, normSqAB, sqNorm, sqNorm, Finset.sum_mul_sum, Finset.sum_comm (s := range e.n)]
  simp only [map_sum, norm_add_sq_rclike, Finset.sum_add_distrib, Finset.mul_sum, norm_mul, mul_pow]
  have : ∑ i ∈ range e.m, ∑ j ∈ range e.n, ‖col i‖ ^ 2 * ‖row j‖ ^ 2 =
      ∑ i ∈ range e.m, ∑ j ∈ range e.n, ‖row j‖ ^ 2 * ‖col i‖ ^ 2 :=
    Finset.sum_congr rfl fun i _ => Finset.sum_congr rfl fun j _ => mul_comm _ _
  rw [this]; ring

theorem newNorm_eq (e : Env K) (s : St K) (row col : Nat → K) (hB : s.B.rows = s.A.cols)
    (hb : s.blockNorm ^ 2 = normSqAB e s) :
    newNorm e s row col =
      Real.sqrt (∑ i ∈ range e.m, ∑ j ∈ range e.n, ‖s.ab i j + col i * row j‖ ^ 2) := by
  have hpos : 0 ≤ ∑ i ∈ range e.m, ∑ j ∈ range e.n, ‖s.ab i j + col i * row j‖ ^ 2 :=
    Finset.sum_nonneg fun i _ => Finset.sum_nonneg fun j _ => sq_nonneg _
  have key : (if s.A.cols > 0 ∧ s.B.rows > 0 then
      sqNorm e.n row * sqNorm e.m col +
        (2 * RCLike.re (crossTerm e s.A s.B row col) + s.blockNorm * s.blockNorm)
    else sqNorm e.n row * sqNorm e.m col) =
      ∑ i ∈ range e.m, ∑ j ∈ range e.n, ‖s.ab i j + col i * row j‖ ^ 2 := by
    rw [normSq_expand, ← hb]
    split
    · rw [sq]
    · rename_i h
      have h0 : s.A.cols = 0 := by omega
      have h1 : s.blockNorm ^ 2 = 0 := by rw [hb]; simp [normSqAB, St.ab, h0]
      have h2 : crossTerm e s.A s.B row col = 0 := by simp [crossTerm, h0]
      rw [h1, h2]; simp
  unfold newNorm
  simp only [key]
  congr 1
  split_ifs with h
  · rfl
  · exact le_antisymm hpos (not_lt.mp h)

theorem norm_reach (e : Env K) (pm : e.PickMax) {s : St K} (h : CrossReach e s) :
    s.blockNorm = Real.sqrt (normSqAB e s) := by
  induction h with
  | start => simp [startState, normSqAB, St.ab]
  | probe s mode p hs hp hit ih =>
    have c := computeCross_core e s p mode
    rw [c.norm, ih]
    simp only [normSqAB, ab_core c]
  | accept s mode p s' row col i j next hs hp hit hc ih =>
    have sh := shape_reach e pm hs
    have c := computeCross_core e s p mode
    rw [hc] at c
    have hB' : s'.B.rows = s'.A.cols := by rw [c.A, c.B]; exact sh.Brows
    have hb : s'.blockNorm ^ 2 = normSqAB e s' := by
      have h0 : 0 ≤ normSqAB e s :=
        Finset.sum_nonneg fun i _ => Finset.sum_nonneg fun j _ => sq_nonneg _
      rw [c.norm, ih, Real.sq_sqrt h0]
      simp only [normSqAB, ab_core c]
    show newNorm e s' row col = _
    rw [newNorm_eq e s' row col hB' hb]
    simp only [normSqAB, ab_accept e s' row col i j hB']

/-! ### All states of the algorithm are reachable -/

theorem shape_pos {e : Env K} {s : St K} (sh : Shape e s) (h : 0 < s.maxIter) :
    0 < e.m ∧ 0 < e.n := by
  have := sh.iter; omega

theorem acaLoop_reach (e : Env K) (pm : e.PickMax) (mode : Mode) (fuel : Nat) :
    ∀ (iter p : Nat) (s : St K), CrossReach e s → s.maxIter = fuel →
      (0 < fuel → p < bound e mode) → CrossReach e (acaLoop e mode fuel iter p s).1 := by
  induction fuel with
  | zero => intro iter p s hs _ _; exact hs
  | succ fuel ih =>
    intro iter p s hs hf hp
    have hp := hp (Nat.succ_pos _)
    have hit : 0 < s.maxIter := by omega
    have sh := shape_reach e pm hs
    obtain ⟨hm, hn⟩ := shape_pos sh hit
    have hprobe := CrossReach.probe s mode p hs hp hit
    unfold acaLoop
    rcases hc : computeCross e s p mode with ⟨s', r⟩
    rw [hc] at hprobe
    cases r with
    | zero => exact hprobe
    | success row col i j next =>
      have c := computeCross_core e s p mode
      rw [hc] at c
      obtain ⟨_, _, hnext, _⟩ :=
        computeCross_success e s p mode hp pm hm hn sh.Brows s' row col i j next hc
      simp only
      split
      · exact hprobe
      · apply ih
        · exact .accept s mode p s' row col i j next hs hp hit hc
        · show s'.maxIter - 1 = fuel
          rw [c.maxIter, hf]; rfl
        · intro _; exact hnext

theorem selectMinPivot_lt (d : ℝ) (v : Vec K) (cnt : Nat → Nat) (p : Nat)
    (h : selectMinPivot d v cnt = some p) : p < v.len ∧ cnt p = 0 := by
  classical
  unfold selectMinPivot at h
  have gen : ∀ (l : List Nat) (acc : Option Nat × ℝ), (∀ x ∈ l, x < v.len) →
      (∀ q, acc.1 = some q → q < v.len ∧ cnt q = 0) →
      ∀ q, (l.foldl (fun (acc : Option Nat × ℝ) i =>
        if cnt i = 0 ∧ ‖v.v i‖ < acc.2 then (some i, ‖v.v i‖) else acc) acc).1 = some q →
        q < v.len ∧ cnt q = 0 := by
    intro l
    induction l with
    | nil => intro acc _ ha q hq; exact ha q hq
    | cons x l ih =>
      intro acc hl ha q hq
      rw [List.foldl_cons] at hq
      refine ih _ (fun y hy => hl y (List.mem_cons_of_mem _ hy)) ?_ q hq
      intro q' hq'
      split at hq'
      · rename_i hx
        simp only [Option.some.injEq] at hq'
        subst hq'
        exact ⟨hl _ List.mem_cons_self, hx.1⟩
      · exact ha q' hq'
  refine gen (List.range v.len) (none, d) (fun x hx => List.mem_range.mp hx) (by simp) p ?_
  convert h

/-- Invariant of the outer loop. -/
structure OuterInv (e : Env K) (o : Outer K) : Prop where
  reach : CrossReach e o.s
  pivot : 0 < o.s.maxIter → o.nextPivot < bound e o.mode
  calls : o.acaCalls = o.rowTrialCount + o.columnTrialCount
  rows : o.rowTrialCount ≤ 1
  cols : o.columnTrialCount ≤ 1

theorem react_fields (o : Outer K) (st : Status) :
    (react o st).2.s = o.s ∧ (react o st).2.acaCalls = o.acaCalls ∧
    (react o st).2.rowTrialCount = o.rowTrialCount ∧
    (react o st).2.columnTrialCount = o.columnTrialCount := by
  cases st
  · exact ⟨rfl, rfl, rfl, rfl⟩
  · simp only [react]; split <;> exact ⟨rfl, rfl, rfl, rfl⟩
  · simp only [react]; split <;> exact ⟨rfl, rfl, rfl, rfl⟩
  · exact ⟨rfl, rfl, rfl, rfl⟩
  · exact ⟨rfl, rfl, rfl, rfl⟩

theorem nextTrial_fields (d : ℝ) (r : Bool × Outer K) :
    (nextTrial d r).2.s = r.2.s ∧ (nextTrial d r).2.acaCalls = r.2.acaCalls := by
  unfold nextTrial
  split
  · exact ⟨rfl, rfl⟩
  · split
    · split
      · split <;> exact ⟨rfl, rfl⟩
      · exact ⟨rfl, rfl⟩
    · split
      · split <;> exact ⟨rfl, rfl⟩
      · exact ⟨rfl, rfl⟩
    · exact ⟨rfl, rfl⟩

/-- The state after one outer iteration is reachable, and at most one more call of `aca` is made. -/
theorem outerStep_reach (e : Env K) (pm : e.PickMax) (o : Outer K) (h : OuterInv e o) :
    CrossReach e (outerStep e o).2.s ∧ (outerStep e o).2.acaCalls = o.acaCalls + 1 := by
  unfold outerStep
  simp only
  obtain ⟨h1, h2⟩ := nextTrial_fields e.dblMax
    (react { o with s := (aca e o.s o.nextPivot o.mode).1, acaCalls := o.acaCalls + 1 }
      (aca e o.s o.nextPivot o.mode).2)
  obtain ⟨h3, h4, _, _⟩ := react_fields
    { o with s := (aca e o.s o.nextPivot o.mode).1, acaCalls := o.acaCalls + 1 }
      (aca e o.s o.nextPivot o.mode).2
  rw [h1, h2, h3, h4]
  exact ⟨acaLoop_reach e pm o.mode o.s.maxIter 0 o.nextPivot o.s h.reach rfl h.pivot, rfl⟩

theorem outerStep_inv (e : Env K) (pm : e.PickMax) (o : Outer K) (h : OuterInv e o)
    (hf : (outerStep e o).1 = false) : OuterInv e (outerStep e o).2 := by
  have hr := (outerStep_reach e pm o h).1
  unfold outerStep at hf hr ⊢
  simp only at hf hr ⊢
  set o' : Outer K := { o with s := (aca e o.s o.nextPivot o.mode).1, acaCalls := o.acaCalls + 1 }
    with ho'
  set st := (aca e o.s o.nextPivot o.mode).2
  obtain ⟨h3, h4, h5, h6⟩ := react_fields o' st
  have hs := react_state o' st
  have hreach : CrossReach e o'.s :=
    acaLoop_reach e pm o.mode o.s.maxIter 0 o.nextPivot o.s h.reach rfl h.pivot
  have hlens := (shape_reach e pm hreach).lens
  have hcalls : o'.acaCalls = o.acaCalls + 1 := rfl
  have hrt : o'.rowTrialCount = o.rowTrialCount := rfl
  have hct : o'.columnTrialCount = o.columnTrialCount := rfl
  have hi := h.calls
  have hi1 := h.rows
  have hi2 := h.cols
  clear_value o' st
  rw [hcalls] at h4
  rw [hrt] at h5
  rw [hct] at h6
  rw [← h3] at hreach hlens
  generalize react o' st = r at *
  unfold nextTrial at hf ⊢
  by_cases hr1 : r.1 = true
  · simp [hr1] at hf
  · rw [if_neg hr1] at hf ⊢
    have hs := hs.resolve_left hr1
    cases hst : r.2.state with
    | START => exact absurd hst hs
    | ROW_TRIAL =>
      simp only [hst] at hf ⊢
      by_cases hc : r.2.rowTrialCount < 1
      · rw [if_pos hc] at hf ⊢
        cases hp : selectMinPivot e.dblMax r.2.s.origRow r.2.s.colCnt with
        | none => simp [hp] at hf
        | some p =>
          have := (selectMinPivot_lt _ _ _ _ hp).1
          refine ⟨hreach, fun _ => ?_, ?_, ?_, ?_⟩
          · show p < e.n; have := hlens.1; omega
          · show r.2.acaCalls = r.2.rowTrialCount + 1 + r.2.columnTrialCount; omega
          · show r.2.rowTrialCount + 1 ≤ 1; omega
          · show r.2.columnTrialCount ≤ 1; omega
      · simp [hc] at hf
    | COLUMN_TRIAL =>
      simp only [hst] at hf ⊢
      by_cases hc : r.2.columnTrialCount < 1
      · rw [if_pos hc] at hf ⊢
        cases hp : selectMinPivot e.dblMax r.2.s.origCol r.2.s.rowCnt with
        | none => simp [hp] at hf
        | some p =>
          have := (selectMinPivot_lt _ _ _ _ hp).1
          refine ⟨hreach, fun _ => ?_, ?_, ?_, ?_⟩
          · show p < e.m; have := hlens.2; omega
          · show r.2.acaCalls = r.2.rowTrialCount + (r.2.columnTrialCount + 1); omega
          · show r.2.rowTrialCount ≤ 1; omega
          · show r.2.columnTrialCount + 1 ≤ 1; omega
      · simp [hc] at hf

theorem outerLoop_reach (e : Env K) (pm : e.PickMax) (o : Outer K) (h : OuterInv e o) :
    CrossReach e (outerLoop e o).s ∧ (outerLoop e o).acaCalls ≤ 3 := by
  induction o using outerLoop.induct (e := e) with
  | case1 o hf =>
    rw [outerLoop, dif_pos hf]
    obtain ⟨h1, h2⟩ := outerStep_reach e pm o h
    refine ⟨h1, ?_⟩
    have := h.calls; have := h.rows; have := h.cols; omega
  | case2 o hf ih =>
    rw [outerLoop, dif_neg hf]
    exact ih (outerStep_inv e pm o h (by simpa using hf))

theorem startOuter_inv (e : Env K) : OuterInv e (startOuter e) := by
  refine ⟨.start, ?_, rfl, Nat.zero_le _, Nat.zero_le _⟩
  intro h
  have : 0 < min e.maxRank (min e.m e.n) := h
  show 0 < e.m
  omega

theorem final_reach (e : Env K) (pm : e.PickMax) :
    CrossReach e (finalOuter e).s ∧ (finalOuter e).acaCalls ≤ 3 :=
  outerLoop_reach e pm _ (startOuter_inv e)

/-- The history is faithful: the last snapshot is the present state. -/
theorem history_last (e : Env K) {s : St K} (h : CrossReach e s) :
    s.history.length = s.A.cols ∧
    (0 < s.A.cols → ∃ x, s.history.getLast? = some x ∧ x.A = s.A ∧ x.B = s.B ∧
      x.blockNorm = s.blockNorm ∧ x.crosses = s.crosses) := by
  induction h with
  | start => simp [startState]
  | probe s mode p hs hp hit ih =>
    have c := computeCross_core e s p mode
    rw [c.history, c.A, c.B, c.norm, c.crosses]; exact ih
  | accept s mode p s' row col i j next hs hp hit hc ih =>
    have c := computeCross_core e s p mode
    rw [hc] at c
    refine ⟨?_, fun _ => ?_⟩
    · show (s'.history ++ [_]).length = s'.A.cols + 1
      rw [List.length_append, c.history, c.A, ih.1]; rfl
    · let t := acceptCross e s' row col i j
      refine ⟨⟨t.A, t.B, t.blockNorm, t.crosses⟩, ?_, rfl, rfl, rfl, rfl⟩
      show (s'.history ++ [_]).getLast? = _
      rw [List.getLast?_append]; rfl

/-! ### Progress: a non-negligible first row gives at least one cross -/

theorem computeCross_cols (e : Env K) (s : St K) (p : Nat) (mode : Mode) :
    (computeCross e s p mode).1.A.cols = s.A.cols := by rw [(computeCross_core e s p mode).A]

theorem acaLoop_cols (e : Env K) (mode : Mode) (fuel : Nat) : ∀ (iter p : Nat) (s : St K),
    s.A.cols ≤ (acaLoop e mode fuel iter p s).1.A.cols := by
  induction fuel with
  | zero => intro _ _ _; exact le_refl _
  | succ fuel ih =>
    intro iter p s
    have h := computeCross_cols e s p mode
    unfold acaLoop
    rcases hc : computeCross e s p mode with ⟨s', r⟩
    rw [hc] at h
    cases r with
    | zero => exact h.ge
    | success row col i j next =>
      simp only
      split
      · exact h.ge
      · refine le_trans ?_ (ih _ _ _)
        show s.A.cols ≤ s'.A.cols + 1
        have : s'.A.cols = s.A.cols := h
        omega

theorem outerStep_s (e : Env K) (o : Outer K) :
    (outerStep e o).2.s = (aca e o.s o.nextPivot o.mode).1 := by
  unfold outerStep
  simp only
  rw [(nextTrial_fields _ _).1, (react_fields _ _).1]

theorem outerLoop_cols (e : Env K) (o : Outer K) :
    (aca e o.s o.nextPivot o.mode).1.A.cols ≤ (outerLoop e o).s.A.cols := by
  induction o using outerLoop.induct (e := e) with
  | case1 o hf => rw [outerLoop, dif_pos hf, outerStep_s]
  | case2 o hf ih =>
    rw [outerLoop, dif_neg hf]
    refine le_trans ?_ ih
    rw [← outerStep_s e o]
    exact acaLoop_cols _ _ _ _ _ _

theorem first_cross (e : Env K) (pm : e.PickMax) (hk : 0 < e.maxRank) (hm : 0 < e.m) (hn : 0 < e.n)
    (h : ∃ j, j < e.n ∧ ∀ j', j' < e.n →
      e.zeroTol * e.testVol e.rlo * e.trialVol (e.clo + j') ≤ ‖e.entry e.rlo (e.clo + j)‖) :
    1 ≤ (finalOuter e).s.A.cols := by
  refine le_trans ?_ (outerLoop_cols e (startOuter e))
  show 1 ≤ (acaLoop e .ROW (min e.maxRank (min e.m e.n)) 0 0 (startState e)).1.A.cols
  obtain ⟨f, hf⟩ : ∃ f, min e.maxRank (min e.m e.n) = f + 1 :=
    ⟨min e.maxRank (min e.m e.n) - 1, by omega⟩
  rw [hf]
  unfold acaLoop
  have hcross : ∃ s' row col i j next, computeCross e (startState e) 0 .ROW =
      (s', .success row col i j next) := by
    simp only [computeCross]
    split
    · rename_i hz
      exfalso
      obtain ⟨j, hj, hle⟩ := h
      rw [residualRow_eq _ _ (by rfl)] at hz
      set g : Nat → ℝ := fun j => ‖residualRow e
        { startState e with
          calls := (startState e).calls ++ [(e.rlo + 0, e.rlo + 0 + 1, e.clo, e.chi)]
          origRow := ⟨e.n, fun j => e.entry (e.rlo + 0) (e.clo + j)⟩ } 0 j‖ with hg
      obtain ⟨h1, h2⟩ := pm e.n g hn
      have h3 := hle (e.pick e.n g) h1
      have h4 := h2 j hj
      have hg' : ∀ j, g j = ‖e.entry e.rlo (e.clo + j)‖ := by
        intro j
        rw [hg]
        simp only
        rw [residualRow_eq _ _ (by rfl)]
        simp [res, St.ab, startState]
      rw [hg', hg'] at h4
      have h5 : ∀ q, res e { startState e with
          calls := (startState e).calls ++ [(e.rlo + 0, e.rlo + 0 + 1, e.clo, e.chi)]
          origRow := ⟨e.n, fun j => e.entry (e.rlo + 0) (e.clo + j)⟩ } 0 q =
            e.entry e.rlo (e.clo + q) := by
        intro q; simp [res, St.ab, startState]
      rw [h5, Nat.add_zero] at hz
      linarith
    · exact ⟨_, _, _, _, _, _, rfl⟩
  obtain ⟨s', row, col, i, j, next, hc⟩ := hcross
  have c := computeCross_core e (startState e) 0 .ROW
  rw [hc] at c
  simp only [hc]
  have hb : s'.blockNorm = 0 := c.norm
  rw [hb, mul_zero, if_neg (by have := Real.sqrt_nonneg (sqNorm e.n row); have := Real.sqrt_nonneg (sqNorm e.m col); simp only [not_lt]; positivity)]
  refine le_trans ?_ (acaLoop_cols _ _ _ _ _ _)
  show 1 ≤ s'.A.cols + 1
  omega

end Verif.HMat.Aca
