import Verif.Model.Compressor
/-
Model of `HMatrixAcaCompressor` (lib/hmat/hmatrix_aca_compressor_impl.hpp).  Numbers are exact:
`K` is `ℝ` or `ℂ`.
-/
namespace Verif.HMat.Aca
open Verif.HMat

/-- `enum class ModeType { ROW, COL }` (`hmatrix_aca_compressor.hpp:21`). -/
inductive Mode where
  | ROW | COL
deriving DecidableEq, Repr

/-- `enum class AcaStatusType` (`hmatrix_aca_compressor.hpp:23-29`). -/
inductive Status where
  | CONVERGED_AFTER_ITERATION
  | CONVERGED_WITHOUT_ITERATION
  | ZERO_TERMINATION_WITHOUT_ITERATION
  | ZERO_TERMINATION_AFTER_ITERATION
  | RANK_LIMIT_REACHED
deriving DecidableEq, Repr

/-- `enum class AcaAlgorithmStateType` (`hmatrix_aca_compressor.hpp:30`). -/
inductive AlgState where
  | START | ROW_TRIAL | COLUMN_TRIAL
deriving DecidableEq, Repr

/-- The data that stay fixed during the compression of one block: the index ranges of the block,
the entry generator (`m_dataAccessor`), the dof volumes, the tolerances and `m_maxRank`.
`pick n f` models Eigen's `maxCoeff(&i, &j)` on a vector of length `n`: *some* position of a maximal
coefficient. -/
structure Env (K : Type) where
  (rlo rhi clo chi : Nat)
  entry : Nat → Nat → K
  testVol : Nat → ℝ
  trialVol : Nat → ℝ
  (eps zeroTol dblMax : ℝ)
  maxRank : Nat
  pick : Nat → (Nat → ℝ) → Nat

/-- A dynamically sized row or column vector. -/
structure Vec (K : Type) where
  len : Nat
  v : Nat → K

/-- What is recorded (by a ghost variable) after each accepted cross: the factors, the block norm and
the pivot positions (local row and column) used so far. -/
structure Snapshot (K : Type) where
  A : Mx K
  B : Mx K
  blockNorm : ℝ
  crosses : List (Nat × Nat)

/-- The variables of `compressBlockImpl` that `aca` and `computeCross` modify
(`hmatrix_aca_compressor_impl.hpp:206-224`).  Three ghost variables, which the program does not have,
record what happened: `calls` the index ranges passed to the entry generator, `crosses` the
(local) pivot positions of the crosses added to `A`, `B`, and `history` a snapshot after each of
them. -/
structure St (K : Type) where
  A : Mx K
  B : Mx K
  maxIter : Nat
  rowCnt : Nat → Nat
  colCnt : Nat → Nat
  origRow : Vec K
  origCol : Vec K
  blockNorm : ℝ
  calls : List (Nat × Nat × Nat × Nat)
  crosses : List (Nat × Nat)
  history : List (Snapshot K)

variable {K : Type} [RCLike K]

/-- Number of rows of the block. -/
def Env.m (e : Env K) : Nat := e.rhi - e.rlo
/-- Number of columns of the block. -/
def Env.n (e : Env K) : Nat := e.chi - e.clo

/-- `(A * B)(i, j)`. -/
def St.ab (s : St K) (i j : Nat) : K := ∑ k ∈ Finset.range s.A.cols, s.A.e i k * s.B.e k j

/-- `selectMinPivot` (`hmatrix_aca_compressor_impl.hpp:19-41`): `none` if it returns `false`,
otherwise the pivot. -/
noncomputable def selectMinPivot (dblMax : ℝ) (vec : Vec K) (cnt : Nat → Nat) : Option Nat :=
  open Classical in
  ((List.range vec.len).foldl (fun (acc : Option Nat × ℝ) i =>
    if cnt i = 0 ∧ ‖vec.v i‖ < acc.2 then (some i, ‖vec.v i‖) else acc) (none, dblMax)).1

/-- Result of `computeCross`: `ZERO`, or `SUCCESS` with `row`, `col`, the pivot position and the next
pivot. -/
inductive Cross (K : Type) where
  | zero
  | success (row col : Nat → K) (i j next : Nat)

/-- The residual of row `i` of the block: `row = origRow; if (A.cols() > 0 && B.rows() > 0)
row -= A.row(i) * B` (lines 77-79, 131-133). -/
def residualRow (e : Env K) (s : St K) (i : Nat) : Nat → K := fun j =>
  if s.A.cols > 0 ∧ s.B.rows > 0 then e.entry (e.rlo + i) (e.clo + j) - s.ab i j
  else e.entry (e.rlo + i) (e.clo + j)

/-- The residual of column `j` of the block (lines 94-96, 115-117). -/
def residualCol (e : Env K) (s : St K) (j : Nat) : Nat → K := fun i =>
  if s.A.cols > 0 ∧ s.B.rows > 0 then e.entry (e.rlo + i) (e.clo + j) - s.ab i j
  else e.entry (e.rlo + i) (e.clo + j)

/-- `computeCross` (`hmatrix_aca_compressor_impl.hpp:43-150`).  Returns the state with the changed
`origRow`, `origCol` and counters. -/
noncomputable def computeCross (e : Env K) (s : St K) (nextPivot : Nat) (mode : Mode) :
    St K × Cross K :=
  open Classical in
  match mode with
  | .ROW =>
    let i := nextPivot
    let s := { s with
      calls := s.calls ++ [(e.rlo + i, e.rlo + i + 1, e.clo, e.chi)]
      origRow := ⟨e.n, fun j => e.entry (e.rlo + i) (e.clo + j)⟩ }
    let row := residualRow e s i
    let j := e.pick e.n (fun j => ‖row j‖)
    let pivotValue := row j
    if ‖pivotValue‖ < e.zeroTol * e.testVol (e.rlo + i) * e.trialVol (e.clo + j) then (s, .zero)
    else
      let s := { s with
        calls := s.calls ++ [(e.rlo, e.rhi, e.clo + j, e.clo + j + 1)]
        origCol := ⟨e.m, fun i => e.entry (e.rlo + i) (e.clo + j)⟩ }
      let col := residualCol e s j
      let row := fun j => row j / pivotValue
      let next := e.pick e.m (fun i' => if i' = i then ‖(0 : K)‖ else ‖col i'‖)
      ({ s with
          rowCnt := Function.update s.rowCnt i (s.rowCnt i + 1)
          colCnt := Function.update s.colCnt j (s.colCnt j + 1) },
        .success row col i j next)
  | .COL =>
    let j := nextPivot
    let s := { s with
      calls := s.calls ++ [(e.rlo, e.rhi, e.clo + j, e.clo + j + 1)]
      origCol := ⟨e.m, fun i => e.entry (e.rlo + i) (e.clo + j)⟩ }
    let col := residualCol e s j
    let i := e.pick e.m (fun i => ‖col i‖)
    let pivotValue := col i
    if ‖pivotValue‖ < e.zeroTol * e.testVol (e.rlo + i) * e.trialVol (e.clo + j) then (s, .zero)
    else
      let s := { s with
        calls := s.calls ++ [(e.rlo + i, e.rlo + i + 1, e.clo, e.chi)]
        origRow := ⟨e.n, fun j => e.entry (e.rlo + i) (e.clo + j)⟩ }
      let row := residualRow e s i
      let col := fun i => col i / pivotValue
      let next := e.pick e.n (fun j' => if j' = j then ‖(0 : K)‖ else ‖row j'‖)
      ({ s with
          rowCnt := Function.update s.rowCnt i (s.rowCnt i + 1)
          colCnt := Function.update s.colCnt j (s.colCnt j + 1) },
        .success row col i j next)

/-- `squaredNorm()` of a vector of length `n`. -/
noncomputable def sqNorm (n : Nat) (v : Nat → K) : ℝ := ∑ i ∈ Finset.range n, ‖v i‖ ^ 2

/-- `newRow * (B.adjoint() * (A.adjoint() * newCol))` (line 163). -/
noncomputable def crossTerm (e : Env K) (A B : Mx K) (row col : Nat → K) : K :=
  ∑ j ∈ Finset.range e.n, row j * ∑ k ∈ Finset.range A.cols,
    star (B.e k j) * ∑ i ∈ Finset.range e.m, star (A.e i k) * col i

/-- `updateLowRankBlocksAndNorm` (`hmatrix_aca_compressor_impl.hpp:152-181`): the new block norm. -/
noncomputable def newNorm (e : Env K) (s : St K) (row col : Nat → K) : ℝ :=
  let base := sqNorm e.n row * sqNorm e.m col
  let total := if s.A.cols > 0 ∧ s.B.rows > 0 then
      base + (2 * RCLike.re (crossTerm e s.A s.B row col) + s.blockNorm * s.blockNorm)
    else base
  open Classical in
  Real.sqrt (if total > 0 then total else 0)

/-- `updateLowRankBlocksAndNorm` (lines 152-181): a column is appended to `A` and a row to `B`. -/
noncomputable def updateBlocks (e : Env K) (s : St K) (row col : Nat → K) (i j : Nat) : St K :=
  { s with
    A := ⟨s.A.rows, s.A.cols + 1, fun i k => if k = s.A.cols then col i else s.A.e i k⟩
    B := ⟨s.B.rows + 1, s.B.cols, fun k j => if k = s.B.rows then row j else s.B.e k j⟩
    blockNorm := newNorm e s row col
    crosses := s.crosses ++ [(i, j)] }

/-- The state after an accepted cross: `updateLowRankBlocksAndNorm` and `maxIterations--`
(lines 358-359); the ghost variable `history` is extended. -/
noncomputable def acceptCross (e : Env K) (s : St K) (row col : Nat → K) (i j : Nat) : St K :=
  let s := { updateBlocks e s row col i j with maxIter := s.maxIter - 1 }
  { s with history := s.history ++ [⟨s.A, s.B, s.blockNorm, s.crosses⟩] }

/-- The loop of `aca` (`hmatrix_aca_compressor_impl.hpp:346-370`).  `fuel` is `maxIterations` (kept
equal to `s.maxIter`), `iter` is `iterationCount`. -/
noncomputable def acaLoop (e : Env K) (mode : Mode) : (fuel : Nat) → (iter nextPivot : Nat) →
    St K → St K × Status
  | 0, _, _, s => (s, .RANK_LIMIT_REACHED)
  | fuel + 1, iter, nextPivot, s =>
    match computeCross e s nextPivot mode with
    | (s, .zero) =>
      (s, if iter = 0 then .ZERO_TERMINATION_WITHOUT_ITERATION else .CONVERGED_AFTER_ITERATION)
    | (s, .success row col i j next) =>
      open Classical in
      -- `checkConvergence` (lines 183-189)
      if Real.sqrt (sqNorm e.n row) * Real.sqrt (sqNorm e.m col) < e.eps * s.blockNorm then
        (s, if iter = 0 then .CONVERGED_WITHOUT_ITERATION else .CONVERGED_AFTER_ITERATION)
      else
        acaLoop e mode fuel (iter + 1) next (acceptCross e s row col i j)

/-- `aca` (`hmatrix_aca_compressor_impl.hpp:320-371`). -/
noncomputable def aca (e : Env K) (s : St K) (startPivot : Nat) (mode : Mode) : St K × Status :=
  acaLoop e mode s.maxIter 0 startPivot s

/-- The variables of the outer loop of `compressBlockImpl` (lines 227-246).  `acaCalls` is a ghost
counter of the calls of `aca`. -/
structure Outer (K : Type) where
  s : St K
  state : AlgState
  nextPivot : Nat
  mode : Mode
  (rowTrialPassed columnTrialPassed : Bool)
  (rowTrialCount columnTrialCount : Nat)
  (rowZero columnZero : Bool)
  acaCalls : Nat

/-- Lines 253-294: the reaction to the status; the Boolean is `finished`. -/
def react (o : Outer K) (st : Status) : Bool × Outer K :=
  match st with
  | .RANK_LIMIT_REACHED => (true, o)
  | .CONVERGED_WITHOUT_ITERATION =>
    let o := match o.state with
      | .START => { o with state := .ROW_TRIAL }
      | .ROW_TRIAL => { o with rowTrialPassed := true, state := .COLUMN_TRIAL }
      | .COLUMN_TRIAL => { o with columnTrialPassed := true, state := .ROW_TRIAL }
    (o.rowTrialPassed && o.columnTrialPassed, o)
  | .CONVERGED_AFTER_ITERATION | .ZERO_TERMINATION_AFTER_ITERATION =>
    (false, { o with
      rowTrialPassed := false, columnTrialPassed := false, rowZero := false, columnZero := false
      state := if o.mode = .ROW then .ROW_TRIAL else .COLUMN_TRIAL })
  | .ZERO_TERMINATION_WITHOUT_ITERATION =>
    let o := if o.mode = .ROW then { o with rowZero := true, state := .ROW_TRIAL }
      else { o with columnZero := true, state := .COLUMN_TRIAL }
    (o.rowZero && o.columnZero, o)

/-- Lines 295-314: the choice of the next trial. -/
noncomputable def nextTrial (dblMax : ℝ) (r : Bool × Outer K) : Bool × Outer K :=
  if r.1 then r
  else match r.2.state with
    | .ROW_TRIAL =>
      if r.2.rowTrialCount < 1 then
        match selectMinPivot dblMax r.2.s.origRow r.2.s.colCnt with
        | some p => (false, { r.2 with nextPivot := p, mode := .COL,
                                       rowTrialCount := r.2.rowTrialCount + 1 })
        | none => (true, r.2)
      else (true, r.2)
    | .COLUMN_TRIAL =>
      if r.2.columnTrialCount < 1 then
        match selectMinPivot dblMax r.2.s.origCol r.2.s.rowCnt with
        | some p => (false, { r.2 with nextPivot := p, mode := .ROW,
                                       columnTrialCount := r.2.columnTrialCount + 1 })
        | none => (true, r.2)
      else (true, r.2)
    | .START => (false, r.2)

/-- One iteration of `while (!finished)` (lines 248-315). -/
noncomputable def outerStep (e : Env K) (o : Outer K) : Bool × Outer K :=
  let r := aca e o.s o.nextPivot o.mode
  nextTrial e.dblMax (react { o with s := r.1, acaCalls := o.acaCalls + 1 } r.2)

/-- Trials that are still allowed. -/
def Outer.trialsLeft (o : Outer K) : Nat := (1 - o.rowTrialCount) + (1 - o.columnTrialCount)

theorem react_state (o : Outer K) (st : Status) :
    (react o st).1 = true ∨ (react o st).2.state ≠ .START := by
  cases st
  · right; simp only [react]; split <;> simp
  · right; simp only [react]; split <;> simp
  · right; simp only [react]; split <;> simp
  · right; simp only [react]; split <;> simp
  · left; rfl

theorem react_trials (o : Outer K) (st : Status) :
    (react o st).2.trialsLeft = o.trialsLeft := by
  cases st
  · rfl
  · simp only [react, Outer.trialsLeft]; split <;> rfl
  · simp only [react, Outer.trialsLeft]; split <;> rfl
  · rfl
  · rfl

/-- Every iteration of the outer loop that does not finish uses up one trial: the loop terminates. -/
theorem outerStep_progress (e : Env K) (o : Outer K) (h : (outerStep e o).1 = false) :
    (outerStep e o).2.trialsLeft < o.trialsLeft := by
  unfold outerStep at h ⊢
  simp only at h ⊢
  set o' : Outer K := { o with s := (aca e o.s o.nextPivot o.mode).1, acaCalls := o.acaCalls + 1 }
  set st := (aca e o.s o.nextPivot o.mode).2
  have ht : (react o' st).2.trialsLeft = o.trialsLeft := react_trials o' st
  have hs := react_state o' st
  rw [← ht]
  generalize react o' st = r at h hs ⊢
  unfold nextTrial at h ⊢
  by_cases hr : r.1 = true
  · simp [hr] at h
  · rw [if_neg hr] at h ⊢
    have hs := hs.resolve_left hr
    cases hst : r.2.state with
    | START => exact absurd hst hs
    | ROW_TRIAL =>
      simp only [hst] at h ⊢
      by_cases hc : r.2.rowTrialCount < 1
      · rw [if_pos hc] at h ⊢
        cases hp : selectMinPivot e.dblMax r.2.s.origRow r.2.s.colCnt with
        | none => simp [hp] at h
        | some p => simp only [Outer.trialsLeft]; omega
      · simp [hc] at h
    | COLUMN_TRIAL =>
      simp only [hst] at h ⊢
      by_cases hc : r.2.columnTrialCount < 1
      · rw [if_pos hc] at h ⊢
        cases hp : selectMinPivot e.dblMax r.2.s.origCol r.2.s.rowCnt with
        | none => simp [hp] at h
        | some p => simp only [Outer.trialsLeft]; omega
      · simp [hc] at h

/-- `while (!finished)` (lines 248-315). -/
noncomputable def outerLoop (e : Env K) (o : Outer K) : Outer K :=
  if _h : (outerStep e o).1 = true then (outerStep e o).2 else outerLoop e (outerStep e o).2
termination_by o.trialsLeft
decreasing_by exact outerStep_progress e o (by simpa using _h)

/-- The state before the loop (lines 206-246). -/
def startState (e : Env K) : St K where
  A := ⟨e.m, 0, fun _ _ => 0⟩
  B := ⟨0, e.n, fun _ _ => 0⟩
  maxIter := min e.maxRank (min e.m e.n)
  rowCnt := fun _ => 0
  colCnt := fun _ => 0
  origRow := ⟨0, fun _ => 0⟩
  origCol := ⟨0, fun _ => 0⟩
  blockNorm := 0
  calls := []
  crosses := []
  history := []

/-- The outer variables before the loop (lines 227-246). -/
def startOuter (e : Env K) : Outer K where
  s := startState e
  state := .START
  nextPivot := 0
  mode := .ROW
  rowTrialPassed := false
  columnTrialPassed := false
  rowTrialCount := 0
  columnTrialCount := 0
  rowZero := false
  columnZero := false
  acaCalls := 0

/-- Everything known at the end of `compressBlockImpl` for an admissible block. -/
noncomputable def finalOuter (e : Env K) : Outer K := outerLoop e (startOuter e)

/-- `compressBlockImpl` (`hmatrix_aca_compressor_impl.hpp:191-318`): an inadmissible block is handed
to the dense compressor. -/
noncomputable def acaCompress {G : Type} (env : BlockData G → Env K) (b : BlockData G) : HData K :=
  if b.adm then .lowRank (finalOuter (env b)).s.A (finalOuter (env b)).s.B
  else denseCompress (env b).entry b

end Verif.HMat.Aca
