import Verif.Lemmas.PyBlocked2
import Mathlib.Tactic.IntervalCases
/-
C86: discrete blocked operators of the Python layer.
-/
namespace Verif.PyOp
noncomputable section

/-- The constructor accepts an array of operators exactly if the operators in each row have the same number of rows, those in each
column the same number of columns, and each row and column contains an operator; it raises ValueError otherwise.  The dimensions it
reports are those of the operators. -/
theorem C86_constructor (m n : Nat) (ops : Nat → Nat → Option Op) :
    ((∃ op, mkBlocks m n ops = .ok op) ↔ Covered m n ops ∧ ∃ rd cd : List Nat, rd.length = m ∧ cd.length = n ∧
      ∀ i < m, ∀ j < n, ∀ o, ops i j = some o → o.shape = (rd.getD i 0, cd.getD j 0)) ∧
    (∀ e, mkBlocks m n ops = .error e → e = .ValueError) ∧
    ∀ op, mkBlocks m n ops = .ok op → op.ndims = (m, n) ∧ op.rowDims.length = m ∧ op.colDims.length = n ∧
      op.shape = (op.rowDims.sum, op.colDims.sum) ∧
      ∀ i < m, ∀ j < n, ∀ o, ops i j = some o → o.shape = (op.rowDims.getD i 0, op.colDims.getD j 0) := by
  refine ⟨⟨fun ⟨op, h⟩ => ?_, fun ⟨hc, rd, cd, hm, hn, ho⟩ => ⟨_, mkBlocks_exists hm hn hc ho⟩⟩, fun e h => mkBlocks_error h, fun op h => ?_⟩
  · obtain ⟨rd, cd, hm, hn, hc, ho, -⟩ := mkBlocks_ok h
    exact ⟨hc, rd, cd, hm, hn, ho⟩
  · obtain ⟨rd, cd, hm, hn, hc, ho, rfl⟩ := mkBlocks_ok h
    exact ⟨by simp [BOp.ndims, hm, hn], hm, hn, rfl, ho⟩

/-- The positions of a vector with blocks of sizes `d` are the pairs of a block and a position in it: blocks follow each other without
gap or overlap. -/
theorem C86_positions (d : List Nat) (s : Nat) (hs : s < d.sum) :
    ∃! ip : Nat × Nat, ip.1 < d.length ∧ ip.2 < d.getD ip.1 0 ∧ s = offset d ip.1 + ip.2 := by
  obtain ⟨i, hi, p, hp, he⟩ := offset_exists d s hs
  refine ⟨(i, p), ⟨hi, hp, he⟩, ?_⟩
  rintro ⟨j, q⟩ ⟨-, hq, hj⟩
  obtain ⟨h1, h2⟩ := offset_unique d hp hq (he.symm.trans hj)
  simp only at h1 h2
  rw [h1, h2]

/-- Every expression built with `+`, `-`, factors and products from blocked operators, with matching block sizes, evaluates to a blocked
operator that acts as the block matrix given by matrix algebra, missing blocks being zero. -/
theorem C86_expressions (e : BExpr) (rd cd : List Nat) (M : Matrix (Fin rd.sum) (Fin cd.sum) ℂ) (h : BDenotes e rd cd M) :
    ∃ op, e.eval = .ok op ∧ op.rowDims = rd ∧ op.colDims = cd ∧ op.ndims = (rd.length, cd.length) ∧ BActs op M := by
  obtain ⟨op, h1, h2⟩ := bdenotes_brep h
  exact ⟨op, h1, h2.dims.1, h2.dims.2.1, h2.dims.2.2.2, h2.acts⟩

/-- `op[i, j]` of such an expression acts as block `(i, j)` of the block matrix. -/
theorem C86_blocks (e : BExpr) (rd cd : List Nat) (M : Matrix (Fin rd.sum) (Fin cd.sum) ℂ) (h : BDenotes e rd cd M) (op : BOp)
    (he : e.eval = .ok op) (i j : Nat) (hi : i < rd.length) (hj : j < cd.length) :
    ∃ o, op.getItem i j = .ok o ∧ ∃ (r c : Nat) (S : Matrix (Fin r) (Fin c) ℂ), IsBlock M i j S ∧ Acts o S := by
  obtain ⟨op', h1, h2⟩ := bdenotes_brep h
  rw [he] at h1
  cases h1
  obtain ⟨o, h3, h4⟩ := h2.getItem i hi j hj
  exact ⟨o, h3, _, _, _, blockEntry_isBlock M i j, h4.acts⟩

/-- `as_matrix` returns the block matrix. -/
theorem C86_as_matrix (e : BExpr) (rd cd : List Nat) (M : Matrix (Fin rd.sum) (Fin cd.sum) ℂ) (h : BDenotes e rd cd M)
    (hc : 1 ≤ cd.sum) (op : BOp) (he : e.eval = .ok op) : ∃ y, op.asMatrix = .ok y ∧ y.rows = rd.sum ∧ y.cols = cd.sum ∧
      ∀ (i : Fin rd.sum) (j : Fin cd.sum), y.e i j = M i j := by
  obtain ⟨op', h1, h2⟩ := bdenotes_brep h
  rw [he] at h1
  cases h1
  unfold BOp.asMatrix
  rw [h2.dims.2.2.1]
  obtain ⟨y, hy1, hy2, hy3, hy4, hy5⟩ := (h2.acts.2 (eye cd.sum) rfl hc (by simp [eye])).1
  refine ⟨y, hy1, hy3, hy4, fun i j => ?_⟩
  have := congrFun (hy5 j j.isLt) i
  simp only [eye, Matrix.mulVec, dotProduct] at this
  rw [this]
  rw [Finset.sum_eq_single j]
  · simp
  · intro b _ hb
    rw [if_neg (fun hh => hb (Fin.ext hh)), mul_zero]
  · simp

/-- Vectors of the wrong length are refused, by every blocked operator. -/
theorem C86_vector_length (op : BOp) (x : Arr) (h1 : x.twoD = false) (h2 : x.rows ≠ op.shape.2) :
    op.apply x = .error .ValueError := by
  unfold BOp.apply
  induction op with
  | blocks rows cols ops =>
    rw [BOp.rawMatvec, if_neg (by simp [h1]), wrapVec, if_neg (fun hh => h2 hh.1), error_bind]
  | sum a b iha ihb => rw [BOp.rawMatvec, iha h2, error_bind]
  | product a b iha ihb => rw [BOp.rawMatvec, ihb h2, error_bind]
  | scaled a c ih => rw [BOp.rawMatvec, ih h2, error_bind]

/-- Sums of operators with different block sizes are refused if both have the same number of block rows and columns, or more than one.
Missing: operators with one block row or column, which NumPy broadcasts (see the counterexample). -/
theorem C86_sum_mismatch_partial (a b : BOp) (h : a.rowDims ≠ b.rowDims ∨ a.colDims ≠ b.colDims)
    (hr : a.rowDims.length = b.rowDims.length ∨ (a.rowDims.length ≠ 1 ∧ b.rowDims.length ≠ 1))
    (hc : a.colDims.length = b.colDims.length ∨ (a.colDims.length ≠ 1 ∧ b.colDims.length ≠ 1)) :
    a.add b = .error .ValueError ∧ a.sub b = .error .ValueError := by
  have key : a.add b = .error .ValueError := by
    unfold BOp.add
    by_cases h1 : a.rowDims = b.rowDims
    · rw [anyDiffer_of_ne (h.resolve_left (not_not.mpr h1)) hc]
      simp
    · rw [anyDiffer_of_ne h1 hr]
      simp
  refine ⟨key, ?_⟩
  unfold BOp.sub
  have : a.add b.neg = a.add b >>= fun _ => a.add b.neg := by
    unfold BOp.add
    have e1 : b.neg.rowDims = b.rowDims := rfl
    have e2 : b.neg.colDims = b.colDims := rfl
    rw [e1, e2]
    split
    · rfl
    · split <;> rfl
  rw [this, key, error_bind]

/-- The same for products.  Missing: as before. -/
theorem C86_product_mismatch_partial (a b : BOp) (h : a.colDims ≠ b.rowDims)
    (hl : a.colDims.length = b.rowDims.length ∨ (a.colDims.length ≠ 1 ∧ b.rowDims.length ≠ 1)) : a.mul b = .error .ValueError := by
  unfold BOp.mul
  rw [anyDiffer_of_ne h hl]
  simp

/-! ### Examples and counterexamples -/

/-- A dense operator with entries `e`. -/
def denseOp (r c : Nat) (e : Nat → Nat → ℂ) : Op := .dense ⟨true, r, c, true, e⟩

theorem denseOp_built (r c : Nat) (e : Nat → Nat → ℂ) : Built (denseOp r c e) r c (toM r c e) :=
  ⟨.dense ⟨true, r, c, true, e⟩, ⟨rfl, fun h => (by cases h)⟩, ⟨fun _ hh => (by cases hh), fun _ hh => (by cases hh)⟩, Denotes.dense _, rfl⟩

/-- Every block array of dense operators with a block table is an example: here two block rows of heights 2 and 1, two block columns of
widths 2 and 3, and no block at `(1, 0)`. -/
def exampleOps (i j : Nat) : Option Op :=
  if i = 1 ∧ j = 0 then none
  else if i < 2 ∧ j < 2 then
    some (denseOp ([2, 1].getD i 0) ([2, 3].getD j 0) fun p q => ((i + 10 * j + 100 * p + 1000 * q : Nat) : ℂ))
  else none

def exampleBlocks (i j p q : Nat) : ℂ := if i = 1 ∧ j = 0 then 0 else ((i + 10 * j + 100 * p + 1000 * q : Nat) : ℂ)

/-- The table of a block matrix. -/
def exampleTable (s t : Nat) : ℂ :=
  exampleBlocks (if s < 2 then 0 else 1) (if t < 2 then 0 else 1) (if s < 2 then s else s - 2) (if t < 2 then t else t - 2)

theorem exampleOps_covered : Covered 2 2 exampleOps := by
  constructor
  · intro i hi
    exact ⟨1, by decide, by unfold exampleOps; rw [if_neg (by omega), if_pos ⟨hi, by decide⟩]; rfl⟩
  · intro j hj
    exact ⟨0, by decide, by unfold exampleOps; rw [if_neg (by omega), if_pos ⟨by decide, hj⟩]; rfl⟩

theorem exampleBlocksAre : BlocksAre exampleOps [2, 1] [2, 3] exampleBlocks := by
  intro i hi j hj
  have hi : i < 2 := hi
  have hj : j < 2 := hj
  unfold exampleOps
  by_cases h : i = 1 ∧ j = 0
  · rw [if_pos h]
    exact ⟨fun op ho => (by cases ho), fun _ p _ q _ => (by unfold exampleBlocks; rw [if_pos h])⟩
  · rw [if_neg h, if_pos ⟨hi, hj⟩]
    refine ⟨fun op ho => ?_, fun ho => (by cases ho)⟩
    cases ho
    have : exampleBlocks i j = fun p q => ((i + 10 * j + 100 * p + 1000 * q : Nat) : ℂ) := by
      funext p q; unfold exampleBlocks; rw [if_neg h]
    rw [this]
    exact denseOp_built _ _ _

theorem exampleIsTable : IsBlockTable [2, 1] [2, 3] exampleBlocks exampleTable := by
  intro i hi j hj p hp q hq
  have hi : i < 2 := hi
  have hj : j < 2 := hj
  unfold exampleTable
  have e1 : offset [2, 1] 1 = 2 := by simp [offset]
  have e2 : offset [2, 3] 1 = 2 := by simp [offset]
  interval_cases i <;> interval_cases j <;> simp_all [offset_zero, show ∀ q, ¬ (2 + q ≤ 1) from fun q => by omega]

theorem exampleDenotes : BDenotes (.blocks 2 2 exampleOps) [2, 1] [2, 3] (toM _ _ exampleTable) :=
  BDenotes.blocks rfl rfl exampleBlocksAre exampleOps_covered exampleIsTable

/-- The example satisfies the hypotheses of the theorems above, also in sums and with factors. -/
theorem C86_example : ∃ op, (BExpr.add (.blocks 2 2 exampleOps) (.smul ⟨Complex.I, true⟩ (.blocks 2 2 exampleOps))).eval = .ok op ∧
    BActs op (toM [2, 1].sum [2, 3].sum exampleTable + Complex.I • toM [2, 1].sum [2, 3].sum exampleTable) := by
  obtain ⟨op, h1, -, -, -, h2⟩ := C86_expressions _ _ _ _ (BDenotes.add exampleDenotes (BDenotes.smul ⟨Complex.I, true⟩ exampleDenotes))
  exact ⟨op, h1, h2⟩

/-- The operator with one block, the `1 × 1` matrix `(1)`. -/
def oneBlock : BOp := .blocks [1] [1] fun _ _ => denseOp 1 1 fun _ _ => 1

/-- The operator with two blocks below each other, the `2 × 1` matrix with entries `1` and `2`. -/
def twoBlocks : BOp := .blocks [1, 1] [1] fun i _ => denseOp 1 1 fun _ _ => ((i + 1 : Nat) : ℂ)

theorem oneBlock_table : IsBlockTable [1] [1] (fun _ _ _ _ => 1) fun _ _ => 1 := fun _ _ _ _ _ _ _ _ => rfl

theorem twoBlocks_table : IsBlockTable [1, 1] [1] (fun i _ _ _ => ((i + 1 : Nat) : ℂ)) fun s _ => ((s + 1 : Nat) : ℂ) := by
  intro i hi j hj p hp q hq
  have hi : i < 2 := hi
  have hj : j < 1 := hj
  have e1 : offset [1, 1] 1 = 1 := by simp [offset]
  interval_cases i <;> interval_cases j <;> simp_all [offset_zero]

theorem oneBlock_made : mkBlocks 1 1 (fun _ _ => some (denseOp 1 1 fun _ _ => 1)) = .ok oneBlock :=
  mkBlocks_exists (rd := [1]) (cd := [1]) rfl rfl ⟨fun _ _ => ⟨0, by decide, rfl⟩, fun _ _ => ⟨0, by decide, rfl⟩⟩
    (fun i hi j hj o ho => by
      cases ho
      interval_cases i
      interval_cases j
      rfl)

theorem twoBlocks_made : mkBlocks 2 1 (fun i _ => some (denseOp 1 1 fun _ _ => ((i + 1 : Nat) : ℂ))) = .ok twoBlocks :=
  mkBlocks_exists (rd := [1, 1]) (cd := [1]) rfl rfl ⟨fun _ _ => ⟨0, by decide, rfl⟩, fun _ _ => ⟨0, by decide, rfl⟩⟩
    (fun i hi j hj o ho => by
      cases ho
      interval_cases j
      interval_cases i <;> rfl)

/-- A matrix with too many rows is accepted: a `1 × 1` operator is applied to a `2 × 1` array and the second row is ignored. -/
theorem C86_counterexample_extra_rows : mkBlocks 1 1 (fun _ _ => some (denseOp 1 1 fun _ _ => 1)) = .ok oneBlock ∧ oneBlock.shape = (1, 1) ∧
    ∃ y, oneBlock.apply ⟨true, 2, 1, true, fun i _ => ((i + 5 : Nat) : ℂ)⟩ = .ok y ∧ y.rows = 1 ∧ y.cols = 1 ∧ y.e 0 0 = 5 := by
  refine ⟨oneBlock_made, rfl, ?_⟩
  unfold BOp.apply oneBlock
  rw [BOp.rawMatvec, if_pos rfl]
  obtain ⟨y, hy1, hy2⟩ := blocksMatmat_ok (rd := [1]) (cd := [1]) (ops := fun _ _ => denseOp 1 1 fun _ _ => 1)
    (fun i hi j hj => by
      have hi : i < 1 := hi
      have hj : j < 1 := hj
      interval_cases i
      interval_cases j
      exact (denseOp_built 1 1 fun _ _ => 1).rep) oneBlock_table ⟨true, 2, 1, true, fun i _ => ((i + 5 : Nat) : ℂ)⟩ (by decide) (by decide) rfl
  refine ⟨y, hy1, hy2.2.1, hy2.2.2.1, ?_⟩
  rw [hy2.entry (p := 0) (k := 0) (by decide) (by decide)]
  simp

/-- The product of a `1 × 1` operator and a `2 × 1` operator with two blocks is accepted, has shape `(1, 1)` and, applied to a matrix,
returns the first row of the second factor's result. -/
theorem C86_counterexample_broadcast : ∃ op, mkBlocks 1 1 (fun _ _ => some (denseOp 1 1 fun _ _ => 1)) = .ok oneBlock ∧
    mkBlocks 2 1 (fun i _ => some (denseOp 1 1 fun _ _ => ((i + 1 : Nat) : ℂ))) = .ok twoBlocks ∧
    oneBlock.shape.2 ≠ twoBlocks.shape.1 ∧ oneBlock.mul twoBlocks = .ok op ∧ op.shape = (1, 1) ∧
    ∃ y, op.apply (eye 1) = .ok y ∧ y.rows = 1 ∧ y.cols = 1 ∧ y.e 0 0 = 1 := by
  refine ⟨.product oneBlock twoBlocks, oneBlock_made, twoBlocks_made, by decide, rfl, rfl, ?_⟩
  obtain ⟨u, hu1, hu2⟩ := blocksMatmat_ok (rd := [1, 1]) (cd := [1]) (ops := fun i _ => denseOp 1 1 fun _ _ => ((i + 1 : Nat) : ℂ))
    (fun i hi j hj => by
      have hi : i < 2 := hi
      have hj : j < 1 := hj
      interval_cases j
      interval_cases i
      · exact (denseOp_built 1 1 fun _ _ => ((0 + 1 : Nat) : ℂ)).rep
      · exact (denseOp_built 1 1 fun _ _ => ((1 + 1 : Nat) : ℂ)).rep) twoBlocks_table (eye 1) (by decide) (by decide) rfl
  obtain ⟨y, hy1, hy2⟩ := blocksMatmat_ok (rd := [1]) (cd := [1]) (ops := fun _ _ => denseOp 1 1 fun _ _ => 1)
    (fun i hi j hj => by
      have hi : i < 1 := hi
      have hj : j < 1 := hj
      interval_cases i
      interval_cases j
      exact (denseOp_built 1 1 fun _ _ => 1).rep) oneBlock_table u (by rw [hu2.2.1]; decide) (by rw [hu2.2.2.1]; decide) hu2.1
  refine ⟨y, ?_, hy2.2.1, hy2.2.2.1.trans hu2.2.2.1, ?_⟩
  · unfold BOp.apply
    have h1 : twoBlocks.rawMatvec (eye 1) = .ok u := hu1
    have h2 : oneBlock.rawMatvec u = .ok y := by
      unfold oneBlock
      rw [BOp.rawMatvec, if_pos (by rw [hu2.1]; rfl)]
      exact hy1
    rw [BOp.rawMatvec, h1, ok_bind, h2]
  · rw [hy2.entry (p := 0) (k := 0) (by decide) (by rw [hu2.2.2.1]; decide)]
    rw [show [1].sum = 1 from rfl, Finset.sum_range_one, hu2.entry (p := 0) (k := 0) (by decide) (by decide)]
    simp [eye]

end

end Verif.PyOp
