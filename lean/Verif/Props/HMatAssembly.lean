import Verif.Lemmas.HMatAssembly
import Verif.Props.Assembly
import Verif.Model.HMatGlobalAssembler
/-
Properties C22 (blocks generated for H-matrices) and C52 (H-matrix mode with the dense compressor).
-/
namespace Verif.Assembly
open Verif.Space Verif.HMat Verif.Grid Finset

variable {K : Type} [CommRing K] [StarRing K] {D : Type}

/-- What one pair of entries of the two dof lists adds to `(i, j)` for one term. -/
def pairTerm (minDist : D) (i j : Int) (x y : Nat × Nat × K × Nat) (μ : Term K D) : K :=
  if (x.2.2.2 : Int) = i ∧ (y.2.2.2 : Int) = j then
    μ.1 * star x.2.2.1 * y.2.2.1 * μ.2 minDist x.1 y.1 x.2.1 y.2.1 else 0

theorem sum_rows (L : LocalDofLists K) (f : Nat × Nat × K × Nat → K) :
    (L.rows.map fun r => (r.2.map fun q => f (r.1, q)).sum).sum = (L.entries.map f).sum := by
  unfold LocalDofLists.entries
  rw [sum_flatMap]
  simp only [List.map_map]
  rfl

theorem contrib_map {α : Type} (l : List α) (f : α → Int × Int × K) (i j : Int) :
    contrib (l.map f) i j = (l.map fun x => if (f x).1 = i ∧ (f x).2.1 = j then (f x).2.2 else 0).sum := by
  unfold contrib
  rw [List.map_map]; rfl

theorem contrib_blockAdditions (terms : List (Term K D)) (minDist : D) (test trial : LocalDofLists K) (nt nu : Nat)
    (htest : nt = 1 → ∀ x ∈ test.entries, x.2.2.2 = 0) (htrial : nu = 1 → ∀ y ∈ trial.entries, y.2.2.2 = 0)
    (i j : Int) :
    contrib (blockAdditions terms minDist test trial nt nu) i j =
      (terms.map fun μ => (test.entries.map fun x => (trial.entries.map fun y =>
        pairTerm minDist i j x y μ).sum).sum).sum := by
  unfold blockAdditions
  split
  · rename_i h
    simp only [contrib_flatMap, contrib_map]
    rw [sum_rows trial (fun y => (terms.map fun μ => (test.rows.map fun t => (t.2.map fun x =>
      if (x.2.2 : Int) = i ∧ (0 : Int) = j then
        μ.1 * star x.2.1 * y.2.2.1 * μ.2 minDist t.1 y.1 x.1 y.2.1 else 0).sum).sum).sum)]
    rw [sum_swap]
    congr 1
    refine List.map_congr_left fun μ _ => ?_
    conv_rhs => rw [sum_swap test.entries trial.entries]
    congr 1
    refine List.map_congr_left fun y hy => ?_
    rw [sum_rows test (fun x => if (x.2.2.2 : Int) = i ∧ (0 : Int) = j then
        μ.1 * star x.2.2.1 * y.2.2.1 * μ.2 minDist x.1 y.1 x.2.1 y.2.1 else 0)]
    congr 1
    refine List.map_congr_left fun x _ => ?_
    unfold pairTerm
    rw [htrial h y hy]; rfl
  · split
    · rename_i h
      simp only [contrib_flatMap, contrib_map]
      rw [sum_rows test (fun x => (terms.map fun μ => (trial.rows.map fun u => (u.2.map fun y =>
        if (0 : Int) = i ∧ (y.2.2 : Int) = j then
          μ.1 * star x.2.2.1 * y.2.1 * μ.2 minDist x.1 u.1 x.2.1 y.1 else 0).sum).sum).sum)]
      rw [sum_swap]
      congr 1
      refine List.map_congr_left fun μ _ => ?_
      congr 1
      refine List.map_congr_left fun x hx => ?_
      rw [sum_rows trial (fun y => if (0 : Int) = i ∧ (y.2.2.2 : Int) = j then
          μ.1 * star x.2.2.1 * y.2.2.1 * μ.2 minDist x.1 y.1 x.2.1 y.2.1 else 0)]
      congr 1
      refine List.map_congr_left fun y _ => ?_
      unfold pairTerm
      rw [htest h x hx]; rfl
    · split
      · simp only [contrib_flatMap, contrib_map]
        congr 1
        refine List.map_congr_left fun μ _ => ?_
        rw [sum_rows trial (fun y => (test.rows.map fun t => (t.2.map fun x =>
          if (x.2.2 : Int) = i ∧ (y.2.2.2 : Int) = j then
            μ.1 * star x.2.1 * y.2.2.1 * μ.2 minDist t.1 y.1 x.1 y.2.1 else 0).sum).sum)]
        conv_rhs => rw [sum_swap test.entries trial.entries]
        congr 1
        refine List.map_congr_left fun y hy => ?_
        exact sum_rows test (fun x => pairTerm minDist i j x y μ)
      · simp only [contrib_flatMap, contrib_map]
        rw [sum_rows test (fun x => (terms.map fun μ => (trial.rows.map fun u => (u.2.map fun y =>
          if (x.2.2.2 : Int) = i ∧ (y.2.2 : Int) = j then
            μ.1 * star x.2.2.1 * y.2.1 * μ.2 minDist x.1 u.1 x.2.1 y.1 else 0).sum).sum).sum)]
        rw [sum_swap]
        congr 1
        refine List.map_congr_left fun μ _ => ?_
        congr 1
        refine List.map_congr_left fun x hx => ?_
        exact sum_rows trial (fun y => pairTerm minDist i j x y μ)

theorem mem_blockAdditions (terms : List (Term K D)) (minDist : D) (test trial : LocalDofLists K) (nt nu : Nat)
    (ht : ∀ x ∈ test.entries, x.2.2.2 < nt) (hu : ∀ y ∈ trial.entries, y.2.2.2 < nu) :
    ∀ w ∈ blockAdditions terms minDist test trial nt nu, InRange nt nu w := by
  have et : ∀ t ∈ test.rows, ∀ x ∈ t.2, x.2.2 < nt := fun t h1 x h2 =>
    ht (t.1, x) (List.mem_flatMap.mpr ⟨t, h1, List.mem_map.mpr ⟨x, h2, rfl⟩⟩)
  have eu : ∀ t ∈ trial.rows, ∀ x ∈ t.2, x.2.2 < nu := fun t h1 x h2 =>
    hu (t.1, x) (List.mem_flatMap.mpr ⟨t, h1, List.mem_map.mpr ⟨x, h2, rfl⟩⟩)
  intro w hw
  unfold blockAdditions at hw
  unfold InRange
  split at hw
  · simp only [List.mem_flatMap, List.mem_map] at hw
    obtain ⟨u, hu', y, hy, μ, -, t, ht', x, hx, rfl⟩ := hw
    have := et t ht' x hx
    simp only; omega
  · split at hw
    · simp only [List.mem_flatMap, List.mem_map] at hw
      obtain ⟨t, ht', x, hx, μ, -, u, hu', y, hy, rfl⟩ := hw
      have := eu u hu' y hy
      simp only; omega
    · split at hw
      · simp only [List.mem_flatMap, List.mem_map] at hw
        obtain ⟨μ, -, u, hu', y, hy, t, ht', x, hx, rfl⟩ := hw
        have := et t ht' x hx
        have := eu u hu' y hy
        simp only; omega
      · simp only [List.mem_flatMap, List.mem_map] at hw
        obtain ⟨t, ht', x, hx, μ, -, u, hu', y, hy, rfl⟩ := hw
        have := et t ht' x hx
        have := eu u hu' y hy
        simp only; omega

theorem sum_range_pick (n i : Nat) (hi : i < n) (f : Nat → K) :
    ((List.range n).map fun k => if k = i then f k else 0).sum = f i := by
  rw [sum_list_range, Finset.sum_ite_eq' (range n) i f, if_pos (Finset.mem_range.mpr hi)]

/-- Sum over the entries of a dof list at array index `i` = sum over the local dofs that carry the original dof. -/
theorem sum_entries (sp : ASpace K) (hv : sp.Valid) (p2o : List Nat) (start count : Nat) (L : LocalDofLists K)
    (hlen : start + count ≤ p2o.length) (hp : ∀ k, k < p2o.length → p2o.getD k 0 < sp.globalDofCount)
    (hL : L.entries.Perm ((List.range count).flatMap fun i =>
        (sp.maps.globalToLocal (p2o.getD (start + i) 0)).map fun ld =>
          (ld.entityIndex, ld.dofIndex, sp.weight ld.entityIndex ld.dofIndex, i)))
    (i : Nat) (hi : i < count) (F : Nat → Nat → K → K) :
    (L.entries.map fun x => if x.2.2.2 = i then F x.1 x.2.1 x.2.2.1 else 0).sum =
      ∑ e ∈ range sp.elementCount, ∑ a ∈ range (sp.gdofs e).length,
        if sp.maps.At ⟨e, a⟩ (p2o.getD (start + i) 0 : Nat) then F e a (sp.weight e a) else 0 := by
  rw [(hL.map _).sum_eq, sum_flatMap]
  simp only [List.map_map, Function.comp_def]
  have : ∀ k, ((sp.maps.globalToLocal (p2o.getD (start + k) 0)).map fun ld =>
      if k = i then F ld.entityIndex ld.dofIndex (sp.weight ld.entityIndex ld.dofIndex) else 0).sum =
      if k = i then ((sp.maps.globalToLocal (p2o.getD (start + k) 0)).map fun ld =>
        F ld.entityIndex ld.dofIndex (sp.weight ld.entityIndex ld.dofIndex)).sum else 0 := by
    intro k
    split
    · rfl
    · simp
  simp only [this]
  rw [sum_range_pick count i hi]
  exact sum_globalToLocal sp hv _ (hp _ (by omega)) (fun e a => F e a (sp.weight e a))

/-- **C22** For all valid spaces, all dof orderings, all sums of integral operators and all index ranges: the block
computed for H-matrix indices `r0..r1-1`, `c0..c1-1` has, at `(i, j)`, the sum over the terms of multiplier times the
entry of the (densely assembled) weak form at the original dofs `p2oRow[r0+i]`, `p2oCol[c0+j]`, evaluated with
the nominal distance of the block.  In particular the result does not depend on which of the four strategies
is used. -/
theorem C22_block_entries (T U : ASpace K) (hT : T.Valid) (hU : U.Valid) (p2oRow p2oCol : List Nat)
    (hR : ∀ k, k < p2oRow.length → p2oRow.getD k 0 < T.globalDofCount)
    (hC : ∀ k, k < p2oCol.length → p2oCol.getD k 0 < U.globalDofCount)
    (terms : List (Term K D)) (minDist : D) (r0 r1 c0 c1 : Nat) (hr : r0 ≤ r1) (hr1 : r1 ≤ p2oRow.length)
    (hc : c0 ≤ c1) (hc1 : c1 ≤ p2oCol.length) :
    ∃ M, computeMatrixBlock T U p2oRow p2oCol terms minDist r0 r1 c0 c1 = some M ∧
      M.rows = r1 - r0 ∧ M.cols = c1 - c0 ∧
      ∀ i j : Nat, i < M.rows → j < M.cols → M.e i j =
        (terms.map fun μ => μ.1 * weakFormEntry T U (μ.2 minDist)
          (p2oRow.getD (r0 + i) 0) (p2oCol.getD (c0 + j) 0)).sum := by
  obtain ⟨LT, hLT, -, hpT⟩ := computeDofLists_ok T hT p2oRow r0 (r1 - r0) (by omega) hR
  obtain ⟨LU, hLU, -, hpU⟩ := computeDofLists_ok U hU p2oCol c0 (c1 - c0) (by omega) hC
  have hmT : ∀ x ∈ LT.entries, x.2.2.2 < r1 - r0 := by
    intro x hx
    obtain ⟨k, hk, hx⟩ := List.mem_flatMap.mp (hpT.mem_iff.mp hx)
    obtain ⟨ld, -, rfl⟩ := List.mem_map.mp hx
    exact List.mem_range.mp hk
  have hmU : ∀ x ∈ LU.entries, x.2.2.2 < c1 - c0 := by
    intro x hx
    obtain ⟨k, hk, hx⟩ := List.mem_flatMap.mp (hpU.mem_iff.mp hx)
    obtain ⟨ld, -, rfl⟩ := List.mem_map.mp hx
    exact List.mem_range.mp hk
  obtain ⟨M, h1, h2, h3, h4⟩ := addAll_ok (blockAdditions terms minDist LT LU (r1 - r0) (c1 - c0))
    (Mx.zero (r1 - r0) (c1 - c0)) (mem_blockAdditions terms minDist LT LU _ _ hmT hmU)
  refine ⟨M, ?_, h2, h3, ?_⟩
  · unfold computeMatrixBlock
    rw [hLT, hLU]
    exact h1
  · intro i j hi hj
    have hi' : i < r1 - r0 := by rw [h2] at hi; exact hi
    have hj' : j < c1 - c0 := by rw [h3] at hj; exact hj
    rw [h4, contrib_blockAdditions terms minDist LT LU _ _
      (fun h x hx => by have := hmT x hx; omega) (fun h y hy => by have := hmU y hy; omega)]
    simp only [Mx.zero, zero_add]
    congr 1
    refine List.map_congr_left fun μ _ => ?_
    have step : ∀ x : Nat × Nat × K × Nat, (LU.entries.map fun y => pairTerm minDist i j x y μ).sum =
        if x.2.2.2 = i then (fun e a w => ∑ e' ∈ range U.elementCount, ∑ b ∈ range (U.gdofs e').length,
          if U.maps.At ⟨e', b⟩ (p2oCol.getD (c0 + j) 0 : Nat) then
            μ.1 * star w * U.weight e' b * μ.2 minDist e e' a b else 0) x.1 x.2.1 x.2.2.1 else 0 := by
      intro x
      split
      · rename_i hx
        simp only
        rw [← sum_entries U hU p2oCol c0 (c1 - c0) LU (by omega) hC hpU j hj'
          (fun e' b w => μ.1 * star x.2.2.1 * w * μ.2 minDist x.1 e' x.2.1 b)]
        congr 1
        refine List.map_congr_left fun y _ => ?_
        unfold pairTerm
        simp only [hx, Nat.cast_inj, true_and]
      · rename_i hx
        apply List.sum_eq_zero
        intro z hz
        obtain ⟨y, -, rfl⟩ := List.mem_map.mp hz
        unfold pairTerm
        rw [if_neg]
        rintro ⟨h, -⟩
        exact hx (by exact_mod_cast h)
    rw [List.map_congr_left (fun x _ => step x)]
    refine (sum_entries T hT p2oRow r0 (r1 - r0) LT (by omega) hR hpT i hi' (fun e a w =>
      ∑ e' ∈ range U.elementCount, ∑ b ∈ range (U.gdofs e').length,
          if U.maps.At ⟨e', b⟩ (p2oCol.getD (c0 + j) 0 : Nat) then
            μ.1 * star w * U.weight e' b * μ.2 minDist e e' a b else 0)).trans ?_
    unfold weakFormEntry
    rw [Finset.mul_sum]
    refine Finset.sum_congr rfl fun e _ => ?_
    rw [Finset.mul_sum]
    refine Finset.sum_congr rfl fun a _ => ?_
    split
    · rename_i ha
      rw [Finset.mul_sum]
      refine Finset.sum_congr rfl fun e' _ => ?_
      rw [Finset.mul_sum]
      refine Finset.sum_congr rfl fun b _ => ?_
      by_cases hb : U.maps.At ⟨e', b⟩ (p2oCol.getD (c0 + j) 0 : Nat)
      · rw [if_pos hb, if_pos ⟨ha, hb⟩]; ring
      · rw [if_neg hb, if_neg (fun h => hb h.2), mul_zero]
    · rename_i ha
      symm
      rw [Finset.sum_eq_zero, mul_zero]
      intro e' _
      refine Finset.sum_eq_zero fun b _ => ?_
      rw [if_neg (fun h => ha h.1)]

/-- **C22** If the integrals do not depend on the nominal distance handed to the quadrature rule selection: the
block generated for one operator equals the permuted sub-block of the densely assembled matrix. -/
theorem C22_block_of_dense (T U : ASpace K) (hT : T.Valid) (hU : U.Valid) (p2oRow p2oCol : List Nat)
    (hR : ∀ k, k < p2oRow.length → p2oRow.getD k 0 < T.globalDofCount)
    (hC : ∀ k, k < p2oCol.length → p2oCol.getD k 0 < U.globalDofCount)
    (form : Nat → Nat → Nat → Nat → K) (minDist : D) (r0 r1 c0 c1 : Nat) (hr : r0 ≤ r1) (hr1 : r1 ≤ p2oRow.length)
    (hc : c0 ≤ c1) (hc1 : c1 ≤ p2oCol.length) (A : Mx K) (hA : DenseRun T U form (some A)) :
    ∃ M, computeMatrixBlock T U p2oRow p2oCol [(1, fun _ => form)] minDist r0 r1 c0 c1 = some M ∧
      M.rows = r1 - r0 ∧ M.cols = c1 - c0 ∧
      ∀ i j : Nat, i < M.rows → j < M.cols →
        M.e i j = A.e (p2oRow.getD (r0 + i) 0) (p2oCol.getD (c0 + j) 0) := by
  obtain ⟨M, h1, h2, h3, h4⟩ := C22_block_entries T U hT hU p2oRow p2oCol hR hC [(1, fun _ => form)] minDist
    r0 r1 c0 c1 hr hr1 hc hc1
  obtain ⟨A', q1, q2, q3, q4⟩ := C45_dense_assembly T U hT hU form _ hA
  injection q1 with q1; subst q1
  refine ⟨M, h1, h2, h3, fun i j hi hj => ?_⟩
  rw [h4 i j hi hj, q4 _ _ (by rw [q2]; exact hR _ (by omega)) (by rw [q3]; exact hC _ (by omega))]
  simp

/-! ### C52 -/

/-- **C52** (partial: for integrals that do not depend on the nominal distance; see
`C52_counterexample_distance`.)  In H-matrix mode with compression "dense", for all spaces, cluster trees,
admissibility functions, cutoffs and distances: every block of the H-matrix is generated without undefined behaviour,
and applying the H-matrix in any mode computes `beta * Y + alpha * op(A) * X` with the densely assembled
matrix `A`. -/
theorem C52_hmat_dense_partial {G : Type} [DecidableEq K] [LE D] [DecidableLE D] (s : HSetup G) (T U : ASpace K)
    (hT : T.Valid) (hU : U.Valid) (hrows : s.rows = T.globalDofCount) (hcols : s.cols = U.globalDofCount)
    (form : Nat → Nat → Nat → Nat → K) (cutoff : D) (dist : BlockData G → D) (aca : BlockData G → HData K)
    (A : Mx K) (hA : DenseRun T U form (some A)) :
    (∀ b ∈ NTree.leafNodes s.tree,
      (weakFormBlock T U s.pR.h2o s.pC.h2o [((1 : K), fun _ => form)] dist b.data).isSome = true) ∧
    ∃ compress, assembleHMat "dense" cutoff aca T U s.pR.h2o s.pC.h2o (fun _ => form) dist = .ok compress ∧
      ∀ (t : TransposeMode) (α β : K) (X : Mx K) (Y : Mx (HMatrix.Cell K)), X.rows = s.inRows t → Y.rows = s.outRows t →
        Y.cols = X.cols → (β ≠ 0 → Y.Defined) →
        (∃ Y', HMatrix.Run [s.process compress 1 0] t α β X [Y] Y') ∧
        ∀ Y', HMatrix.Run [s.process compress 1 0] t α β X [Y] Y' →
          Y'.rows = s.outRows t ∧ Y'.cols = X.cols ∧
          ∀ i j, i < s.outRows t → j < X.cols →
            Y'.e i j = some (β * (Y.e i j).getD 0 + α * ∑ l ∈ range (s.inRows t), opEntry t A.e i l * X.e l j) := by
  have okR : PermOK s.rows s.pR := permOK_of_dofPermutation s.hR
  have okC : PermOK s.cols s.pC := permOK_of_dofPermutation s.hC
  have lenR : s.pR.h2o.length = s.rows := by rw [okR.h2o.length_eq]; simp
  have lenC : s.pC.h2o.length = s.cols := by rw [okC.h2o.length_eq]; simp
  have hR : ∀ k, k < s.pR.h2o.length → s.pR.h2o.getD k 0 < T.globalDofCount := by
    intro k hk
    rw [List.getD_eq_getElem _ _ hk, ← hrows]
    exact List.mem_range.mp (okR.h2o.mem_iff.mp (List.getElem_mem hk))
  have hC : ∀ k, k < s.pC.h2o.length → s.pC.h2o.getD k 0 < U.globalDofCount := by
    intro k hk
    rw [List.getD_eq_getElem _ _ hk, ← hcols]
    exact List.mem_range.mp (okC.h2o.mem_iff.mp (List.getElem_mem hk))
  have blk : ∀ b ∈ NTree.leafNodes s.tree, ∃ M,
      weakFormBlock T U s.pR.h2o s.pC.h2o [((1 : K), fun _ => form)] dist b.data = some (.dense M) ∧
      M.rows = b.data.row.data.hi - b.data.row.data.lo ∧ M.cols = b.data.col.data.hi - b.data.col.data.lo ∧
      ∀ i j : Nat, i < M.rows → j < M.cols →
        M.e i j = A.e (s.pR.h2o.getD (b.data.row.data.lo + i) 0) (s.pC.h2o.getD (b.data.col.data.lo + j) 0) := by
    intro b hb
    have hl := leaf_ranges s b hb
    obtain ⟨M, h1, h2⟩ := C22_block_of_dense T U hT hU s.pR.h2o s.pC.h2o hR hC form (dist b.data) b.data.row.data.lo
      b.data.row.data.hi b.data.col.data.lo b.data.col.data.hi hl.1 (by omega) hl.2.2.1 (by omega) A hA
    refine ⟨M, ?_, h2⟩
    unfold weakFormBlock
    rw [h1]; rfl
  refine ⟨fun b hb => ?_, _, rfl, ?_⟩
  · obtain ⟨M, h, -⟩ := blk b hb
    rw [h]; rfl
  · intro t α β X Y hX hY hq hdef
    refine C11_apply_correct s _ A.e ?_ ?_ t α β X Y hX hY hq hdef
    · intro b hb
      obtain ⟨M, h, h2, h3, -⟩ := blk b hb
      simp only [compressBlock, h, Option.getD_some]
      exact ⟨h2, h3⟩
    · intro b hb i j I J hI hJ hcov
      obtain ⟨M, h, h2, h3, h4⟩ := blk b hb
      have hi : i < s.rows := by
        have := (List.getElem?_eq_some_iff.mp hI).1; rw [okR.o2h.length_eq] at this; simpa using this
      have hj : j < s.cols := by
        have := (List.getElem?_eq_some_iff.mp hJ).1; rw [okC.o2h.length_eq] at this; simpa using this
      obtain ⟨I', _, e1, e2⟩ := okR.fwd i hi
      rw [hI] at e1; injection e1 with e1; subst e1
      obtain ⟨J', _, e3, e4⟩ := okC.fwd j hj
      rw [hJ] at e3; injection e3 with e3; subst e3
      have hc := decide_eq_true_iff.mp (show decide _ = true from hcov)
      simp only [compressBlock, h, Option.getD_some]
      show A.e i j = M.e _ _
      have x1 : b.data.row.data.lo + (I - b.data.row.data.lo) = I := by omega
      have x2 : b.data.col.data.lo + (J - b.data.col.data.lo) = J := by omega
      rw [h4 _ _ (by omega) (by omega), x1, x2, List.getD_eq_getElem?_getD, List.getD_eq_getElem?_getD, e2, e4]
      rfl

/-- **C52** A compression algorithm other than "aca" and "dense" is refused with an exception. -/
theorem C52_unknown_algorithm {G : Type} [LE D] [DecidableLE D] (alg : String) (h1 : alg ≠ "aca") (h2 : alg ≠ "dense")
    (cutoff : D) (aca : BlockData G → HData K) (T U : ASpace K) (p q : List Nat)
    (form : D → Nat → Nat → Nat → Nat → K) (dist : BlockData G → D) :
    ∃ msg, assembleHMat alg cutoff aca T U p q form dist = .error msg := by
  unfold assembleHMat
  rw [if_neg h1, if_neg h2]
  exact ⟨_, rfl⟩

/-- The P1 space on one triangle, with integer weights 1. -/
def triSpace : ASpace Int := weighted ⟨[[0, 1, 2]], [[⟨0, 0⟩], [⟨0, 1⟩], [⟨0, 2⟩]]⟩ fun _ => 1

theorem triSpace_valid : triSpace.Valid := by
  have hm : assignP1 (book 1) (wholeGrid (book 1)) false =
      .ok ⟨[[0, 1, 2]], [[⟨0, 0⟩], [⟨0, 1⟩], [⟨0, 2⟩]]⟩ := by
    simp only [assignP1, p1Writes_eq, p1Numbering, p1Marks, excludedMarks_eq _ (book 1).dim (by decide)]; decide
  exact p1_valid (K := Int) (book 1) (book_WF 1 (by decide)) (Or.inr rfl) (wholeGrid (book 1)) (fun _ => rfl) false _ hm

theorem triSpace_run (form : Nat → Nat → Nat → Nat → Int) :
    DenseRun triSpace triSpace form (assembleInOrder triSpace triSpace form [0]) :=
  ⟨[[0]], [0], rfl, HMatrix.Interleaving.step [] [] 0 [] [] (.drop [] [] [] .done), rfl⟩

/-- **C52 is false for quadrature rules chosen by distance**: the dense assembler evaluates the integrals without a
nominal distance (here `-1`), the H-matrix assembler with the distance of the bounding boxes of the clusters
(here 5).  With an integral that depends on it, the (permuted) block differs from the dense matrix. -/
theorem C52_counterexample_distance : ∃ (form : Int → Nat → Nat → Nat → Nat → Int) (A M : Mx Int),
    DenseRun triSpace triSpace (form (-1)) (some A) ∧
    computeMatrixBlock triSpace triSpace [2, 0, 1] [2, 0, 1] [(1, form)] 5 0 3 0 3 = some M ∧
    M.e 0 0 ≠ A.e 2 2 := by
  refine ⟨fun d _ _ _ _ => d, _, _, triSpace_run _, rfl, ?_⟩
  decide

/-- Non-vacuity of C22: on one triangle with the permutation [2, 0, 1], the single-column block of H-matrix rows 1..2
and H-matrix column 2 is generated and contains the entries (0, 1) and (1, 1) of the dense matrix. -/
example (form : Nat → Nat → Nat → Nat → Int) :
    ∃ M, computeMatrixBlock triSpace triSpace [2, 0, 1] [2, 0, 1] [(1, fun (_ : Int) => form)] 5 1 3 2 3 = some M ∧
      M.rows = 2 ∧ M.cols = 1 ∧ M.e 0 0 = form 0 0 0 1 ∧ M.e 1 0 = form 0 0 1 1 := by
  obtain ⟨A, h1, h2, h3, h4⟩ := C45_dense_assembly _ _ triSpace_valid triSpace_valid form _ (triSpace_run form)
  have hp : ∀ k, k < [2, 0, 1].length → [2, 0, 1].getD k 0 < triSpace.globalDofCount := by decide
  obtain ⟨M, q1, q2, q3, q4⟩ := C22_block_of_dense triSpace triSpace triSpace_valid triSpace_valid [2, 0, 1] [2, 0, 1]
    hp hp form (5 : Int) 1 3 2 3 (by decide) (by decide) (by decide) (by decide) A (h1 ▸ triSpace_run form)
  refine ⟨M, q1, q2, q3, ?_, ?_⟩
  · rw [q4 0 0 (by omega) (by omega)]
    refine (h4 0 1 (by rw [h2]; decide) (by rw [h3]; decide)).trans ?_
    simp [weakFormEntry, triSpace, weighted, ASpace.elementCount, ASpace.gdofs, DofMaps.At, DofMaps.getGlobalDofs,
      Finset.sum_range_succ, ASpace.weight]
  · rw [q4 1 0 (by omega) (by omega)]
    refine (h4 1 1 (by rw [h2]; decide) (by rw [h3]; decide)).trans ?_
    simp [weakFormEntry, triSpace, weighted, ASpace.elementCount, ASpace.gdofs, DofMaps.At, DofMaps.getGlobalDofs,
      Finset.sum_range_succ, ASpace.weight]

/-- Non-vacuity of C52: a 3 × 3 H-matrix of several blocks over the triangle. -/
example (form : Nat → Nat → Nat → Nat → Int) (X : Mx Int) (hX : X.rows = 3) :
    ∃ (s : HSetup Unit) (compress : _), (NTree.leafNodes s.tree).length = 4 ∧
      assembleHMat "dense" (0 : Int) (fun _ => .dense (Mx.zero 0 0)) triSpace triSpace s.pR.h2o s.pC.h2o
        (fun _ => form) (fun _ => 5) = .ok compress ∧
      ∃ Y', HMatrix.Run [s.process compress 1 0] .TRANS 2 0 X [⟨3, X.cols, fun _ _ => none⟩] Y' := by
  obtain ⟨s, h1, h2, h3, h4, h5, h6, h7, h8, h9, h10⟩ := exists_setup (fun _ => ()) (fun _ => ())
    (revSorter Unit) (revSorter Unit) 2 2 3 3 (fun _ _ => false) 100
  obtain ⟨A, q1, -⟩ := C45_dense_assembly _ _ triSpace_valid triSpace_valid form _ (triSpace_run form)
  obtain ⟨-, c, e, hc⟩ := C52_hmat_dense_partial s triSpace triSpace triSpace_valid triSpace_valid h7 h8 form (0 : Int)
    (fun _ => 5) (fun _ => .dense (Mx.zero 0 0)) A (q1 ▸ triSpace_run form)
  refine ⟨s, c, ?_, e, (hc .TRANS 2 0 X ⟨3, X.cols, fun _ _ => none⟩ ?_ ?_ rfl (by simp)).1⟩
  · unfold HSetup.tree
    rw [h1, h2, h3, h4, h5, h6, h7, h8, h9, h10]
    simp [blockClusterTree, splitBlock, clusterTree, splitTree, deal_eq, revSorter, toSizeT,
      List.range_succ, NTree.leafNodes, NTree.leafLoop, NTree.isLeaf, NTree.children]
  · rw [hX]; exact h7.symm
  · exact h8.symm

end Verif.Assembly
