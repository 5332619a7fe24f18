import Verif.Lemmas.Assembly
import Verif.Props.HMatrix
import Verif.Props.Space
import Verif.Props.SpaceRWG
import Mathlib.NumberTheory.Zsqrtd.GaussianInt
/-
Properties C45 (dense assembly), C46 (sub-blocks), C47 (local operators).
-/
namespace Verif.Assembly
open Verif.Space Verif.HMat Verif.Grid Finset

section
variable {K : Type} [CommRing K] [StarRing K]

/-! ### C45 -/

/-- **C45** For any two valid spaces, any local integrals and any distribution of the trial elements over concurrent
tasks with any schedule: the assembly succeeds (no write outside the matrix), the matrix has
`globalDofCount` rows and columns, and its entries are the weighted sums over all pairs of local dofs that
carry the two global dofs. -/
theorem C45_dense_assembly (T U : ASpace K) (hT : T.Valid) (hU : U.Valid) (form : Nat → Nat → Nat → Nat → K)
    (out : Option (Mx K)) (h : DenseRun T U form out) :
    ∃ M, out = some M ∧ M.rows = T.globalDofCount ∧ M.cols = U.globalDofCount ∧
      ∀ i j : Nat, i < M.rows → j < M.cols → M.e i j = weakFormEntry T U form i j := by
  obtain ⟨chunks, sched, hfl, hint, rfl⟩ := h
  have hperm : sched.Perm (List.range U.elementCount) := by
    rw [← hfl]; exact hint.perm
  unfold assembleInOrder
  rw [foldlM_addAll]
  obtain ⟨M, h1, h2, h3, h4⟩ := addAll_ok (sched.flatMap (trialUpdates T U form))
    (Mx.zero T.globalDofCount U.globalDofCount) (by
      intro u hu
      obtain ⟨t, -, hu⟩ := List.mem_flatMap.mp hu
      exact inRange_trialUpdates T U hT hU form t u hu)
  refine ⟨M, h1, h2, h3, ?_⟩
  intro i j _ _
  rw [h4, contrib_flatMap, (hperm.map _).sum_eq, sum_list_range]
  simp only [contrib_trialUpdates]
  unfold weakFormEntry
  simp only [Mx.zero, zero_add]
  rw [Finset.sum_comm]
  refine Finset.sum_congr rfl fun e _ => ?_
  rw [Finset.sum_comm]

/-- **C45** Two assemblies of the same operator give the same matrix entries, whatever their schedules. -/
theorem C45_schedule_independent (T U : ASpace K) (hT : T.Valid) (hU : U.Valid) (form : Nat → Nat → Nat → Nat → K)
    (M M' : Mx K) (h : DenseRun T U form (some M)) (h' : DenseRun T U form (some M')) :
    M.rows = M'.rows ∧ M.cols = M'.cols ∧ ∀ i j : Nat, i < M.rows → j < M.cols → M.e i j = M'.e i j := by
  obtain ⟨N, h1, h2, h3, h4⟩ := C45_dense_assembly T U hT hU form _ h
  obtain ⟨N', h1', h2', h3', h4'⟩ := C45_dense_assembly T U hT hU form _ h'
  injection h1 with h1; injection h1' with h1'
  subst h1; subst h1'
  refine ⟨h2.trans h2'.symm, h3.trans h3'.symm, fun i j hi hj => ?_⟩
  rw [h4 i j hi hj, h4' i j (by omega) (by omega)]

/-- **C45** Potential operators: entry (point `p`, component `c`; trial dof `j`) is in row `p * componentCount + c`. -/
theorem C45_potential_assembly (points components : Nat) (U : ASpace K) (hU : U.Valid)
    (form : Nat → Nat → Nat → Nat → K) (out : Option (Mx K)) (h : PotentialRun points components U form out) :
    ∃ M, out = some M ∧ M.rows = points * components ∧ M.cols = U.globalDofCount ∧
      ∀ p c j : Nat, p < points → c < components → j < M.cols →
        M.e (p * components + c) j = potentialEntry U form p c j := by
  obtain ⟨chunks, sched, hfl, hint, rfl⟩ := h
  have hperm : sched.Perm (List.range U.elementCount) := by
    rw [← hfl]; exact hint.perm
  rw [foldlM_addAll]
  obtain ⟨M, h1, h2, h3, h4⟩ := addAll_ok (sched.flatMap (potentialUpdates points components U form))
    (Mx.zero (points * components) U.globalDofCount) (by
      intro u hu
      obtain ⟨t, -, hu⟩ := List.mem_flatMap.mp hu
      unfold potentialUpdates at hu
      split at hu
      · obtain ⟨q, hq, hu⟩ := List.mem_flatMap.mp hu
        split at hu
        · simp at hu
        · obtain ⟨p, hp, hu⟩ := List.mem_flatMap.mp hu
          obtain ⟨c, hc, rfl⟩ := List.mem_map.mp hu
          have hp' := List.mem_range.mp hp
          have hc' := List.mem_range.mp hc
          have hq' : (0 : Int) ≤ q.1 := not_lt.mp ‹_›
          refine ⟨Int.natCast_nonneg _, ?_, hq', U.mem_range hU (List.fst_mem_of_mem_zipIdx hq) hq'⟩
          show ((p * components + c : Nat) : Int) < ((points * components : Nat) : Int)
          have h5 : (p + 1) * components ≤ points * components := Nat.mul_le_mul_right _ hp'
          rw [Nat.succ_mul] at h5
          omega
      · simp at hu)
  refine ⟨M, h1, h2, h3, ?_⟩
  intro p c j hp hc _
  rw [h4, contrib_flatMap, (hperm.map _).sum_eq, sum_list_range]
  simp only [contrib_potentialUpdates points components U form _ p c j hp hc]
  unfold potentialEntry
  simp only [Mx.zero, zero_add]

/-! ### C46 -/

theorem gather_inner (lds : List LocalDof) : ∀ keys : List Nat, keys.Nodup →
    (lds.foldl (fun (keys : List Nat) ld =>
      if ld.entityIndex ∈ keys then keys else keys ++ [ld.entityIndex]) keys).Nodup ∧
    ∀ e, e ∈ (lds.foldl (fun (keys : List Nat) ld =>
      if ld.entityIndex ∈ keys then keys else keys ++ [ld.entityIndex]) keys) ↔
      e ∈ keys ∨ ∃ ld ∈ lds, ld.entityIndex = e := by
  induction lds with
  | nil => intro keys h; simp [h]
  | cons ld lds ih =>
    intro keys h
    rw [List.foldl_cons]
    by_cases hm : ld.entityIndex ∈ keys
    · rw [if_pos hm]
      obtain ⟨h1, h2⟩ := ih keys h
      refine ⟨h1, fun e => ?_⟩
      rw [h2]
      constructor
      · rintro (h | ⟨x, hx, rfl⟩)
        · exact Or.inl h
        · exact Or.inr ⟨x, List.mem_cons_of_mem _ hx, rfl⟩
      · rintro (h | ⟨x, hx, rfl⟩)
        · exact Or.inl h
        · rcases List.mem_cons.mp hx with rfl | hx
          · exact Or.inl hm
          · exact Or.inr ⟨x, hx, rfl⟩
    · rw [if_neg hm]
      have hn : (keys ++ [ld.entityIndex]).Nodup := by
        rw [List.nodup_append]
        refine ⟨h, by simp, ?_⟩
        intro a ha b hb
        rw [List.mem_singleton] at hb
        subst hb
        intro hab; exact hm (hab ▸ ha)
      obtain ⟨h1, h2⟩ := ih _ hn
      refine ⟨h1, fun e => ?_⟩
      rw [h2]
      simp only [List.mem_append, List.mem_cons, List.not_mem_nil, or_false]
      constructor
      · rintro ((h | rfl) | ⟨x, hx, rfl⟩)
        · exact Or.inl h
        · exact Or.inr ⟨ld, Or.inl rfl, rfl⟩
        · exact Or.inr ⟨x, Or.inr hx, rfl⟩
      · rintro (h | ⟨x, rfl | hx, rfl⟩)
        · exact Or.inl (Or.inl h)
        · exact Or.inl (Or.inr rfl)
        · exact Or.inr ⟨x, hx, rfl⟩

theorem gather_outer (sp : ASpace K) (gs : List Nat) : ∀ keys : List Nat, keys.Nodup →
    (gs.foldl (fun (keys : List Nat) g => (sp.maps.globalToLocal g).foldl (fun (keys : List Nat) ld =>
      if ld.entityIndex ∈ keys then keys else keys ++ [ld.entityIndex]) keys) keys).Nodup ∧
    ∀ e, e ∈ (gs.foldl (fun (keys : List Nat) g => (sp.maps.globalToLocal g).foldl (fun (keys : List Nat) ld =>
      if ld.entityIndex ∈ keys then keys else keys ++ [ld.entityIndex]) keys) keys) ↔
      e ∈ keys ∨ ∃ g ∈ gs, ∃ ld ∈ sp.maps.globalToLocal g, ld.entityIndex = e := by
  induction gs with
  | nil => intro keys h; simp [h]
  | cons g gs ih =>
    intro keys h
    rw [List.foldl_cons]
    obtain ⟨a1, a2⟩ := gather_inner (sp.maps.globalToLocal g) keys h
    obtain ⟨h1, h2⟩ := ih _ a1
    refine ⟨h1, fun e => ?_⟩
    rw [h2, a2]
    simp only [List.mem_cons, exists_eq_or_imp]
    rw [or_assoc]

theorem gatherElements_nodup (sp : ASpace K) (r0 r1 : Nat) : (gatherElements sp r0 r1).Nodup :=
  (gather_outer sp _ [] List.nodup_nil).1

theorem mem_gatherElements (sp : ASpace K) (hv : sp.Valid) (r0 r1 : Nat) (h1 : r1 ≤ sp.globalDofCount) (e : Nat) :
    e ∈ gatherElements sp r0 r1 ↔ ∃ g a : Nat, r0 ≤ g ∧ g < r1 ∧ sp.maps.At ⟨e, a⟩ g := by
  unfold gatherElements
  rw [(gather_outer sp _ [] List.nodup_nil).2]
  simp only [List.not_mem_nil, false_or, List.mem_range'_1]
  constructor
  · rintro ⟨g, hg, ld, hld, rfl⟩
    have := (hv.consistent.inverse g (show g < sp.globalDofCount by omega) ld).mp hld
    exact ⟨g, ld.dofIndex, hg.1, by omega, this⟩
  · rintro ⟨g, a, hg, hg', hat⟩
    exact ⟨g, by omega, ⟨e, a⟩, (hv.consistent.inverse g (show g < sp.globalDofCount by omega) _).mpr hat, rfl⟩

theorem gatherElements_lt (sp : ASpace K) (hv : sp.Valid) (r0 r1 : Nat) (h1 : r1 ≤ sp.globalDofCount) :
    ∀ e ∈ gatherElements sp r0 r1, e < sp.elementCount := by
  intro e he
  obtain ⟨g, a, -, -, hat⟩ := (mem_gatherElements sp hv r0 r1 h1 e).mp he
  by_contra hlt
  unfold DofMaps.At DofMaps.getGlobalDofs at hat
  rw [List.getD_eq_default _ _ (show sp.maps.local2global.length ≤ e from not_lt.mp hlt)] at hat
  simp at hat

theorem masked_get (sp : ASpace K) (r0 r1 e a i : Nat) (h : r0 + i < r1) :
    (maskedDofs sp r0 r1 e)[a]? = some ((r0 + i : Nat) : Int) ↔ sp.maps.At ⟨e, a⟩ ((r0 + i : Nat) : Int) := by
  unfold maskedDofs
  rw [List.getElem?_map, sp.at_iff]
  cases (sp.gdofs e)[a]? with
  | none => simp
  | some d =>
    simp only [Option.map_some, Option.some.injEq]
    constructor
    · intro hh
      split at hh
      · omega
      · exact hh
    · rintro rfl
      rw [if_neg (by omega)]

theorem contrib_shift (us : List (Int × Int × K)) (r c i j : Int) :
    contrib (us.map fun u => (u.1 - r, u.2.1 - c, u.2.2)) i j = contrib us (r + i) (c + j) := by
  unfold contrib
  rw [List.map_map]
  congr 1
  refine List.map_congr_left fun u _ => ?_
  simp only [Function.comp_apply]
  have : (u.1 - r = i ∧ u.2.1 - c = j) ↔ (u.1 = r + i ∧ u.2.1 = c + j) := by omega
  simp only [this]

/-- **C46** For all valid spaces, all local integrals and all integer ranges with `start ≤ end`: `assembleDenseBlock` throws
exactly when a range is out of bounds; otherwise it returns, for every iteration order of its hash maps and
every schedule, the rows `rowStart .. rowEnd-1` and columns `colStart .. colEnd-1` of the weak form. -/
theorem C46_dense_block (T U : ASpace K) (hT : T.Valid) (hU : U.Valid) (form : Nat → Nat → Nat → Nat → K)
    (rowStart rowEnd colStart colEnd : Int) (hr : rowStart ≤ rowEnd) (hc : colStart ≤ colEnd)
    (out : BlockOutcome K) (h : DenseBlockRun T U form rowStart rowEnd colStart colEnd out) :
    (out = .throws ∧ ¬ (0 ≤ rowStart ∧ rowEnd ≤ T.globalDofCount ∧ 0 ≤ colStart ∧ colEnd ≤ U.globalDofCount)) ∨
    ((0 ≤ rowStart ∧ rowEnd ≤ T.globalDofCount ∧ 0 ≤ colStart ∧ colEnd ≤ U.globalDofCount) ∧
      ∃ B, out = .result B ∧ (B.rows : Int) = rowEnd - rowStart ∧ (B.cols : Int) = colEnd - colStart ∧
        ∀ i j : Nat, i < B.rows → j < B.cols →
          B.e i j = weakFormEntry T U form (rowStart.toNat + i) (colStart.toNat + j)) := by
  unfold DenseBlockRun at h
  split at h
  · left
    refine ⟨h, ?_⟩
    omega
  · rename_i hb
    rw [if_neg (by omega)] at h
    right
    refine ⟨by omega, ?_⟩
    obtain ⟨testOrder, sched, hpt, hps, hout⟩ := h
    obtain ⟨r0, er0⟩ := Int.eq_ofNat_of_zero_le (show 0 ≤ rowStart by omega)
    obtain ⟨r1, er1⟩ := Int.eq_ofNat_of_zero_le (show 0 ≤ rowEnd by omega)
    obtain ⟨c0, ec0⟩ := Int.eq_ofNat_of_zero_le (show 0 ≤ colStart by omega)
    obtain ⟨c1, ec1⟩ := Int.eq_ofNat_of_zero_le (show 0 ≤ colEnd by omega)
    subst er0 er1 ec0 ec1
    simp only [Int.toNat_natCast] at hpt hps hout ⊢
    have hr1 : r1 ≤ T.globalDofCount := by omega
    have hc1 : c1 ≤ U.globalDofCount := by omega
    rw [foldlM_addAll] at hout
    have er : ((r1 : Int) - r0).toNat = r1 - r0 := by omega
    have ec : ((c1 : Int) - c0).toNat = c1 - c0 := by omega
    rw [er, ec] at hout
    obtain ⟨M, h1, h2, h3, h4⟩ := addAll_ok (sched.flatMap (blockUpdates T U form r0 r1 c0 c1 testOrder))
      (Mx.zero (r1 - r0) (c1 - c0)) (by
        intro u hu
        obtain ⟨t, -, hu⟩ := List.mem_flatMap.mp hu
        unfold blockUpdates at hu
        obtain ⟨e, -, hu⟩ := List.mem_flatMap.mp hu
        obtain ⟨w, hw, rfl⟩ := List.mem_map.mp hu
        obtain ⟨q1, q2, q3, q4⟩ := mem_pairUpdates hw
        obtain ⟨d, -, hd⟩ := List.mem_map.mp q1
        obtain ⟨d', -, hd'⟩ := List.mem_map.mp q2
        simp only [InRange, Mx.zero]
        have x1 : (r0 : Int) ≤ w.1 ∧ w.1 < r1 := by
          split at hd
          · omega
          · omega
        have x2 : (c0 : Int) ≤ w.2.1 ∧ w.2.1 < c1 := by
          split at hd'
          · omega
          · omega
        omega)
    rw [h1] at hout
    refine ⟨M, hout, ?_, ?_, ?_⟩
    · rw [h2]; simp only [Mx.zero]; omega
    · rw [h3]; simp only [Mx.zero]; omega
    · intro i j hi hj
      have hi' : r0 + i < r1 := by rw [h2] at hi; simp only [Mx.zero] at hi; omega
      have hj' : c0 + j < c1 := by rw [h3] at hj; simp only [Mx.zero] at hj; omega
      rw [h4]
      simp only [Mx.zero, zero_add]
      have key : ∀ e t, contrib ((pairUpdates (maskedDofs T r0 r1 e) (maskedDofs U c0 c1 t) fun a b =>
          star (T.weight e a) * U.weight t b * form e t a b).map fun u => (u.1 - (r0 : Int), u.2.1 - (c0 : Int), u.2.2)) i j =
          ∑ a ∈ range (T.gdofs e).length, ∑ b ∈ range (U.gdofs t).length,
            if T.maps.At ⟨e, a⟩ ((r0 + i : Nat) : Int) ∧ U.maps.At ⟨t, b⟩ ((c0 + j : Nat) : Int) then
              star (T.weight e a) * U.weight t b * form e t a b else 0 := by
        intro e t
        rw [contrib_shift, ← Nat.cast_add, ← Nat.cast_add, contrib_pairUpdates]
        have l1 : (maskedDofs T r0 r1 e).length = (T.gdofs e).length := by simp [maskedDofs]
        have l2 : (maskedDofs U c0 c1 t).length = (U.gdofs t).length := by simp [maskedDofs]
        rw [l1, l2]
        refine Finset.sum_congr rfl fun a _ => Finset.sum_congr rfl fun b _ => ?_
        simp only [masked_get T r0 r1 e a i hi', masked_get U c0 c1 t b j hj']
      rw [contrib_flatMap, (hps.map _).sum_eq,
        sum_keys _ (gatherElements_nodup U c0 c1) U.elementCount (gatherElements_lt U hU c0 c1 hc1)]
      · have hin : ∀ t, contrib (blockUpdates T U form r0 r1 c0 c1 testOrder t) i j =
            ∑ e ∈ range T.elementCount, ∑ a ∈ range (T.gdofs e).length, ∑ b ∈ range (U.gdofs t).length,
            if T.maps.At ⟨e, a⟩ ((r0 + i : Nat) : Int) ∧ U.maps.At ⟨t, b⟩ ((c0 + j : Nat) : Int) then
              star (T.weight e a) * U.weight t b * form e t a b else 0 := by
          intro t
          unfold blockUpdates
          rw [contrib_flatMap, (hpt.map _).sum_eq,
            sum_keys _ (gatherElements_nodup T r0 r1) T.elementCount (gatherElements_lt T hT r0 r1 hr1)]
          · exact Finset.sum_congr rfl fun e _ => key e t
          · intro e _ he
            rw [key]
            refine Finset.sum_eq_zero fun a _ => Finset.sum_eq_zero fun b _ => ?_
            rw [if_neg]
            rintro ⟨q, -⟩
            exact he ((mem_gatherElements T hT r0 r1 hr1 e).mpr ⟨r0 + i, a, by omega, hi', q⟩)
        simp only [hin]
        unfold weakFormEntry
        rw [Finset.sum_comm]
        refine Finset.sum_congr rfl fun e _ => ?_
        rw [Finset.sum_comm]
      · intro t _ ht
        unfold blockUpdates
        rw [contrib_flatMap]
        apply List.sum_eq_zero
        intro x hx
        obtain ⟨e, -, rfl⟩ := List.mem_map.mp hx
        rw [key]
        refine Finset.sum_eq_zero fun a _ => Finset.sum_eq_zero fun b _ => ?_
        rw [if_neg]
        rintro ⟨-, q⟩
        exact ht ((mem_gatherElements U hU c0 c1 hc1 t).mpr ⟨c0 + j, b, by omega, hj', q⟩)

/-- **C46** The block equals the corresponding part of the densely assembled matrix. -/
theorem C46_block_of_dense (T U : ASpace K) (hT : T.Valid) (hU : U.Valid) (form : Nat → Nat → Nat → Nat → K)
    (r0 r1 c0 c1 : Nat) (hr : r0 ≤ r1) (hc : c0 ≤ c1) (M B : Mx K) (hM : DenseRun T U form (some M))
    (hB : DenseBlockRun T U form r0 r1 c0 c1 (.result B)) :
    B.rows = r1 - r0 ∧ B.cols = c1 - c0 ∧
      ∀ i j, i < B.rows → j < B.cols → r0 + i < M.rows ∧ c0 + j < M.cols ∧ B.e i j = M.e (r0 + i) (c0 + j) := by
  obtain ⟨N, h1, h2, h3, h4⟩ := C45_dense_assembly T U hT hU form _ hM
  injection h1 with h1; subst h1
  rcases C46_dense_block T U hT hU form r0 r1 c0 c1 (by omega) (by omega) _ hB with ⟨h, -⟩ | ⟨hb, B', e, q1, q2, q3⟩
  · cases h
  · injection e with e; subst e
    refine ⟨by omega, by omega, fun i j hi hj => ?_⟩
    have a1 : r0 + i < M.rows := by omega
    have a2 : c0 + j < M.cols := by omega
    refine ⟨a1, a2, ?_⟩
    rw [q3 i j hi hj, h4 _ _ a1 a2]
    simp

/-! ### C47 -/

theorem localSum (T U : ASpace K) (hT : T.Valid) (hU : U.Valid) (f : Nat → Nat → Nat → K) :
    ∃ M, addAll (Mx.zero T.globalDofCount U.globalDofCount) ((List.range T.elementCount).flatMap fun e =>
      pairUpdates (T.gdofs e) (U.gdofs e) fun a b => f e a b) = some M ∧
      M.rows = T.globalDofCount ∧ M.cols = U.globalDofCount ∧
      ∀ i j : Nat, M.e i j = ∑ e ∈ range T.elementCount, ∑ a ∈ range (T.gdofs e).length, ∑ b ∈ range (U.gdofs e).length,
        if T.maps.At ⟨e, a⟩ i ∧ U.maps.At ⟨e, b⟩ j then f e a b else 0 := by
  obtain ⟨M, h1, h2, h3, h4⟩ := addAll_ok ((List.range T.elementCount).flatMap fun e =>
      pairUpdates (T.gdofs e) (U.gdofs e) fun a b => f e a b) (Mx.zero T.globalDofCount U.globalDofCount) (by
    intro u hu
    obtain ⟨e, -, hu⟩ := List.mem_flatMap.mp hu
    obtain ⟨q1, q2, q3, q4⟩ := mem_pairUpdates hu
    exact ⟨q3, T.mem_range hT q1 q3, q4, U.mem_range hU q2 q4⟩)
  refine ⟨M, h1, h2, h3, ?_⟩
  intro i j
  rw [h4, contrib_flatMap, sum_list_range]
  simp only [Mx.zero, zero_add]
  refine Finset.sum_congr rfl fun e _ => ?_
  rw [contrib_pairUpdates]
  rfl

/-- **C47** Dense assembly of a local operator: the entries are the weighted sums over the elements. -/
theorem C47_local_dense (T U : ASpace K) (hT : T.Valid) (hU : U.Valid) (form : Nat → Nat → Nat → K) :
    ∃ M, localDense T U form = some M ∧ M.rows = T.globalDofCount ∧ M.cols = U.globalDofCount ∧
      ∀ i j : Nat, M.e i j = localFormEntry T U form i j :=
  localSum T U hT hU _

/-- **C47** (partial) Sparse assembly for real basis functions: the entries are the real parts of the summands; if the
weighted local matrices are real (fixed by the conversion), the sparse and the dense matrix are the same. Missing:
local matrices with an imaginary part, which the sparse mode drops (counterexample), and complex basis
functions, for which it throws. -/
theorem C47_sparse_eq_dense_partial (re : K → K) (T U : ASpace K) (hT : T.Valid) (hU : U.Valid)
    (form : Nat → Nat → Nat → K)
    (hreal : ∀ e a b, re (form e a b * (star (T.weight e a) * U.weight e b)) =
      form e a b * (star (T.weight e a) * U.weight e b)) :
    ∃ M S, localDense T U form = some M ∧ localSparse false re T U form = .ok (some S) ∧
      S.rows = M.rows ∧ S.cols = M.cols ∧ ∀ i j : Nat, S.e i j = M.e i j := by
  obtain ⟨M, h1, h2, h3, h4⟩ := C47_local_dense T U hT hU form
  obtain ⟨S, g1, g2, g3, g4⟩ := localSum T U hT hU (fun e a b => re (form e a b * (star (T.weight e a) * U.weight e b)))
  refine ⟨M, S, h1, ?_, g2.trans h2.symm, g3.trans h3.symm, ?_⟩
  · unfold localSparse setFromTriplets
    simp only [Bool.false_eq_true, if_false]
    exact congrArg _ g1
  · intro i j
    rw [h4, g4]
    unfold localFormEntry
    refine Finset.sum_congr rfl fun e _ => Finset.sum_congr rfl fun a _ => Finset.sum_congr rfl fun b _ => ?_
    rw [hreal]
    congr 1
    ring

/-- **C47** Complex basis functions are rejected by the sparse mode. -/
theorem C47_complex_basis_throws (re : K → K) (T U : ASpace K) (form : Nat → Nat → Nat → K) :
    localSparse true re T U form = .error .runtimeError := rfl

end

/-! ### Spaces of the library -/

/-- A space whose local dof `ld` has the weight `w ld` in both queries.  Scalar spaces have `w = 1`
(`piecewise_linear_continuous_scalar_space.cpp:271-286` with the default weights of `space.cpp:121-148`); the
RWG space stores the same number in `m_local2globalDofWeights` and `m_global2localDofWeights`
(`rwg_vector_space.cpp:316-333`). -/
def weighted {K : Type} (m : DofMaps) (w : LocalDof → K) : ASpace K :=
  ⟨m, m.local2global.zipIdx.map fun r => r.1.zipIdx.map fun q => w ⟨r.2, q.2⟩,
    m.global2local.map fun r => r.map w⟩

theorem weighted_valid {K : Type} [Zero K] (m : DofMaps) (w : LocalDof → K) (h : m.Consistent) :
    (weighted m w).Valid where
  consistent := h
  weights := by
    intro e
    show (List.getD (m.local2global.zipIdx.map fun r => r.1.zipIdx.map fun q => w ⟨r.2, q.2⟩) e []).length =
      (m.getGlobalDofs e).length
    unfold DofMaps.getGlobalDofs
    rw [List.getD_eq_getElem?_getD, List.getD_eq_getElem?_getD, List.getElem?_map, List.getElem?_zipIdx]
    cases m.local2global[e]? <;> simp
  dofWeights := by
    intro g hg
    replace hg : g < m.global2local.length := hg
    show (m.global2local.map fun r => r.map w)[g]? = some _
    rw [List.getElem?_map, List.getElem?_eq_getElem hg]
    simp only [Option.map_some, Option.some.injEq]
    have e1 : (weighted m w).maps.globalToLocal g = m.global2local[g] := by
      show m.global2local.getD g [] = _
      rw [List.getD_eq_getElem _ _ hg]
    rw [e1]
    refine List.map_congr_left fun ld hld => ?_
    have hat := (h.inverse g hg ld).mp (by
      show ld ∈ m.global2local.getD g []
      rw [List.getD_eq_getElem _ _ hg]; exact hld)
    unfold DofMaps.At DofMaps.getGlobalDofs at hat
    rw [List.getD_eq_getElem?_getD] at hat
    unfold ASpace.weight weighted
    simp only []
    rw [List.getD_eq_getElem?_getD, List.getD_eq_getElem?_getD, List.getElem?_map, List.getElem?_zipIdx]
    cases hr : m.local2global[ld.entityIndex]? with
    | none => rw [hr] at hat; simp at hat
    | some r =>
      rw [hr] at hat
      simp only [Option.getD_some] at hat
      simp [hat]

/-- Every continuous P1 space (whole grid or segment) is a valid space: the hypotheses of C45-C47 are met. -/
theorem p1_valid {K : Type} [Zero K] [One K] (v : View) (hv : v.WF) (hd : v.dim = 1 ∨ v.dim = 2) (s : GridSegment)
    (hs : SegmentOf v s) (strict : Bool) (m : DofMaps) (hm : assignP1 v s strict = .ok m) :
    (weighted m fun _ => (1 : K)).Valid := by
  obtain ⟨m', hm', hc, -⟩ := C39_dof_maps v hv hd s hs strict
  rw [hm'] at hm
  cases hm
  exact weighted_valid _ _ hc

/-- Every RWG space is a valid space. -/
theorem rwg_valid {K : Type} [CommRing K] (v : View) (hv : v.WF) (ht : Triangular v) (s : GridSegment)
    (mode : DofMode) (pb : Bool) (vol : Nat → K) (m : DofMaps) (hm : assignRWG v s mode pb = .ok m) :
    (weighted m fun ld => ((v.elems.find? fun e => e.index == ld.entityIndex).map fun e =>
      (rwgWeights v s mode vol e).getD ld.dofIndex 0).getD 0).Valid := by
  obtain ⟨m', hm', hc, -⟩ := C43_dof_maps v hv ht s mode pb
  rw [hm'] at hm
  cases hm
  exact weighted_valid _ _ hc

/-- The P1 space on one triangle, with complex integer weights 1. -/
def oneTriangle : ASpace GaussianInt := weighted ⟨[[0, 1, 2]], [[⟨0, 0⟩], [⟨0, 1⟩], [⟨0, 2⟩]]⟩ fun _ => 1

/-- Non-vacuity of C45-C47: P1 spaces of `book 2` (two triangles sharing an edge) are valid, a parallel run exists (two
tasks, the second finishing first), and its entry (0, 0) adds the four pairs of triangles. -/
example : ∃ m, assignP1 (book 2) (wholeGrid (book 2)) false = .ok m ∧ (weighted m fun _ => (1 : Int)).Valid ∧
    (∃ M, DenseRun (weighted m fun _ => (1 : Int)) (weighted m fun _ => (1 : Int))
      (fun e e' a b => ((e + 2 * e' + a + b : Nat) : Int)) (some M) ∧ M.e 0 0 = 6) := by
  have hm : assignP1 (book 2) (wholeGrid (book 2)) false =
      .ok ⟨[[0, 1, 2], [0, 1, 3]], [[⟨0, 0⟩, ⟨1, 0⟩], [⟨0, 1⟩, ⟨1, 1⟩], [⟨0, 2⟩], [⟨1, 2⟩]]⟩ := by
    simp only [assignP1, p1Writes_eq, p1Numbering, p1Marks, excludedMarks_eq _ (book 2).dim (by decide)]; decide
  have hv := p1_valid (K := Int) (book 2) (book_WF 2 (by decide)) (Or.inr rfl) (wholeGrid (book 2)) (fun _ => rfl) false _ hm
  refine ⟨_, hm, hv, ?_⟩
  generalize hsp : (weighted _ fun _ => (1 : Int)) = sp at hv ⊢
  have hrun : DenseRun sp sp (fun e e' a b => ((e + 2 * e' + a + b : Nat) : Int)) (assembleInOrder sp sp (fun e e' a b => ((e + 2 * e' + a + b : Nat) : Int)) [1, 0]) := by
    subst hsp
    exact
    ⟨[[0], [1]], [1, 0], rfl, HMatrix.Interleaving.step [[0]] [] 1 [] [0]
      (.step [] [[]] 0 [] [] (.drop [] [[]] [] (.drop [] [] [] .done))), rfl⟩
  obtain ⟨M, h1, h2, h3, h4⟩ := C45_dense_assembly _ _ hv hv _ _ hrun
  rw [h1] at hrun
  refine ⟨M, hrun, ?_⟩
  rw [h4 0 0 (by rw [h2, ← hsp]; decide) (by rw [h3, ← hsp]; decide), ← hsp]
  decide

/-- Taking real parts. -/
def gaussRe (z : GaussianInt) : GaussianInt := ⟨z.re, 0⟩

/-- **C47 is false for local operators with complex local matrices**: on one triangle with the local matrix `i` times the
all-ones matrix, the dense mode returns entry `i`, the sparse mode entry 0. -/
theorem C47_counterexample_imaginary :
    oneTriangle.Valid ∧ ∃ M S, localDense oneTriangle oneTriangle (fun _ _ _ => ⟨0, 1⟩) = some M ∧
      localSparse false gaussRe oneTriangle oneTriangle (fun _ _ _ => ⟨0, 1⟩) = .ok (some S) ∧
      M.e 0 0 = ⟨0, 1⟩ ∧ S.e 0 0 = 0 := by
  refine ⟨weighted_valid _ _ ?_, ?_⟩
  · have hm : assignP1 (book 1) (wholeGrid (book 1)) false =
        .ok ⟨[[0, 1, 2]], [[⟨0, 0⟩], [⟨0, 1⟩], [⟨0, 2⟩]]⟩ := by
      simp only [assignP1, p1Writes_eq, p1Numbering, p1Marks, excludedMarks_eq _ (book 1).dim (by decide)]; decide
    obtain ⟨m', hm', hc, -⟩ := C39_dof_maps (book 1) (book_WF 1 (by decide)) (Or.inr rfl) (wholeGrid (book 1)) (fun _ => rfl) false
    rw [hm] at hm'
    cases hm'
    exact hc
  · refine ⟨_, _, rfl, rfl, ?_, ?_⟩ <;> decide

end Verif.Assembly
