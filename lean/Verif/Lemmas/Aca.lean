import Verif.Spec.Aca
import Mathlib.LinearAlgebra.Matrix.Rank
import Mathlib.Algebra.BigOperators.Field
/-
Invariants of ACA.
-/
set_option linter.unusedSectionVars false
namespace Verif.HMat.Aca
open Finset
variable {K : Type} [RCLike K]

/-- Residual. -/
def res (e : Env K) (s : St K) (i j : Nat) : K := e.entry (e.rlo + i) (e.clo + j) - s.ab i j

theorem residualRow_eq (e : Env K) (s : St K) (hB : s.B.rows = s.A.cols) (i j : Nat) :
    residualRow e s i j = res e s i j := by
  unfold residualRow res
  split
  · rfl
  · rename_i h
    have : s.A.cols = 0 := by omega
    simp [St.ab, this]

theorem residualCol_eq (e : Env K) (s : St K) (hB : s.B.rows = s.A.cols) (i j : Nat) :
    residualCol e s j i = res e s i j := by
  unfold residualCol res
  split
  · rfl
  · rename_i h
    have : s.A.cols = 0 := by omega
    simp [St.ab, this]

/-- Range of pivots for a mode. -/
def bound (e : Env K) : Mode → Nat
  | .ROW => e.m
  | .COL => e.n

/-- Parts of the state that `computeCross` leaves alone. -/
structure SameCore (s s' : St K) : Prop where
  A : s'.A = s.A
  B : s'.B = s.B
  maxIter : s'.maxIter = s.maxIter
  norm : s'.blockNorm = s.blockNorm
  crosses : s'.crosses = s.crosses
  history : s'.history = s.history

/-- Sizes of the stored row and column. -/
def VecLens (e : Env K) (s : St K) : Prop :=
  s.origRow.len ≤ e.n ∧ s.origCol.len ≤ e.m

theorem computeCross_core (e : Env K) (s : St K) (p : Nat) (mode : Mode) :
    SameCore s (computeCross e s p mode).1 := by
  cases mode <;> simp only [computeCross] <;> split <;> constructor <;> rfl

theorem computeCross_lens (e : Env K) (s : St K) (p : Nat) (mode : Mode) (h : VecLens e s) :
    VecLens e (computeCross e s p mode).1 := by
  obtain ⟨h1, h2⟩ := h
  cases mode <;> simp only [computeCross] <;> split <;> simp only [VecLens] <;> omega

theorem computeCross_calls (e : Env K) (s : St K) (p : Nat) (mode : Mode) (hp : p < bound e mode)
    (pm : e.PickMax) (hm : 0 < e.m) (hn : 0 < e.n) (h : ∀ c ∈ s.calls, InsideCall e c) :
    ∀ c ∈ (computeCross e s p mode).1.calls, InsideCall e c := by
  unfold Env.m at hm
  unfold Env.n at hn
  cases mode
  · simp only [bound, Env.m] at hp
    simp only [computeCross]
    have hj := fun f => (pm e.n f (by unfold Env.n; omega)).1
    unfold Env.n at hj
    split
    · intro c hc
      simp only [List.mem_append, List.mem_singleton] at hc
      rcases hc with hc | rfl
      · exact h c hc
      · simp only [InsideCall]; omega
    · intro c hc
      simp only [List.mem_append, List.mem_singleton] at hc
      rcases hc with (hc | rfl) | rfl
      · exact h c hc
      · simp only [InsideCall]; omega
      · simp only [InsideCall, Env.n]
        have := hj (fun j => ‖residualRow e
          { s with
            calls := s.calls ++ [(e.rlo + p, e.rlo + p + 1, e.clo, e.chi)]
            origRow := ⟨e.n, fun j => e.entry (e.rlo + p) (e.clo + j)⟩ } p j‖)
        simp only [Env.n] at this
        omega
  · simp only [bound, Env.n] at hp
    simp only [computeCross]
    have hj := fun f => (pm e.m f (by unfold Env.m; omega)).1
    unfold Env.m at hj
    split
    · intro c hc
      simp only [List.mem_append, List.mem_singleton] at hc
      rcases hc with hc | rfl
      · exact h c hc
      · simp only [InsideCall]; omega
    · intro c hc
      simp only [List.mem_append, List.mem_singleton] at hc
      rcases hc with (hc | rfl) | rfl
      · exact h c hc
      · simp only [InsideCall]; omega
      · simp only [InsideCall, Env.m]
        have := hj (fun i => ‖residualCol e
          { s with
            calls := s.calls ++ [(e.rlo, e.rhi, e.clo + p, e.clo + p + 1)]
            origCol := ⟨e.m, fun i => e.entry (e.rlo + i) (e.clo + p)⟩ } p i‖)
        simp only [Env.m] at this
        omega

/-- What a successful cross is. -/
theorem computeCross_success (e : Env K) (s : St K) (p : Nat) (mode : Mode) (hp : p < bound e mode)
    (pm : e.PickMax) (hm : 0 < e.m) (hn : 0 < e.n) (hB : s.B.rows = s.A.cols)
    (s' : St K) (row col : Nat → K) (i j next : Nat)
    (h : computeCross e s p mode = (s', .success row col i j next)) :
    i < e.m ∧ j < e.n ∧ next < bound e mode ∧
    (∀ i' j', col i' * row j' = res e s i' j * res e s i j' / res e s i j) ∧
    (e.PositiveVolumes → res e s i j ≠ 0) := by
  cases mode
  · simp only [computeCross] at h
    split at h
    · simp at h
    · rename_i hz
      simp only [Prod.mk.injEq, Cross.success.injEq] at h
      obtain ⟨_, hrow, hcol, rfl, hj, hnext⟩ := h
      have hrow' : ∀ j', row j' = res e s p j' / res e s p j := by
        intro j'
        rw [← hrow, ← hj]
        simp only []
        rw [residualRow_eq _ _ (by exact hB), residualRow_eq _ _ (by exact hB)]
        rfl
      have hcol' : ∀ i', col i' = res e s i' j := by
        intro i'
        rw [← hcol, ← hj, residualCol_eq]
        · rfl
        · exact hB
      have hjlt : j < e.n := by rw [← hj]; exact (pm e.n _ hn).1
      refine ⟨hp, hjlt, ?_, ?_, ?_⟩
      · rw [← hnext]; exact (pm e.m _ hm).1
      · intro i' j'; rw [hrow', hcol']; ring
      · intro hv h0
        apply hz
        rw [hj, residualRow_eq _ _ (by exact hB)]
        show ‖res e s p j‖ < _
        rw [h0, norm_zero]
        have := hv.2.1 p hp
        have := hv.2.2 j hjlt
        have := hv.1
        positivity
  · simp only [computeCross] at h
    split at h
    · simp at h
    · rename_i hz
      simp only [Prod.mk.injEq, Cross.success.injEq] at h
      obtain ⟨_, hrow, hcol, hi, rfl, hnext⟩ := h
      have hcol' : ∀ i', col i' = res e s i' p / res e s i p := by
        intro i'
        rw [← hcol, ← hi]
        simp only []
        rw [residualCol_eq _ _ (by exact hB), residualCol_eq _ _ (by exact hB)]
        rfl
      have hrow' : ∀ j', row j' = res e s i j' := by
        intro j'
        rw [← hrow, ← hi, residualRow_eq]
        · rfl
        · exact hB
      have hilt : i < e.m := by rw [← hi]; exact (pm e.m _ hm).1
      refine ⟨hilt, hp, ?_, ?_, ?_⟩
      · rw [← hnext]; exact (pm e.n _ hn).1
      · intro i' j'; rw [hrow', hcol']; ring
      · intro hv h0
        apply hz
        rw [hi, residualCol_eq _ _ (by exact hB)]
        show ‖res e s i p‖ < _
        rw [h0, norm_zero]
        have := hv.2.1 i hilt
        have := hv.2.2 p hp
        have := hv.1
        positivity

/-! ### Reachable states -/

/-- States that occur when crosses are computed and accepted in any order with any admissible
pivots. -/
inductive CrossReach (e : Env K) : St K → Prop where
  | start : CrossReach e (startState e)
  | probe (s : St K) (mode : Mode) (p : Nat) : CrossReach e s → p < bound e mode → 0 < s.maxIter →
      CrossReach e (computeCross e s p mode).1
  | accept (s : St K) (mode : Mode) (p : Nat) (s' : St K) (row col : Nat → K) (i j next : Nat) :
      CrossReach e s → p < bound e mode → 0 < s.maxIter →
      computeCross e s p mode = (s', .success row col i j next) →
      CrossReach e (acceptCross e s' row col i j)

/-- Structural invariant (no assumption on the volumes). -/
structure Shape (e : Env K) (s : St K) : Prop where
  Arows : s.A.rows = e.m
  Bcols : s.B.cols = e.n
  Brows : s.B.rows = s.A.cols
  ncross : s.crosses.length = s.A.cols
  iter : s.A.cols + s.maxIter = min e.maxRank (min e.m e.n)
  calls : ∀ c ∈ s.calls, InsideCall e c
  lens : VecLens e s
  inside : ∀ c ∈ s.crosses, c.1 < e.m ∧ c.2 < e.n

theorem shape_reach (e : Env K) (pm : e.PickMax) {s : St K} (h : CrossReach e s) : Shape e s := by
  induction h with
  | start =>
    refine ⟨rfl, rfl, rfl, rfl, ?_, by simp [startState], ?_, by simp [startState]⟩
    · simp [startState]
    · exact ⟨Nat.zero_le _, Nat.zero_le _⟩
  | probe s mode p hs hp hit ih =>
    have hm : 0 < e.m := by have := ih.iter; omega
    have hn : 0 < e.n := by have := ih.iter; omega
    have c := computeCross_core e s p mode
    refine ⟨by rw [c.A]; exact ih.Arows, by rw [c.B]; exact ih.Bcols, by rw [c.A, c.B]; exact ih.Brows,
      by rw [c.A, c.crosses]; exact ih.ncross, by rw [c.A, c.maxIter]; exact ih.iter,
      computeCross_calls e s p mode hp pm hm hn ih.calls, computeCross_lens e s p mode ih.lens,
      by rw [c.crosses]; exact ih.inside⟩
  | accept s mode p s' row col i j next hs hp hit hc ih =>
    have hm : 0 < e.m := by have := ih.iter; omega
    have hn : 0 < e.n := by have := ih.iter; omega
    have c := computeCross_core e s p mode
    have cl := computeCross_calls e s p mode hp pm hm hn ih.calls
    have vl := computeCross_lens e s p mode ih.lens
    rw [hc] at c cl vl
    obtain ⟨hi, hj, _⟩ := computeCross_success e s p mode hp pm hm hn ih.Brows s' row col i j next hc
    refine ⟨?_, ?_, ?_, ?_, ?_, ?_, ?_, ?_⟩
    · show s'.A.rows = _; rw [c.A]; exact ih.Arows
    · show s'.B.cols = _; rw [c.B]; exact ih.Bcols
    · show s'.B.rows + 1 = s'.A.cols + 1; rw [c.A, c.B, ih.Brows]
    · show (s'.crosses ++ [(i, j)]).length = s'.A.cols + 1
      rw [c.crosses, c.A, List.length_append, ih.ncross]; rfl
    · show s'.A.cols + 1 + (s'.maxIter - 1) = _
      rw [c.A, c.maxIter, ← ih.iter]; omega
    · exact cl
    · exact vl
    · intro x hx
      have : x ∈ s'.crosses ++ [(i, j)] := hx
      rw [c.crosses, List.mem_append, List.mem_singleton] at this
      rcases this with h | rfl
      · exact ih.inside x h
      · exact ⟨hi, hj⟩

theorem ab_accept (e : Env K) (s : St K) (row col : Nat → K) (i j : Nat) (hB : s.B.rows = s.A.cols)
    (i' j' : Nat) : (acceptCross e s row col i j).ab i' j' = s.ab i' j' + col i' * row j' := by
  unfold St.ab
  show ∑ k ∈ range (s.A.cols + 1), (if k = s.A.cols then col i' else s.A.e i' k) *
    (if k = s.B.rows then row j' else s.B.e k j') = _
  rw [Finset.sum_range_succ, hB, if_pos rfl, if_pos rfl]
  congr 1
  refine Finset.sum_congr rfl fun k hk => ?_
  rw [Finset.mem_range] at hk
  rw [if_neg (by omega), if_neg (by omega)]

theorem ab_core {s s' : St K} (c : SameCore s s') (i j : Nat) : s'.ab i j = s.ab i j := by
  unfold St.ab; rw [c.A, c.B]

/-- The residual as a matrix. -/
def resM (e : Env K) (s : St K) : Matrix (Fin e.m) (Fin e.n) K := Matrix.of fun i j => res e s i j

/-- Wedderburn: subtracting the cross of a non-zero entry lowers the rank. -/
theorem rank_cross {m n : Nat} (R : Matrix (Fin m) (Fin n) K) (p : Fin m) (q : Fin n)
    (h : R p q ≠ 0) :
    (Matrix.of fun i j => R i j - R i q * R p j / R p q : Matrix (Fin m) (Fin n) K).rank < R.rank := by
  unfold Matrix.rank
  set R' : Matrix (Fin m) (Fin n) K := Matrix.of fun i j => R i j - R i q * R p j / R p q
  have hv : ∀ v : Fin n → K, R'.mulVec v = R.mulVec (v - Pi.single q ((R.mulVec v) p / R p q)) := by
    intro v
    rw [Matrix.mulVec_sub]
    funext i
    simp only [Pi.sub_apply, Matrix.mulVec_single]
    simp only [Matrix.mulVec, dotProduct, R', Matrix.of_apply, sub_mul, Finset.sum_sub_distrib]
    congr 1
    simp only [MulOpposite.smul_eq_mul_unop, Pi.smul_apply, Matrix.col_apply, MulOpposite.unop_op]
    rw [Finset.sum_div, Finset.mul_sum]
    refine Finset.sum_congr rfl fun j _ => ?_
    ring
  apply Submodule.finrank_lt_finrank_of_lt
  refine lt_of_le_of_ne ?_ ?_
  · rintro _ ⟨v, rfl⟩
    exact ⟨_, (hv v).symm⟩
  · intro heq
    have hc : R.mulVec (Pi.single q 1) ∈ LinearMap.range R'.mulVecLin := by
      rw [heq]; exact ⟨_, rfl⟩
    obtain ⟨v, hv2⟩ := hc
    have e1 : (R'.mulVec v) p = R p q := by
      have := congrFun hv2 p
      simpa using this
    have e2 : (R'.mulVec v) p = 0 := by
      simp only [Matrix.mulVec, dotProduct, R', Matrix.of_apply]
      refine Finset.sum_eq_zero fun j _ => ?_
      field_simp
      ring
    exact h (e1.symm.trans e2)

/-- Invariant needed for interpolation and the norm (assumes positive volumes). -/
structure Interp (e : Env K) (s : St K) : Prop where
  zero : ∀ c ∈ s.crosses, (∀ j, j < e.n → res e s c.1 j = 0) ∧ (∀ i, i < e.m → res e s i c.2 = 0)
  rank : (resM e s).rank + s.A.cols ≤ e.block.rank
  distinct : s.crosses.Pairwise (fun a b => a.1 ≠ b.1 ∧ a.2 ≠ b.2)

theorem interp_reach (e : Env K) (pm : e.PickMax) (pv : e.PositiveVolumes) {s : St K}
    (h : CrossReach e s) : Interp e s := by
  induction h with
  | start =>
    refine ⟨by simp [startState], ?_, by simp [startState]⟩
    have : resM e (startState e) = e.block := by
      ext i j; simp [resM, res, Env.block, startState, St.ab]
    rw [this]; simp [startState]
  | probe s mode p hs hp hit ih =>
    have c := computeCross_core e s p mode
    have hr : ∀ i j, res e (computeCross e s p mode).1 i j = res e s i j := by
      intro i j; unfold res; rw [ab_core c]
    refine ⟨?_, ?_, ?_⟩
    · intro x hx
      rw [c.crosses] at hx
      simp only [hr]; exact ih.zero x hx
    · have : resM e (computeCross e s p mode).1 = resM e s := by
        ext i j; simp [resM, hr]
      rw [this, c.A]; exact ih.rank
    · rw [c.crosses]; exact ih.distinct
  | accept s mode p s' row col i j next hs hp hit hc ih =>
    have sh := shape_reach e pm hs
    have hm : 0 < e.m := by have := sh.iter; omega
    have hn : 0 < e.n := by have := sh.iter; omega
    have c := computeCross_core e s p mode
    rw [hc] at c
    obtain ⟨hi, hj, _, hcr, hne⟩ :=
      computeCross_success e s p mode hp pm hm hn sh.Brows s' row col i j next hc
    have hne := hne pv
    have hB' : s'.B.rows = s'.A.cols := by rw [c.A, c.B]; exact sh.Brows
    have hr : ∀ i' j', res e (acceptCross e s' row col i j) i' j' =
        res e s i' j' - res e s i' j * res e s i j' / res e s i j := by
      intro i' j'
      unfold res
      rw [ab_accept e s' row col i j hB', hcr, ab_core c]
      unfold res; ring
    refine ⟨?_, ?_, ?_⟩
    · intro x hx
      have hx' : x ∈ s'.crosses ++ [(i, j)] := hx
      rw [c.crosses, List.mem_append, List.mem_singleton] at hx'
      rcases hx' with h | rfl
      · obtain ⟨z1, z2⟩ := ih.zero x h
        refine ⟨fun j' hj' => ?_, fun i' hi' => ?_⟩
        · rw [hr, z1 j' hj', z1 j hj]; simp
        · rw [hr, z2 i' hi', z2 i hi]; simp
      · refine ⟨fun j' hj' => ?_, fun i' hi' => ?_⟩
        · rw [hr]; field_simp; ring
        · rw [hr]; field_simp; ring
    · have := rank_cross (resM e s) ⟨i, hi⟩ ⟨j, hj⟩ hne
      have e1 : resM e (acceptCross e s' row col i j) =
          Matrix.of fun a b => resM e s a b - resM e s a ⟨j, hj⟩ * resM e s ⟨i, hi⟩ b /
            resM e s ⟨i, hi⟩ ⟨j, hj⟩ := by
        ext a b; simp only [resM, Matrix.of_apply]; exact hr a b
      rw [← e1] at this
      have h2 : (acceptCross e s' row col i j).A.cols = s.A.cols + 1 := by
        show s'.A.cols + 1 = _; rw [c.A]
      have := ih.rank
      omega
    · show (s'.crosses ++ [(i, j)]).Pairwise _
      rw [c.crosses, List.pairwise_append]
      refine ⟨ih.distinct, by simp, ?_⟩
      intro a ha b hb
      rw [List.mem_singleton] at hb; subst hb
      obtain ⟨z1, z2⟩ := ih.zero a ha
      refine ⟨fun h => hne ?_, fun h => hne ?_⟩
      · have h : a.1 = i := h
        rw [← h]; exact z1 j hj
      · have h : a.2 = j := h
        rw [← h]; exact z2 i hi

/-- Every snapshot is a reachable state. -/
theorem hist_reach (e : Env K) {s : St K} (h : CrossReach e s) : ∀ h ∈ s.history, ∃ s',
    CrossReach e s' ∧ s'.A = h.A ∧ s'.B = h.B ∧ s'.blockNorm = h.blockNorm ∧
      s'.crosses = h.crosses := by
  induction h with
  | start => simp [startState]
  | probe s mode p hs hp hit ih => rw [(computeCross_core e s p mode).history]; exact ih
  | accept s mode p s' row col i j next hs hp hit hc ih =>
    have c := computeCross_core e s p mode
    rw [hc] at c
    intro h hh
    have hh' : h ∈ s'.history ++ _ := hh
    rw [List.mem_append, c.history] at hh'
    rcases hh' with hh' | hh'
    · exact ih h hh'
    · rw [List.mem_singleton] at hh'
      subst hh'
      exact ⟨acceptCross e s' row col i j, .accept s mode p s' row col i j next hs hp hit hc,
        rfl, rfl, rfl, rfl⟩

end Verif.HMat.Aca
