import Verif.Model.HMatrix
import Verif.Lemmas.MatData
import Verif.Lemmas.BlockClusterTree
import Mathlib.Algebra.BigOperators.Intervals
/-
Lemmas about `HMatrix::apply`.
-/
set_option linter.unusedSectionVars false
namespace Verif.HMat
open Finset

/-! ### permutations -/

theorem permuteRows_spec {α : Type} (map : List Nat) (n : Nat) (hp : map.Perm (List.range n))
    (mat : Mx α) (hr : mat.rows = n) (g : Nat → Nat → α) :
    ∃ out, permuteRows map mat g = some out ∧ out.rows = n ∧ out.cols = mat.cols ∧
      ∀ i p, map[i]? = some p → ∀ j, j < mat.cols → out.e p j = mat.e i j := by
  have hlen : map.length = n := by rw [hp.length_eq]; simp
  have hnd : map.Nodup := hp.nodup_iff.mpr List.nodup_range
  have main : ∀ k, k ≤ n → ∃ out : Mx α,
      (List.range k).foldlM (fun (out : Mx α) i => do
        let p ← map[i]?
        pure { out with e := fun r j => if r = p ∧ j < mat.cols then mat.e i j else out.e r j })
        ⟨mat.rows, mat.cols, g⟩ = some out ∧ out.rows = n ∧ out.cols = mat.cols ∧
      ∀ i p, i < k → map[i]? = some p → ∀ j, j < mat.cols → out.e p j = mat.e i j := by
    intro k
    induction k with
    | zero => intro _; exact ⟨⟨mat.rows, mat.cols, g⟩, rfl, hr, rfl, by intros; omega⟩
    | succ k ih =>
      intro hk
      obtain ⟨out, h1, h2, h3, h4⟩ := ih (by omega)
      have hkl : k < map.length := by omega
      refine ⟨{ out with e := fun r j => if r = map[k] ∧ j < mat.cols then mat.e k j else out.e r j },
        ?_, h2, h3, ?_⟩
      · rw [List.range_succ, List.foldlM_append, h1]
        simp [List.getElem?_eq_getElem hkl]
      · intro i p hi hip j hj
        by_cases hik : i = k
        · subst hik
          rw [List.getElem?_eq_getElem hkl] at hip
          injection hip with hip
          simp [hip, hj]
        · have hil : i < map.length := by omega
          have hne : p ≠ map[k] := by
            intro h
            rw [List.getElem?_eq_getElem hil] at hip
            injection hip with hip
            rw [← hip] at h
            exact hik ((hnd.getElem_inj_iff).mp h)
          simp only [hne, false_and, if_false]
          exact h4 i p (by omega) hip j hj
  obtain ⟨out, h1, h2, h3, h4⟩ := main n le_rfl
  refine ⟨out, ?_, h2, h3, ?_⟩
  · unfold permuteRows; rw [hr]
    rw [hr] at h1; exact h1
  · intro i p hip j hj
    have : i < n := by rw [← hlen]; exact (List.getElem?_eq_some_iff.mp hip).1
    exact h4 i p this hip j hj

/-! ### interleavings -/

namespace HMatrix

theorem Interleaving.perm {α : Type} {ts : List (List α)} {l : List α} (h : Interleaving ts l) :
    l.Perm ts.flatten := by
  induction h with
  | done => simp
  | drop ts₁ ts₂ l _ ih => simpa using ih
  | step ts₁ ts₂ x t l _ ih =>
    refine (List.Perm.cons x ih).trans ?_
    simp only [List.flatten_append, List.flatten_cons, List.cons_append]
    exact (List.perm_middle (a := x) (l₁ := ts₁.flatten) (l₂ := t ++ ts₂.flatten)).symm

theorem interleaving_flatten {α : Type} (ts : List (List α)) : Interleaving ts ts.flatten := by
  induction ts with
  | nil => exact Interleaving.done
  | cons t ts ih =>
    induction t with
    | nil => simpa using Interleaving.drop [] ts _ (by simpa using ih)
    | cons x t iht => exact Interleaving.step [] ts x t _ iht

variable {G K : Type} [CommRing K] [StarRing K] [DecidableEq K]

theorem foldl_rowAdd (l : List (RowUpdate K)) (y : Mx (Cell K)) (r j : Nat) :
    (l.foldl rowAdd y).rows = y.rows ∧ (l.foldl rowAdd y).cols = y.cols ∧
    (j < y.cols → (l.foldl rowAdd y).e r j =
      (y.e r j).map (· + (l.map (fun u => if u.row = r then u.val j else 0)).sum)) := by
  induction l generalizing y with
  | nil => simp
  | cons u l ih =>
    obtain ⟨h1, h2, h3⟩ := ih (rowAdd y u)
    refine ⟨h1, h2, ?_⟩
    intro hj
    rw [List.foldl_cons, h3 hj]
    simp only [rowAdd, List.map_cons, List.sum_cons, hj, and_true]
    by_cases hr : r = u.row
    · subst hr
      simp only [if_true, Option.map_map]
      congr 1
      funext x
      simp only [Function.comp]
      ring
    · rw [if_neg hr, if_neg (fun h => hr h.symm)]
      simp

theorem tasks_spec (h : HMatrix G K) (t : TransposeMode) (x : Mx K)
    (hd : ∀ k ∈ h.myLeafs, ∃ b d, h.tree.leafNodes[k]? = some b ∧ h.data k = some d) :
    ∃ ts, h.tasks t x = some ts ∧
      (∀ f : RowUpdate K → K, (ts.flatten.map f).sum =
        (h.myLeafs.map (fun k => match h.tree.leafNodes[k]?, h.data k with
          | some b, some d => ((leafUpdates t b.data d x).map f).sum
          | _, _ => 0)).sum) := by
  unfold tasks
  generalize h.myLeafs = L at hd
  induction L with
  | nil => exact ⟨[], rfl, by simp⟩
  | cons k L ih =>
    obtain ⟨ts, h1, h2⟩ := ih (fun k hk => hd k (by simp [hk]))
    obtain ⟨b, d, hb, hdd⟩ := hd k (by simp)
    refine ⟨leafUpdates t b.data d x :: ts, ?_, ?_⟩
    · rw [List.mapM_cons, h1]
      simp [hb, hdd]
    · intro f
      simp only [List.flatten_cons, List.map_append, List.sum_append, List.map_cons, List.sum_cons,
        hb, hdd, h2 f]

/-- What a leaf adds to entry `(r, j)`. -/
def contribution (t : TransposeMode) (b : BlockData G) (d : HData K) (x : Mx K) (r j : Nat) : K :=
  if t.keepsRows then
    if b.row.data.lo ≤ r ∧ r < b.row.data.hi then
      ∑ k ∈ range (b.col.data.hi - b.col.data.lo),
        opEntry t d.entry (r - b.row.data.lo) k * x.e (b.col.data.lo + k) j
    else 0
  else
    if b.col.data.lo ≤ r ∧ r < b.col.data.hi then
      ∑ k ∈ range (b.row.data.hi - b.row.data.lo),
        opEntry t d.entry (r - b.col.data.lo) k * x.e (b.row.data.lo + k) j
    else 0

theorem sum_range'_ite (a n r : Nat) (f : Nat → K) :
    ((List.range' a n).map (fun i => if i = r then f i else 0)).sum =
      if a ≤ r ∧ r < a + n then f r else 0 := by
  induction n generalizing a with
  | zero => simp
  | succ n ih =>
    rw [List.range'_succ, List.map_cons, List.sum_cons, ih]
    by_cases h : a = r
    · subst h; simp
    · rw [if_neg h, zero_add]
      by_cases h2 : a + 1 ≤ r ∧ r < a + 1 + n
      · rw [if_pos h2, if_pos (by omega)]
      · rw [if_neg h2, if_neg (by omega)]

theorem leafUpdates_sum (t : TransposeMode) (b : BlockData G) (d : HData K) (x : Mx K)
    (hs : d.Shape b.row.size b.col.size) (r j : Nat) :
    ((leafUpdates t b d x).map (fun u => if u.row = r then u.val j else 0)).sum =
      contribution t b d x r j := by
  have key : ∀ (a n : Nat) (g : Nat → Nat → K), ((((List.range' a n).map
      (fun i => (⟨i, g i⟩ : RowUpdate K))).map (fun u => if u.row = r then u.val j else 0)).sum) =
      if a ≤ r ∧ r < a + n then g r j else 0 := by
    intro a n g
    rw [List.map_map]
    exact sum_range'_ite a n r (fun i => g i j)
  unfold leafUpdates contribution
  have lo_hi : ∀ a c r : Nat, (a ≤ r ∧ r < a + (c - a)) ↔ (a ≤ r ∧ r < c) := by intros; omega
  cases t <;> simp only [TransposeMode.keepsRows, if_true, reduceCtorEq, or_self, or_true, true_or,
    if_false, Bool.false_eq_true] <;> rw [key] <;>
    simp only [lo_hi, HData.apply_entry d _ _ hs, TransposeMode.keepsRows, Mx.zero,
      Mx.block, mul_zero, zero_add, one_mul, if_true, CTree.size, Bool.false_eq_true, if_false]

end HMatrix
end Verif.HMat
