import Verif.Spec.MatData
import Mathlib.Algebra.BigOperators.Ring.Finset
import Mathlib.Tactic.Ring
/-
Lemmas about leaf blocks.
-/
namespace Verif.HMat
open Finset
variable {K : Type} [CommRing K] [StarRing K] [DecidableEq K]

theorem denseApply_entry (A X Y : Mx K) (t : TransposeMode) (α β : K) (i j : Nat) :
    (denseApply A X Y t α β).e i j = β * Y.e i j +
      α * ∑ k ∈ range (if t.keepsRows then A.cols else A.rows), opEntry t A.e i k * X.e k j := by
  unfold denseApply
  by_cases hα : α = 0
  · subst hα
    by_cases hβ : β = 0 <;> simp [hβ, Mx.smul, Mx.zero]
  · by_cases hβ : β = 0 <;> cases t <;>
      simp [hα, hβ, Mx.smul, Mx.zero, Mx.mul, Mx.add, Mx.transpose, Mx.conjugate, Mx.adjoint, opEntry,
        TransposeMode.keepsRows, Finset.mul_sum, mul_assoc, add_comm]

theorem lowRankApply_entry (A B X Y : Mx K) (hAB : B.rows = A.cols) (t : TransposeMode) (α β : K)
    (i j : Nat) :
    (lowRankApply A B X Y t α β).e i j = β * Y.e i j +
      α * ∑ k ∈ range (if t.keepsRows then B.cols else A.rows),
        opEntry t (fun i j => ∑ l ∈ range A.cols, A.e i l * B.e l j) i k * X.e k j := by
  unfold lowRankApply
  by_cases hα : α = 0
  · subst hα
    by_cases hβ : β = 0 <;> simp [hβ, Mx.smul, Mx.zero]
  by_cases hr : A.cols = 0
  · by_cases hβ : β = 0 <;> cases t <;>
      simp [hα, hr, hβ, Mx.smul, Mx.zero, opEntry]
  have key : ∀ (n : Nat) (f : Nat → K) (g : Nat → Nat → K) (x : Nat → K),
      ∑ l ∈ range A.cols, α * f l * ∑ k ∈ range n, g l k * x k =
      α * ∑ k ∈ range n, (∑ l ∈ range A.cols, f l * g l k) * x k := by
    intro n f g x
    simp only [Finset.mul_sum, Finset.sum_mul]
    rw [Finset.sum_comm]
    refine Finset.sum_congr rfl fun k _ => Finset.sum_congr rfl fun l _ => by ring
  have hY : ∀ i j, β * (if β = 0 then Mx.zero Y.rows Y.cols else Y).e i j = β * Y.e i j := by
    intro i j; by_cases hβ : β = 0 <;> simp [hβ]
  cases t
  · simp only [hα, hr, or_self, if_false, Mx.add, Mx.smul, Mx.mul, hY, opEntry,
      TransposeMode.keepsRows, if_true]
    rw [key B.cols (fun l => A.e i l) B.e (fun k => X.e k j), add_comm]
  · simp only [hα, hr, or_self, if_false, Mx.add, Mx.smul, Mx.mul, hY, opEntry, Mx.transpose,
      TransposeMode.keepsRows, hAB]
    rw [key A.rows (fun l => B.e l i) (fun l k => A.e k l) (fun k => X.e k j), add_comm]
    simp only [mul_comm (A.e _ _)]
    rfl
  · simp only [hα, hr, or_self, if_false, Mx.add, Mx.smul, Mx.mul, hY, opEntry, Mx.conjugate,
      TransposeMode.keepsRows, if_true, star_sum, star_mul']
    rw [key B.cols (fun l => star (A.e i l)) (fun l k => star (B.e l k)) (fun k => X.e k j), add_comm]
  · simp only [hα, hr, or_self, if_false, Mx.add, Mx.smul, Mx.mul, hY, opEntry, Mx.adjoint,
      TransposeMode.keepsRows, star_sum, star_mul', hAB]
    rw [key A.rows (fun l => star (B.e l i)) (fun l k => star (A.e k l)) (fun k => X.e k j), add_comm]
    simp only [mul_comm (star (A.e _ _))]
    rfl

theorem HData.apply_entry (d : HData K) (m n : Nat) (hs : d.Shape m n) (X Y : Mx K)
    (t : TransposeMode) (α β : K) (i j : Nat) :
    (d.apply X Y t α β).e i j = β * Y.e i j +
      α * ∑ k ∈ range (if t.keepsRows then n else m), opEntry t d.entry i k * X.e k j := by
  cases d with
  | dense A =>
    obtain ⟨rfl, rfl⟩ := hs
    exact denseApply_entry A X Y t α β i j
  | lowRank A B =>
    obtain ⟨rfl, rfl, h⟩ := hs
    exact lowRankApply_entry A B X Y h t α β i j

end Verif.HMat
