import Verif.Lemmas.Fractals
import Mathlib.Tactic.FinCases

/-! # The rounds of the Sierpinski triangle -/

noncomputable section

namespace Verif.Shapes

open Finset

/-- the new points of a triangle in the order of the code -/
def trio (c : Bary 3) : List (Bary 3) :=
  [c + c + unit 1 + unit 2, c + c + unit 0 + unit 2, c + c + unit 0 + unit 1]

theorem trio_perm (n : ℕ) : ((corners 3 n).flatMap trio).Perm (middles 3 n) := by
  unfold middles
  refine List.Perm.flatMap_left _ fun c _ => ?_
  have : (((List.finRange 3).product (List.finRange 3)).filter fun q => decide (q.1 < q.2))
      = [(0, 1), (0, 2), (1, 2)] := by decide
  rw [this]
  exact (List.reverse_perm [c + c + unit 0 + unit 1, c + c + unit 0 + unit 2, c + c + unit 1 + unit 2])

theorem others_mid (v : Fin 3 → V2) (n : ℕ) (β γ δ : Bary 3) :
    (others (pt v n β) (pt v n γ) (pt v n δ) (pt v n β) = pt v (n + 1) (γ + δ)) ∧
    (others (pt v n β) (pt v n γ) (pt v n δ) (pt v n γ) = pt v (n + 1) (β + δ)) ∧
    (others (pt v n β) (pt v n γ) (pt v n δ) (pt v n δ) = pt v (n + 1) (β + γ)) := by
  refine ⟨?_, ?_, ?_⟩ <;>
  · rw [← pt_half]
    funext x
    unfold others half
    ring

theorem triAll_spec {v : Fin 3 → V2} {n : ℕ} {B : List (Bary 3)}
    (hB : ∀ c ∈ corners 3 n, ∀ k, c + unit k ∈ B)
    (rest done : List (Bary 3)) (h : corners 3 n = done ++ rest) :
    triAll (rest.map (cell B)) ((B.map (fun β => β + β) ++ done.flatMap trio).map (pt v (n + 1)))
      = .ok ((rest.flatMap fun c => (List.finRange 3).map fun i => c + c + unit i).map
            (cell (B.map (fun β => β + β) ++ (corners 3 n).flatMap trio)),
          (B.map (fun β => β + β) ++ (corners 3 n).flatMap trio).map (pt v (n + 1))) := by
  induction rest generalizing done with
  | nil =>
    rw [List.append_nil] at h
    rw [h]
    rfl
  | cons c rest ih =>
    have hc : c ∈ corners 3 n := by
      rw [h]
      exact List.mem_append_right _ (List.mem_cons_self ..)
    have hnd : ((corners 3 n).flatMap trio).Nodup := (trio_perm n).nodup_iff.2 (middles_nodup 3 n)
    rw [List.map_cons]
    unfold triAll
    have hcell : cell B c
        = [B.idxOf (c + unit 0), B.idxOf (c + unit 1), B.idxOf (c + unit 2)] := rfl
    have ih' := ih (done ++ [c]) (by rw [h, List.append_assoc]; rfl)
    have hsplit : triSplit ((B.map (fun β => β + β) ++ done.flatMap trio).map (pt v (n + 1))) (cell B c)
        = .ok (((List.finRange 3).map fun i => c + c + unit i).map
            (cell (B.map (fun β => β + β) ++ (corners 3 n).flatMap trio)),
          (B.map (fun β => β + β) ++ (done ++ [c]).flatMap trio).map (pt v (n + 1))) := by
      rw [hcell]
      unfold triSplit
      dsimp only
      rw [pget_pt (hB c hc 0), pget_pt (hB c hc 1), pget_pt (hB c hc 2)]
      simp only [Except.bind]
      obtain ⟨e0, e1, e2⟩ := others_mid v n (c + unit 0) (c + unit 1) (c + unit 2)
      rw [e0, e1, e2]
      have a12 : c + unit 1 + (c + unit 2) = c + c + unit 1 + unit 2 := by abel
      have a02 : c + unit 0 + (c + unit 2) = c + c + unit 0 + unit 2 := by abel
      have a01 : c + unit 0 + (c + unit 1) = c + c + unit 0 + unit 1 := by abel
      rw [a12, a02, a01]
      have hpts : (B.map (fun β => β + β) ++ done.flatMap trio).map (pt v (n + 1)) ++
          [pt v (n + 1) (c + c + unit 1 + unit 2), pt v (n + 1) (c + c + unit 0 + unit 2),
            pt v (n + 1) (c + c + unit 0 + unit 1)]
          = (B.map (fun β => β + β) ++ (done ++ [c]).flatMap trio).map (pt v (n + 1)) := by
        rw [List.flatMap_append]
        simp [trio]
      rw [hpts]
      congr 2
      -- indices
      have hall : B.map (fun β => β + β) ++ (corners 3 n).flatMap trio
          = (B.map (fun β => β + β) ++ done.flatMap trio) ++ trio c ++ rest.flatMap trio := by
        rw [h, List.flatMap_append, List.flatMap_cons]
        simp only [List.append_assoc]
      rw [h, List.flatMap_append, List.flatMap_cons] at hnd
      have hlen : ((B.map (fun β => β + β) ++ done.flatMap trio).map (pt v (n + 1))).length
          = (B.map (fun β => β + β) ++ done.flatMap trio).length := List.length_map ..
      rw [hlen]
      have hdisj : ∀ x ∈ trio c, x ∉ B.map (fun β => β + β) ++ done.flatMap trio := by
        intro x hx hx'
        rcases List.mem_append.1 hx' with hb | hd
        · obtain ⟨β, -, rfl⟩ := List.mem_map.1 hb
          have : ∃ i j : Fin 3, i ≠ j ∧ β + β = c + c + unit i + unit j := by
            simp only [trio, List.mem_cons, List.not_mem_nil, or_false] at hx
            rcases hx with hx | hx | hx
            · exact ⟨1, 2, by decide, hx⟩
            · exact ⟨0, 2, by decide, hx⟩
            · exact ⟨0, 1, by decide, hx⟩
          obtain ⟨i, j, hij, hh⟩ := this
          exact edge_not_double hij hh.symm
        · exact (List.nodup_append.1 hnd).2.2 x hd x (List.mem_append_left _ hx) rfl
      have hidx : ∀ x ∈ trio c, (B.map (fun β => β + β) ++ (corners 3 n).flatMap trio).idxOf x
          = (B.map (fun β => β + β) ++ done.flatMap trio).length + (trio c).idxOf x := by
        intro x hx
        rw [hall, List.idxOf_append_of_mem (List.mem_append_right _ hx),
          List.idxOf_append_of_notMem (hdisj x hx), Nat.add_comm]
      have hdbl : ∀ k, (B.map (fun β => β + β) ++ (corners 3 n).flatMap trio).idxOf
          (c + c + unit k + unit k) = B.idxOf (c + unit k) := by
        intro k
        have e : c + c + unit k + unit k = (c + unit k) + (c + unit k) := by abel
        rw [e, idxOf_double _ (hB c hc k)]
      have ne1 : c + c + unit 1 + unit 2 ≠ c + c + unit 0 + unit 2 := by
        intro hh
        have := (edge_unique (by decide) (by decide) hh).2
        revert this
        decide
      have ne2 : c + c + unit 1 + unit 2 ≠ c + c + unit 0 + unit 1 := by
        intro hh
        have := (edge_unique (by decide) (by decide) hh).2
        revert this
        decide
      have ne3 : c + c + unit 0 + unit 2 ≠ c + c + unit 0 + unit 1 := by
        intro hh
        have := (edge_unique (by decide) (by decide) hh).2
        revert this
        decide
      have i12 := hidx (c + c + unit 1 + unit 2) (by simp [trio])
      have i02 := hidx (c + c + unit 0 + unit 2) (by simp [trio])
      have i01 := hidx (c + c + unit 0 + unit 1) (by simp [trio])
      have t12 : (trio c).idxOf (c + c + unit 1 + unit 2) = 0 := by
        unfold trio
        simp
      have t02 : (trio c).idxOf (c + c + unit 0 + unit 2) = 1 := by
        unfold trio
        rw [List.idxOf_cons_ne _ ne1, List.idxOf_cons_self]
      have t01 : (trio c).idxOf (c + c + unit 0 + unit 1) = 2 := by
        unfold trio
        rw [List.idxOf_cons_ne _ ne2, List.idxOf_cons_ne _ ne3, List.idxOf_cons_self]
      rw [t12] at i12
      rw [t02] at i02
      rw [t01] at i01
      have s10 : c + c + unit 1 + unit 0 = c + c + unit 0 + unit 1 := by abel
      have s20 : c + c + unit 2 + unit 0 = c + c + unit 0 + unit 2 := by abel
      have s21 : c + c + unit 2 + unit 1 = c + c + unit 1 + unit 2 := by abel
      show _ = [cell _ (c + c + unit 0), cell _ (c + c + unit 1), cell _ (c + c + unit 2)]
      have hc3 : ∀ (L : List (Bary 3)) (c : Bary 3), cell L c
        = [L.idxOf (c + unit 0), L.idxOf (c + unit 1), L.idxOf (c + unit 2)] := fun _ _ => rfl
      simp only [hc3]
      rw [s10, s20, s21, hdbl 0, hdbl 1, hdbl 2, i12, i02, i01]
      rfl
    rw [hsplit]
    simp only [Except.bind]
    rw [ih']
    simp only [List.flatMap_cons, List.map_append]

theorem triLevels_spec {v : Fin 3 → V2} (k : ℕ) {n : ℕ} {points : List V2}
    {cells : List (List ℕ)} {B : List (Bary 3)} (L : Level v n points cells B) :
    ∃ points' cells' B', triLevels k (points, cells) = .ok (points', cells') ∧
      Level v (n + k) points' cells' B' := by
  induction k generalizing n points cells B with
  | zero => exact ⟨points, cells, B, rfl, L⟩
  | succ k ih =>
    have h := triAll_spec (v := v) L.vertex (corners 3 n) [] rfl
    have hp : points = (B.map (fun β => β + β) ++ ([] : List (Bary 3)).flatMap trio).map (pt v (n + 1)) := by
      rw [L.points, List.flatMap_nil, List.append_nil, List.map_map]
      refine List.map_congr_left fun β _ => ?_
      rw [Function.comp_apply, pt_double]
    rw [← hp] at h
    have L' := L.next (trio_perm n)
      (cells' := (corners 3 (n + 1)).map (cell (B.map (fun β => β + β) ++ (corners 3 n).flatMap trio))) rfl
    obtain ⟨p2, c2, B2, h2, L2⟩ := ih L'
    refine ⟨p2, c2, B2, ?_, ?_⟩
    · unfold triLevels
      rw [L.cells, h]
      exact h2
    · rw [show n + (k + 1) = n + 1 + k by omega]
      exact L2

end Verif.Shapes
