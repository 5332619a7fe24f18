import Verif.Spec.Box
import Mathlib.Tactic.Linarith
import Mathlib.Tactic.FinCases
import Mathlib.Tactic.NormNum
set_option linter.unusedSectionVars false
namespace Verif.HMat
namespace Box
variable {K : Type} [Field K] [LinearOrder K] [IsStrictOrderedRing K]

theorem intervalDistance_comm (a1 b1 a2 b2 : K) (h1 : a1 ≤ b1) (h2 : a2 ≤ b2) :
    intervalDistance a1 b1 a2 b2 = intervalDistance a2 b2 a1 b1 := by
  unfold intervalDistance
  split_ifs <;> first | rfl | (exfalso; linarith)

theorem intervalDistance_nonneg (a1 b1 a2 b2 : K) : 0 ≤ intervalDistance a1 b1 a2 b2 := by
  unfold intervalDistance
  split_ifs <;> linarith

theorem intervalDistance_le (a1 b1 a2 b2 x y : K) (h1 : a1 ≤ x) (h2 : x ≤ b1) (h3 : a2 ≤ y)
    (h4 : y ≤ b2) : intervalDistance a1 b1 a2 b2 ≤ |x - y| := by
  unfold intervalDistance
  split_ifs
  · rw [abs_sub_comm]; exact le_trans (by linarith) (le_abs_self _)
  · exact le_trans (by linarith) (le_abs_self _)
  · exact abs_nonneg _

theorem intervalDistance_attained (a1 b1 a2 b2 : K) (h1 : a1 ≤ b1) (h2 : a2 ≤ b2) :
    ∃ x y, a1 ≤ x ∧ x ≤ b1 ∧ a2 ≤ y ∧ y ≤ b2 ∧
      (x - y) ^ 2 = intervalDistance a1 b1 a2 b2 * intervalDistance a1 b1 a2 b2 := by
  unfold intervalDistance
  split_ifs with h h'
  · exact ⟨b1, a2, h1, le_refl _, le_refl _, h2, by ring⟩
  · exact ⟨a1, b2, le_refl _, h1, h2, le_refl _, by ring⟩
  · refine ⟨max a1 a2, max a1 a2, le_max_left _ _, ?_, le_max_right _ _, ?_, by ring⟩
    · exact max_le h1 (by linarith)
    · exact max_le (by linarith) h2

theorem intervalDistance_mono (a1 b1 a2 b2 a1' b1' a2' b2' : K)
    (h1 : a1' ≤ a1) (h2 : b1 ≤ b1') (h3 : a2' ≤ a2) (h4 : b2 ≤ b2') :
    intervalDistance a1' b1' a2' b2' ≤ intervalDistance a1 b1 a2 b2 ∨ b1 < a1 ∨ b2 < a2 := by
  unfold intervalDistance
  split_ifs <;> first
    | (left; linarith)
    | (right; left; linarith)
    | (right; right; linarith)
    | (by_cases h : b1 < a1
       · right; left; exact h
       · by_cases h' : b2 < a2
         · right; right; exact h'
         · left; linarith)

theorem distSq_mono (a b a' b' : Box K) (va : a.Valid) (vb : b.Valid) (ha : a.Sub a')
    (hb : b.Sub b') : distSq a' b' ≤ distSq a b := by
  unfold distSq
  have h : ∀ i : Fin 3, intervalDistance (a'.lo i) (a'.hi i) (b'.lo i) (b'.hi i) ≤
      intervalDistance (a.lo i) (a.hi i) (b.lo i) (b.hi i) := by
    intro i
    rcases intervalDistance_mono _ _ _ _ _ _ _ _ (ha i).1 (ha i).2 (hb i).1 (hb i).2 with h | h | h
    · exact h
    · exact absurd (va i) (not_le.mpr h)
    · exact absurd (vb i) (not_le.mpr h)
  have hs : ∀ i : Fin 3, intervalDistance (a'.lo i) (a'.hi i) (b'.lo i) (b'.hi i) *
      intervalDistance (a'.lo i) (a'.hi i) (b'.lo i) (b'.hi i) ≤
      intervalDistance (a.lo i) (a.hi i) (b.lo i) (b.hi i) *
      intervalDistance (a.lo i) (a.hi i) (b.lo i) (b.hi i) := fun i =>
    mul_self_le_mul_self (intervalDistance_nonneg _ _ _ _) (h i)
  have := hs 0; have := hs 1; have := hs 2
  simp only
  linarith

theorem sub_trans {a b c : Box K} (h1 : a.Sub b) (h2 : b.Sub c) : a.Sub c := fun d =>
  ⟨le_trans (h2 d).1 (h1 d).1, le_trans (h1 d).2 (h2 d).2⟩

end Box

section
variable {K : Type} [LinearOrder K]

theorem foldl_min_spec (ps : List (Pt K)) (d : Fin 3) (x : K) :
    (∀ q ∈ ps, ps.foldl (fun m q => min m (q d)) x ≤ q d) ∧
    ps.foldl (fun m q => min m (q d)) x ≤ x ∧
    (ps.foldl (fun m q => min m (q d)) x = x ∨
      ∃ q ∈ ps, ps.foldl (fun m q => min m (q d)) x = q d) := by
  induction ps generalizing x with
  | nil => simp
  | cons p ps ih =>
    obtain ⟨h1, h2, h3⟩ := ih (min x (p d))
    simp only [List.foldl_cons]
    refine ⟨?_, le_trans h2 (min_le_left _ _), ?_⟩
    · intro q hq
      rcases List.mem_cons.mp hq with rfl | hq
      · exact le_trans h2 (min_le_right _ _)
      · exact h1 q hq
    · rcases h3 with h3 | ⟨q, hq, h3⟩
      · rcases min_choice x (p d) with hm | hm
        · left; rw [h3, hm]
        · right; exact ⟨p, by simp, by rw [h3, hm]⟩
      · right; exact ⟨q, by simp [hq], h3⟩

theorem foldl_max_spec (ps : List (Pt K)) (d : Fin 3) (x : K) :
    (∀ q ∈ ps, q d ≤ ps.foldl (fun m q => max m (q d)) x) ∧
    x ≤ ps.foldl (fun m q => max m (q d)) x ∧
    (ps.foldl (fun m q => max m (q d)) x = x ∨
      ∃ q ∈ ps, ps.foldl (fun m q => max m (q d)) x = q d) := by
  induction ps generalizing x with
  | nil => simp
  | cons p ps ih =>
    obtain ⟨h1, h2, h3⟩ := ih (max x (p d))
    simp only [List.foldl_cons]
    refine ⟨?_, le_trans (le_max_left _ _) h2, ?_⟩
    · intro q hq
      rcases List.mem_cons.mp hq with rfl | hq
      · exact le_trans (le_max_right _ _) h2
      · exact h1 q hq
    · rcases h3 with h3 | ⟨q, hq, h3⟩
      · rcases max_choice x (p d) with hm | hm
        · left; rw [h3, hm]
        · right; exact ⟨p, by simp, by rw [h3, hm]⟩
      · right; exact ⟨q, by simp [hq], h3⟩

theorem boxOfPoints_spec {ps : List (Pt K)} {b : Box K} (h : boxOfPoints ps = some b) (d : Fin 3) :
    (∀ q ∈ ps, b.lo d ≤ q d ∧ q d ≤ b.hi d) ∧ (∃ q ∈ ps, b.lo d = q d) ∧
      (∃ q ∈ ps, b.hi d = q d) := by
  cases ps with
  | nil => simp [boxOfPoints] at h
  | cons p ps =>
    simp only [boxOfPoints, Option.some.injEq] at h
    subst h
    obtain ⟨a1, a2, a3⟩ := foldl_min_spec ps d (p d)
    obtain ⟨b1, b2, b3⟩ := foldl_max_spec ps d (p d)
    refine ⟨?_, ?_, ?_⟩
    · intro q hq
      rcases List.mem_cons.mp hq with rfl | hq
      · exact ⟨a2, b2⟩
      · exact ⟨a1 q hq, b1 q hq⟩
    · rcases a3 with h | ⟨q, hq, h⟩
      · exact ⟨p, by simp, h⟩
      · exact ⟨q, by simp [hq], h⟩
    · rcases b3 with h | ⟨q, hq, h⟩
      · exact ⟨p, by simp, h⟩
      · exact ⟨q, by simp [hq], h⟩

theorem corner_coord (a : Box K) (q : Pt K) (h : q ∈ a.corners) (d : Fin 3) :
    q d = a.lo d ∨ q d = a.hi d := by
  simp only [Box.corners, List.mem_cons, List.not_mem_nil, or_false] at h
  rcases h with rfl | rfl | rfl | rfl | rfl | rfl | rfl | rfl <;> fin_cases d <;> simp

theorem corner_lo_mem (a : Box K) : a.lo ∈ a.corners := by
  have : a.lo = ![a.lo 0, a.lo 1, a.lo 2] := by funext d; fin_cases d <;> rfl
  unfold Box.corners
  rw [← this]; simp

theorem corner_hi_mem (a : Box K) : a.hi ∈ a.corners := by
  have : a.hi = ![a.hi 0, a.hi 1, a.hi 2] := by funext d; fin_cases d <;> rfl
  unfold Box.corners
  rw [← this]; simp

theorem clusterBox_isHull (boxes : Nat → Box K) (ix : List Nat) (hne : ix ≠ [])
    (hv : ∀ i ∈ ix, (boxes i).Valid) :
    ∃ b, clusterBox boxes ix = some b ∧ b.IsHull (fun i => i ∈ ix) boxes := by
  unfold clusterBox
  generalize hps : (ix.flatMap fun i => (boxes i).corners) = ps
  have hmem : ∀ q, q ∈ ps ↔ ∃ i ∈ ix, q ∈ (boxes i).corners := by
    intro q; rw [← hps]; simp [List.mem_flatMap]
  have hne' : ps ≠ [] := by
    obtain ⟨i, hi⟩ := List.exists_mem_of_ne_nil ix hne
    exact List.ne_nil_of_mem ((hmem _).mpr ⟨i, hi, corner_lo_mem _⟩)
  have : ∃ b, boxOfPoints ps = some b := by
    cases ps with
    | nil => exact absurd rfl hne'
    | cons p ps => exact ⟨_, rfl⟩
  obtain ⟨b, hb⟩ := this
  refine ⟨b, hb, ?_, ?_⟩
  · intro i hi d
    exact ⟨((boxOfPoints_spec hb d).1 _ ((hmem _).mpr ⟨i, hi, corner_lo_mem _⟩)).1,
      ((boxOfPoints_spec hb d).1 _ ((hmem _).mpr ⟨i, hi, corner_hi_mem _⟩)).2⟩
  · intro d
    obtain ⟨h1, ⟨q, hq, h2⟩, ⟨q', hq', h3⟩⟩ := boxOfPoints_spec hb d
    obtain ⟨i, hi, hc⟩ := (hmem _).mp hq
    obtain ⟨i', hi', hc'⟩ := (hmem _).mp hq'
    constructor
    · refine ⟨i, hi, ?_⟩
      rcases corner_coord _ _ hc d with e | e
      · rw [h2, e]
      · apply le_antisymm
        · exact (h1 _ ((hmem _).mpr ⟨i, hi, corner_lo_mem _⟩)).1
        · rw [h2, e]; exact hv i hi d
    · refine ⟨i', hi', ?_⟩
      rcases corner_coord _ _ hc' d with e | e
      · apply le_antisymm
        · rw [h3, e]; exact hv i' hi' d
        · exact (h1 _ ((hmem _).mpr ⟨i', hi', corner_hi_mem _⟩)).2
      · rw [h3, e]

end
end Verif.HMat
