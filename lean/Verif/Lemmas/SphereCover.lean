import Verif.Lemmas.Sphere
import Mathlib.Tactic.IntervalCases

/-!
# The cones over the refined elements cover space and only meet in their common faces; the number of
nodes
-/

noncomputable section

namespace Verif.Shapes.Sphere

variable {P : List V3} {els : List Tri} {P' : List V3} {els' : List Tri} {m : ℕ → ℕ → ℕ}

/-- the sum of the coefficients -/
theorem sum_cone {t : Tri} {c : ℕ → ℝ} {N : ℕ} (hc : ∀ k, k ∉ cornersOf t → c k = 0)
    (hr : ∀ k ∈ cornersOf t, k < N) (h1 : t.1 ≠ t.2.1) (h2 : t.2.1 ≠ t.2.2) (h3 : t.2.2 ≠ t.1) :
    ∑ k ∈ Finset.range N, c k = c t.1 + c t.2.1 + c t.2.2 := by
  have : ∑ k ∈ ({t.1, t.2.1, t.2.2} : Finset ℕ), c k = ∑ k ∈ Finset.range N, c k := by
    apply Finset.sum_subset
    · intro k hk
      apply Finset.mem_range.2
      apply hr
      simpa [cornersOf] using hk
    · intro k _ hk
      apply hc
      simpa [cornersOf] using hk
  rw [← this, Finset.sum_insert (by simp [h1, h3.symm]), Finset.sum_insert (by simp [h2]), Finset.sum_singleton]
  ring

/-- the coefficient of the node of an edge, from the coefficients of its ends and their total -/
def edgePart (x y s : ℝ) : ℝ := max 0 (min x (min y (x + y - s / 2)))

theorem edgePart_comm (x y s : ℝ) : edgePart x y s = edgePart y x s := by
  unfold edgePart
  rw [min_left_comm, add_comm]

theorem edgePart_zero {y s : ℝ} : edgePart 0 y s = 0 := by
  unfold edgePart
  exact max_eq_left (min_le_left _ _)

/-- the four ways in which the six nodes of a refined element can carry coefficients -/
def Four (A B C u v w : ℝ) : Prop :=
  (B = 0 ∧ C = 0 ∧ v = 0) ∨ (A = 0 ∧ C = 0 ∧ w = 0) ∨ (A = 0 ∧ B = 0 ∧ u = 0) ∨ (A = 0 ∧ B = 0 ∧ C = 0)

theorem edgePart_four {A B C u v w : ℝ} (hA : 0 ≤ A) (hB : 0 ≤ B) (hC : 0 ≤ C) (hu : 0 ≤ u) (hv : 0 ≤ v)
    (hw : 0 ≤ w) (h : Four A B C u v w) :
    edgePart (A + u + w) (B + u + v) ((A + u + w) + (B + u + v) + (C + v + w)) = u := by
  unfold edgePart
  rcases h with ⟨rfl, rfl, rfl⟩ | ⟨rfl, rfl, rfl⟩ | ⟨rfl, rfl, rfl⟩ | ⟨rfl, rfl, rfl⟩
  · rw [min_eq_left (a := (0 : ℝ) + u + 0) (by linarith), min_eq_right (by linarith), max_eq_right (by linarith)]
    ring
  · rw [min_eq_left (a := (0 : ℝ) + u + 0) (le_min (by linarith) (by linarith)), max_eq_right (by linarith)]
    ring
  · rw [max_eq_left]
    refine le_trans (min_le_right _ _) (le_trans (min_le_right _ _) ?_)
    linarith
  · rw [min_eq_right (a := (0 : ℝ) + u + v) (by linarith), min_eq_right (by linarith), max_eq_right (by linarith)]
    ring

theorem cornerPart_four {A B C u v w : ℝ} (hA : 0 ≤ A) (hB : 0 ≤ B) (hC : 0 ≤ C) (hu : 0 ≤ u) (hv : 0 ≤ v)
    (hw : 0 ≤ w) (h : Four A B C u v w) :
    max 0 (2 * (A + u + w) - ((A + u + w) + (B + u + v) + (C + v + w))) = A := by
  rcases h with ⟨rfl, rfl, rfl⟩ | ⟨rfl, rfl, rfl⟩ | ⟨rfl, rfl, rfl⟩ | ⟨rfl, rfl, rfl⟩
  · rw [max_eq_right (by linarith)]; ring
  · rw [max_eq_left (by linarith)]
  · rw [max_eq_left (by linarith)]
  · rw [max_eq_left (by linarith)]

theorem Four.rotate {A B C u v w : ℝ} (h : Four A B C u v w) : Four B C A v w u := by
  unfold Four at *
  tauto

/-- the values of the coefficients on the corners of an element -/
def onCorners (t : Tri) (x y z : ℝ) : ℕ → ℝ := fun k =>
  if k = t.1 then x else if k = t.2.1 then y else if k = t.2.2 then z else 0

theorem onCorners_zero {t : Tri} {x y z : ℝ} : ∀ k, k ∉ cornersOf t → onCorners t x y z k = 0 := by
  intro k hk
  simp only [cornersOf, List.mem_cons, List.not_mem_nil, or_false, not_or] at hk
  unfold onCorners
  rw [if_neg hk.1, if_neg hk.2.1, if_neg hk.2.2]

theorem decode (G : Good P els) (R : Refined P els P' els' m) {T : Tri} (hT : T ∈ els') {c : ℕ → ℝ}
    (hc : Cone T c) : ∃ t ∈ els, ∃ d, Cone t d ∧ value P t d = value P' T c ∧
      (∀ k < P.length, c k = max 0 (2 * d k - ∑ j ∈ Finset.range P.length, d j)) ∧
      (∀ e ∈ allSides els, rho P e.1 e.2 * c (m e.1 e.2) =
        edgePart (d e.1) (d e.2) (∑ j ∈ Finset.range P.length, d j)) := by
  obtain ⟨t, ht, hs⟩ := (mem_els' R).1 hT
  have S := G.six R ht
  have hl0 := S.l0; have hl1 := S.l1; have hl2 := S.l2; have hg0 := S.g0; have hg1 := S.g1; have hg2 := S.g2
  have hn1 := S.n01; have hn2 := S.n12; have hn3 := S.n20
  have hm1 := S.m01; have hm2 := S.m12; have hm3 := S.m20
  -- the six values
  have hA := hc.nonneg t.1
  have hB := hc.nonneg t.2.1
  have hC := hc.nonneg t.2.2
  have hu := mul_nonneg S.r0.le (hc.nonneg (m t.1 t.2.1))
  have hv := mul_nonneg S.r1.le (hc.nonneg (m t.2.1 t.2.2))
  have hw := mul_nonneg S.r2.le (hc.nonneg (m t.2.2 t.1))
  have hfour : Four (c t.1) (c t.2.1) (c t.2.2) (rho P t.1 t.2.1 * c (m t.1 t.2.1))
      (rho P t.2.1 t.2.2 * c (m t.2.1 t.2.2)) (rho P t.2.2 t.1 * c (m t.2.2 t.1)) := by
    have z : ∀ k, k ∉ cornersOf T → c k = 0 := hc.zero
    rcases mem_sub.1 hs with rfl | rfl | rfl | rfl
    · refine Or.inl ⟨z _ ?_, z _ ?_, ?_⟩
      · simp only [cornersOf, List.mem_cons, List.not_mem_nil, or_false]; omega
      · simp only [cornersOf, List.mem_cons, List.not_mem_nil, or_false]; omega
      · rw [z _, mul_zero]
        simp only [cornersOf, List.mem_cons, List.not_mem_nil, or_false]; omega
    · refine Or.inr (Or.inl ⟨z _ ?_, z _ ?_, ?_⟩)
      · simp only [cornersOf, List.mem_cons, List.not_mem_nil, or_false]; omega
      · simp only [cornersOf, List.mem_cons, List.not_mem_nil, or_false]; omega
      · rw [z _, mul_zero]
        simp only [cornersOf, List.mem_cons, List.not_mem_nil, or_false]; omega
    · refine Or.inr (Or.inr (Or.inl ⟨z _ ?_, z _ ?_, ?_⟩))
      · simp only [cornersOf, List.mem_cons, List.not_mem_nil, or_false]; omega
      · simp only [cornersOf, List.mem_cons, List.not_mem_nil, or_false]; omega
      · rw [z _, mul_zero]
        simp only [cornersOf, List.mem_cons, List.not_mem_nil, or_false]; omega
    · refine Or.inr (Or.inr (Or.inr ⟨z _ ?_, z _ ?_, z _ ?_⟩))
      · simp only [cornersOf, List.mem_cons, List.not_mem_nil, or_false]; omega
      · simp only [cornersOf, List.mem_cons, List.not_mem_nil, or_false]; omega
      · simp only [cornersOf, List.mem_cons, List.not_mem_nil, or_false]; omega
  have hval : ∀ i, value P' T c i = c t.1 * nodeAt P t.1 i + c t.2.1 * nodeAt P t.2.1 i + c t.2.2 * nodeAt P t.2.2 i
      + rho P t.1 t.2.1 * c (m t.1 t.2.1) * (nodeAt P t.1 i + nodeAt P t.2.1 i)
      + rho P t.2.1 t.2.2 * c (m t.2.1 t.2.2) * (nodeAt P t.2.1 i + nodeAt P t.2.2 i)
      + rho P t.2.2 t.1 * c (m t.2.2 t.1) * (nodeAt P t.2.2 i + nodeAt P t.1 i) := by
    intro i
    have z : ∀ k, k ∉ cornersOf T → c k = 0 := hc.zero
    have h0 : t.1 ∉ cornersOf T → c t.1 = 0 := z _
    have h1 : t.2.1 ∉ cornersOf T → c t.2.1 = 0 := z _
    have h2 : t.2.2 ∉ cornersOf T → c t.2.2 = 0 := z _
    have h3 : m t.1 t.2.1 ∉ cornersOf T → c (m t.1 t.2.1) = 0 := z _
    have h4 : m t.2.1 t.2.2 ∉ cornersOf T → c (m t.2.1 t.2.2) = 0 := z _
    have h5 : m t.2.2 t.1 ∉ cornersOf T → c (m t.2.2 t.1) = 0 := z _
    unfold value
    rcases mem_sub.1 hs with rfl | rfl | rfl | rfl <;>
      simp only [cornersOf, List.mem_cons, List.not_mem_nil, or_false] at h0 h1 h2 h3 h4 h5 ⊢
    · rw [h1 (by omega), h2 (by omega), h4 (by omega), S.p0, S.q0, S.q2]; ring
    · rw [h0 (by omega), h2 (by omega), h5 (by omega), S.p1, S.q0, S.q1]; ring
    · rw [h0 (by omega), h1 (by omega), h3 (by omega), S.p2, S.q1, S.q2]; ring
    · rw [h0 (by omega), h1 (by omega), h2 (by omega), S.q0, S.q1, S.q2]; ring
  have hzero : ∀ k, k ≠ t.1 → k ≠ t.2.1 → k ≠ t.2.2 → k ≠ m t.1 t.2.1 → k ≠ m t.2.1 t.2.2 → k ≠ m t.2.2 t.1 →
      c k = 0 := by
    intro k a0 a1 a2 a3 a4 a5
    apply hc.zero
    rcases mem_sub.1 hs with rfl | rfl | rfl | rfl <;>
      simp only [cornersOf, List.mem_cons, List.not_mem_nil, or_false] <;> omega
  generalize hru : rho P t.1 t.2.1 * c (m t.1 t.2.1) = u at *
  generalize hrv : rho P t.2.1 t.2.2 * c (m t.2.1 t.2.2) = v at *
  generalize hrw : rho P t.2.2 t.1 * c (m t.2.2 t.1) = w at *
  have d0 : onCorners t (c t.1 + u + w) (c t.2.1 + u + v) (c t.2.2 + v + w) t.1 = c t.1 + u + w := by
    unfold onCorners; rw [if_pos rfl]
  have d1 : onCorners t (c t.1 + u + w) (c t.2.1 + u + v) (c t.2.2 + v + w) t.2.1 = c t.2.1 + u + v := by
    unfold onCorners; rw [if_neg hn1.symm, if_pos rfl]
  have d2 : onCorners t (c t.1 + u + w) (c t.2.1 + u + v) (c t.2.2 + v + w) t.2.2 = c t.2.2 + v + w := by
    unfold onCorners; rw [if_neg hn3, if_neg hn2.symm, if_pos rfl]
  have dz : ∀ k, k ∉ cornersOf t → onCorners t (c t.1 + u + w) (c t.2.1 + u + v) (c t.2.2 + v + w) k = 0 :=
    onCorners_zero
  generalize onCorners t (c t.1 + u + w) (c t.2.1 + u + v) (c t.2.2 + v + w) = d at *
  have hsum := sum_cone dz (G.inRange t ht) hn1 hn2 hn3
  have hpos : ∀ k, 0 ≤ d k := by
    intro k
    by_cases h : k ∈ cornersOf t
    · simp only [cornersOf, List.mem_cons, List.not_mem_nil, or_false] at h
      rcases h with rfl | rfl | rfl
      · rw [d0]; linarith
      · rw [d1]; linarith
      · rw [d2]; linarith
    · rw [dz k h]
  have dz' : ∀ k, k ≠ t.1 → k ≠ t.2.1 → k ≠ t.2.2 → d k = 0 := fun k a b e =>
    dz k (by simp only [cornersOf, List.mem_cons, List.not_mem_nil, or_false]; omega)
  refine ⟨t, ht, d, ⟨hpos, dz⟩, ?_, ?_, ?_⟩
  · funext i
    rw [hval]
    unfold value
    rw [d0, d1, d2]
    ring
  · intro k hk
    rw [hsum, d0, d1, d2]
    by_cases k0 : k = t.1
    · rw [k0, d0]
      exact (cornerPart_four hA hB hC hu hv hw hfour).symm
    by_cases k1 : k = t.2.1
    · rw [k1, d1]
      have := (cornerPart_four hB hC hA hv hw hu hfour.rotate).symm
      refine this.trans ?_
      congr 1
      ring
    by_cases k2 : k = t.2.2
    · rw [k2, d2]
      have := (cornerPart_four hC hA hB hw hu hv hfour.rotate.rotate).symm
      refine this.trans ?_
      congr 1
      ring
    · rw [dz' k k0 k1 k2, hzero k k0 k1 k2 (by omega) (by omega) (by omega), max_eq_left]
      linarith
  · -- a symmetric statement about the three edges of `t`
    have e0 : edgePart (d t.1) (d t.2.1) (∑ j ∈ Finset.range P.length, d j) = u := by
      rw [hsum, d0, d1, d2]
      exact edgePart_four hA hB hC hu hv hw hfour
    have e1 : edgePart (d t.2.1) (d t.2.2) (∑ j ∈ Finset.range P.length, d j) = v := by
      rw [hsum, d0, d1, d2]
      have := edgePart_four hB hC hA hv hw hu hfour.rotate
      refine Eq.trans ?_ this
      congr 1 <;> ring
    have e2 : edgePart (d t.2.2) (d t.1) (∑ j ∈ Finset.range P.length, d j) = w := by
      rw [hsum, d0, d1, d2]
      have := edgePart_four hC hA hB hw hu hv hfour.rotate.rotate
      refine Eq.trans ?_ this
      congr 1 <;> ring
    have hsym : ∀ x y z, rho P x y * c (m x y) = z → edgePart (d x) (d y) (∑ j ∈ Finset.range P.length, d j) = z →
        rho P x y * c (m x y) = edgePart (d x) (d y) (∑ j ∈ Finset.range P.length, d j) ∧
        rho P y x * c (m y x) = edgePart (d y) (d x) (∑ j ∈ Finset.range P.length, d j) := by
      intro x y z h h'
      refine ⟨by rw [h, h'], ?_⟩
      rw [rho_comm, R.comm, edgePart_comm, h, h']
    have s0 := hsym _ _ _ hru e0
    have s1 := hsym _ _ _ hrv e1
    have s2 := hsym _ _ _ hrw e2
    intro e he
    have hne := G.ne_side he
    by_cases hx : e.1 ∈ cornersOf t
    · by_cases hy : e.2 ∈ cornersOf t
      · simp only [cornersOf, List.mem_cons, List.not_mem_nil, or_false] at hx hy
        rcases hx with hx | hx | hx <;> rcases hy with hy | hy | hy <;> rw [hx, hy] at hne ⊢
        · exact absurd rfl hne
        · exact s0.1
        · exact s2.2
        · exact s0.2
        · exact absurd rfl hne
        · exact s1.1
        · exact s2.1
        · exact s1.2
        · exact absurd rfl hne
      · rw [dz _ hy, edgePart_comm, edgePart_zero, hzero, mul_zero]
        all_goals first
          | (have := (R.range e he).1; omega)
          | skip
        all_goals
          intro h
          simp only [cornersOf, List.mem_cons, List.not_mem_nil, or_false, not_or] at hy
        · rcases R.inj _ he _ (side1 ht) h with h | h <;> (rw [h] at hy; simp at hy)
        · rcases R.inj _ he _ (side2 ht) h with h | h <;> (rw [h] at hy; simp at hy)
        · rcases R.inj _ he _ (side3 ht) h with h | h <;> (rw [h] at hy; simp at hy)
    · rw [dz _ hx, edgePart_zero, hzero, mul_zero]
      all_goals first
        | (have := (R.range e he).1; omega)
        | skip
      all_goals
        intro h
        simp only [cornersOf, List.mem_cons, List.not_mem_nil, or_false, not_or] at hx
      · rcases R.inj _ he _ (side1 ht) h with h | h <;> (rw [h] at hx; simp at hx)
      · rcases R.inj _ he _ (side2 ht) h with h | h <;> (rw [h] at hx; simp at hx)
      · rcases R.inj _ he _ (side3 ht) h with h | h <;> (rw [h] at hx; simp at hx)

theorem step_unique (G : Good P els) (R : Refined P els P' els' m) : ∀ t ∈ els', ∀ t' ∈ els', ∀ c c',
    Cone t c → Cone t' c' → value P' t c = value P' t' c' → c = c' := by
  intro T hT T' hT' c c' hc hc' hv
  obtain ⟨t, ht, d, hd, h1, h2, h3⟩ := decode G R hT hc
  obtain ⟨t', ht', d', hd', h1', h2', h3'⟩ := decode G R hT' hc'
  have hdd := G.unique t ht t' ht' d d' hd hd' (by rw [h1, h1', hv])
  subst hdd
  funext k
  by_cases hk : k < P.length
  · rw [h2 k hk, h2' k hk]
  · by_cases hk' : k < P'.length
    · obtain ⟨e, he, rfl⟩ := R.surj k (by omega) hk'
      have := (h3 e he).trans (h3' e he).symm
      exact mul_left_cancel₀ (G.rho_pos he).ne' this
    · rw [hc.zero, hc'.zero]
      · exact fun h => hk' (step_inRange G R T' hT' k h)
      · exact fun h => hk' (step_inRange G R T hT k h)

theorem step_exist (G : Good P els) (R : Refined P els P' els' m) :
    ∀ x, ∃ t ∈ els', ∃ c, Cone t c ∧ value P' t c = x := by
  intro x
  obtain ⟨t, ht, c, hc, hv⟩ := G.exist x
  have S := G.six R ht
  have hl0 := S.l0; have hl1 := S.l1; have hl2 := S.l2; have hg0 := S.g0; have hg1 := S.g1; have hg2 := S.g2
  have hn1 := S.n01; have hn2 := S.n12; have hn3 := S.n20
  have hm1 := S.m01; have hm2 := S.m12; have hm3 := S.m20
  have r0 := S.r0; have r1 := S.r1; have r2 := S.r2
  have key : ∀ T ∈ sub m t, ∀ a b e : ℝ, 0 ≤ a → 0 ≤ b → 0 ≤ e → T.1 ≠ T.2.1 → T.2.1 ≠ T.2.2 → T.2.2 ≠ T.1 →
      (∀ i, a * nodeAt P' T.1 i + b * nodeAt P' T.2.1 i + e * nodeAt P' T.2.2 i = x i) →
      ∃ t ∈ els', ∃ c, Cone t c ∧ value P' t c = x := by
    intro T hT a b e ha hb he n1 n2 n3 h
    refine ⟨T, (mem_els' R).2 ⟨t, ht, hT⟩, onCorners T a b e, ⟨?_, onCorners_zero⟩, ?_⟩
    · intro k
      unfold onCorners
      split_ifs <;> first | assumption | exact le_rfl
    · funext i
      rw [← h i]
      unfold value onCorners
      rw [if_pos rfl, if_neg n1.symm, if_pos rfl, if_neg n3, if_neg n2.symm, if_pos rfl]
  have hx : ∀ i, x i = c t.1 * nodeAt P t.1 i + c t.2.1 * nodeAt P t.2.1 i + c t.2.2 * nodeAt P t.2.2 i := by
    intro i
    rw [← hv]
    rfl
  have hA := hc.nonneg t.1
  have hB := hc.nonneg t.2.1
  have hC := hc.nonneg t.2.2
  generalize c t.1 = A at *
  generalize c t.2.1 = B at *
  generalize c t.2.2 = C at *
  by_cases h0 : B + C ≤ A
  · refine key (t.1, m t.1 t.2.1, m t.2.2 t.1) (mem_sub.2 (Or.inl rfl)) (A - B - C) (B / rho P t.1 t.2.1)
      (C / rho P t.2.2 t.1) (by linarith) (by positivity) (by positivity) (by dsimp only; omega)
      (by dsimp only; omega) (by dsimp only; omega) ?_
    intro i
    dsimp only
    rw [S.p0, S.q0, S.q2, hx]
    field_simp
    ring
  by_cases h1 : C + A ≤ B
  · refine key (m t.1 t.2.1, t.2.1, m t.2.1 t.2.2) (mem_sub.2 (Or.inr (Or.inl rfl))) (A / rho P t.1 t.2.1)
      (B - C - A) (C / rho P t.2.1 t.2.2) (by positivity) (by linarith) (by positivity) (by dsimp only; omega)
      (by dsimp only; omega) (by dsimp only; omega) ?_
    intro i
    dsimp only
    rw [S.p1, S.q0, S.q1, hx]
    field_simp
    ring
  by_cases h2 : A + B ≤ C
  · refine key (m t.2.1 t.2.2, t.2.2, m t.2.2 t.1) (mem_sub.2 (Or.inr (Or.inr (Or.inl rfl))))
      (B / rho P t.2.1 t.2.2) (C - A - B) (A / rho P t.2.2 t.1) (by positivity) (by linarith) (by positivity)
      (by dsimp only; omega) (by dsimp only; omega) (by dsimp only; omega) ?_
    intro i
    dsimp only
    rw [S.p2, S.q1, S.q2, hx]
    field_simp
    ring
  · refine key (m t.1 t.2.1, m t.2.1 t.2.2, m t.2.2 t.1) (mem_sub.2 (Or.inr (Or.inr (Or.inr rfl))))
      ((A + B - C) / 2 / rho P t.1 t.2.1) ((B + C - A) / 2 / rho P t.2.1 t.2.2) ((C + A - B) / 2 / rho P t.2.2 t.1)
      (div_nonneg (by linarith) r0.le) (div_nonneg (by linarith) r1.le) (div_nonneg (by linarith) r2.le)
      hm1 hm2 hm3 ?_
    intro i
    dsimp only
    rw [S.q0, S.q1, S.q2, hx]
    field_simp
    ring

theorem step_good (G : Good P els) (R : Refined P els P' els' m) : Good P' els' :=
  ⟨step_inRange G R, step_unit G R, step_closed G R, step_pos G R, step_used G R, step_unique G R, step_exist G R⟩

/-! ## Counting -/

theorem step_elements (R : Refined P els P' els' m) : els'.length = 4 * els.length := by
  rw [R.els', List.length_flatMap]
  have : (els.map fun t => (sub m t).length) = els.map fun _ => 4 := by
    apply List.map_congr_left
    intro t _
    rfl
  rw [this, List.map_const', List.sum_replicate, smul_eq_mul, mul_comm]

theorem length_allSides : (allSides els).length = 3 * els.length := by
  unfold allSides
  rw [List.length_flatMap, List.map_map]
  have : (els.map ((fun l => (sides l).length) ∘ cornersOf)) = els.map fun _ => 3 := by
    apply List.map_congr_left
    intro t _
    rfl
  rw [show (List.map ((fun l => (sides l).length) ∘ cornersOf) els).sum = _ from congrArg List.sum this,
    List.map_const', List.sum_replicate, smul_eq_mul, mul_comm]

theorem step_nodes (G : Good P els) (R : Refined P els P' els' m) :
    2 * P'.length = 2 * P.length + 3 * els.length := by
  have hN : (allSides els).Nodup := G.closed.once
  have hB : ∀ e ∈ allSides els, e.swap ∈ allSides els := G.closed.back
  have hperm : (allSides els).Perm ((allSides els).map Prod.swap) := by
    rw [List.perm_ext_iff_of_nodup hN (hN.map Prod.swap_injective)]
    intro e
    rw [List.mem_map]
    constructor
    · intro h
      exact ⟨e.swap, hB e h, Prod.swap_swap e⟩
    · rintro ⟨f, hf, rfl⟩
      exact hB f hf
  have hcount : ((allSides els).filter fun e => e.1 < e.2).length = ((allSides els).filter fun e => e.2 < e.1).length := by
    have := (hperm.filter fun e => decide (e.1 < e.2)).length_eq
    rw [this, List.filter_map, List.length_map]
    rfl
  have hsplit : (allSides els).length =
      ((allSides els).filter fun e => e.1 < e.2).length + ((allSides els).filter fun e => e.2 < e.1).length := by
    rw [List.length_eq_length_filter_add (l := allSides els) (fun e => decide (e.1 < e.2))]
    congr 2
    apply List.filter_congr
    intro e he
    have := G.ne_side he
    by_cases h : e.1 < e.2
    · have : ¬ e.2 < e.1 := by omega
      simp [h, this]
    · have : e.2 < e.1 := by omega
      simp [h, this]
  have hnew : (((allSides els).filter fun e => e.1 < e.2).map fun e => m e.1 e.2).Perm
      (List.range' P.length (P'.length - P.length)) := by
    rw [List.perm_ext_iff_of_nodup _ (List.nodup_range' 1)]
    · intro k
      rw [List.mem_map, List.mem_range'_1]
      constructor
      · rintro ⟨e, he, rfl⟩
        have := R.range e (List.mem_filter.1 he).1
        omega
      · rintro ⟨h1, h2⟩
        obtain ⟨e, he, rfl⟩ := R.surj k h1 (by omega)
        have := G.ne_side he
        by_cases h : e.1 < e.2
        · exact ⟨e, List.mem_filter.2 ⟨he, by simpa using h⟩, rfl⟩
        · refine ⟨e.swap, List.mem_filter.2 ⟨hB e he, ?_⟩, R.comm _ _⟩
          simp only [Prod.fst_swap, Prod.snd_swap, decide_eq_true_eq]
          omega
    · rw [List.nodup_map_iff_inj_on (hN.filter _)]
      intro e he f hf h
      obtain ⟨he, he'⟩ := List.mem_filter.1 he
      obtain ⟨hf, hf'⟩ := List.mem_filter.1 hf
      simp only [decide_eq_true_eq] at he' hf'
      rcases R.inj e he f hf h with h | h
      · exact h
      · rw [h] at he'
        simp only [Prod.fst_swap, Prod.snd_swap] at he'
        omega
  have hl := hnew.length_eq
  rw [List.length_map, List.length_range'] at hl
  have := R.le
  have := length_allSides (els := els)
  omega

end Verif.Shapes.Sphere
