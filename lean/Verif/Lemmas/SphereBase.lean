import Verif.Lemmas.SphereCover

/-!
# The octahedron; all levels
-/

noncomputable section

namespace Verif.Shapes.Sphere

theorem oct0 : nodeAt octahedron.1 0 = ![1, 0, 0] := rfl
theorem oct1 : nodeAt octahedron.1 1 = ![-1, 0, 0] := rfl
theorem oct2 : nodeAt octahedron.1 2 = ![0, 1, 0] := rfl
theorem oct3 : nodeAt octahedron.1 3 = ![0, -1, 0] := rfl
theorem oct4 : nodeAt octahedron.1 4 = ![0, 0, 1] := rfl
theorem oct5 : nodeAt octahedron.1 5 = ![0, 0, -1] := rfl

theorem mem_oct {t : Tri} : t ∈ octahedron.2 ↔ t = (2, 4, 0) ∨ t = (1, 4, 2) ∨ t = (3, 4, 1) ∨ t = (0, 4, 3) ∨
    t = (5, 2, 0) ∨ t = (5, 1, 2) ∨ t = (5, 3, 1) ∨ t = (5, 0, 3) := by
  unfold octahedron
  simp only [List.mem_cons, List.not_mem_nil, or_false]

/-- the coefficients are determined by the point -/
theorem oct_decode {t : Tri} (ht : t ∈ octahedron.2) {c : ℕ → ℝ} (hc : Cone t c) :
    c 0 = max 0 (value octahedron.1 t c 0) ∧ c 1 = max 0 (-value octahedron.1 t c 0) ∧
    c 2 = max 0 (value octahedron.1 t c 1) ∧ c 3 = max 0 (-value octahedron.1 t c 1) ∧
    c 4 = max 0 (value octahedron.1 t c 2) ∧ c 5 = max 0 (-value octahedron.1 t c 2) ∧
    ∀ k, 6 ≤ k → c k = 0 := by
  have hn := hc.nonneg
  have z0 := hc.zero 0
  have z1 := hc.zero 1
  have z2 := hc.zero 2
  have z3 := hc.zero 3
  have z4 := hc.zero 4
  have z5 := hc.zero 5
  have zk : ∀ k, 6 ≤ k → c k = 0 := by
    intro k hk
    apply hc.zero
    rcases mem_oct.1 ht with rfl | rfl | rfl | rfl | rfl | rfl | rfl | rfl <;>
      simp only [cornersOf, List.mem_cons, List.not_mem_nil, or_false] <;> omega
  have n0 := hn 0; have n1 := hn 1; have n2 := hn 2; have n3 := hn 3; have n4 := hn 4; have n5 := hn 5
  rcases mem_oct.1 ht with rfl | rfl | rfl | rfl | rfl | rfl | rfl | rfl <;>
    simp only [cornersOf, List.mem_cons, List.not_mem_nil, or_false] at z0 z1 z2 z3 z4 z5 <;>
    norm_num at z0 z1 z2 z3 z4 z5 <;>
    unfold value <;>
    simp [oct0, oct1, oct2, oct3, oct4, oct5, n0, n1, n2, n3, n4, n5, *] <;>
    exact zk

theorem good_octahedron : Good octahedron.1 octahedron.2 := by
  refine ⟨?_, ?_, ?_, ?_, ?_, ?_, ?_⟩
  · intro t ht k hk
    show k < 6
    rcases mem_oct.1 ht with rfl | rfl | rfl | rfl | rfl | rfl | rfl | rfl <;>
      simp only [cornersOf, List.mem_cons, List.not_mem_nil, or_false] at hk <;> omega
  · intro k hk
    have hk : k < 6 := hk
    unfold sq
    interval_cases k <;> simp [oct0, oct1, oct2, oct3, oct4, oct5]
  · constructor
    · show (List.flatMap sides (List.map cornersOf [(2, 4, 0), (1, 4, 2), (3, 4, 1), (0, 4, 3), (5, 2, 0), (5, 1, 2), (5, 3, 1), (5, 0, 3)])).Nodup
      decide
    · show ∀ e ∈ List.flatMap sides (List.map cornersOf [(2, 4, 0), (1, 4, 2), (3, 4, 1), (0, 4, 3), (5, 2, 0), (5, 1, 2), (5, 3, 1), (5, 0, 3)]), e.swap ∈ List.flatMap sides (List.map cornersOf [(2, 4, 0), (1, 4, 2), (3, 4, 1), (0, 4, 3), (5, 2, 0), (5, 1, 2), (5, 3, 1), (5, 0, 3)])
      decide
  · intro t ht
    unfold det3
    rcases mem_oct.1 ht with rfl | rfl | rfl | rfl | rfl | rfl | rfl | rfl <;>
      simp [oct0, oct1, oct2, oct3, oct4, oct5]
  · intro k hk
    have hk : k < 6 := hk
    have a1 : ((2, 4, 0) : Tri) ∈ octahedron.2 := mem_oct.2 (by simp)
    have a2 : ((5, 3, 1) : Tri) ∈ octahedron.2 := mem_oct.2 (by simp)
    interval_cases k
    · exact ⟨_, a1, by simp [cornersOf]⟩
    · exact ⟨_, a2, by simp [cornersOf]⟩
    · exact ⟨_, a1, by simp [cornersOf]⟩
    · exact ⟨_, a2, by simp [cornersOf]⟩
    · exact ⟨_, a1, by simp [cornersOf]⟩
    · exact ⟨_, a2, by simp [cornersOf]⟩
  · intro t ht t' ht' c c' hc hc' hv
    obtain ⟨h0, h1, h2, h3, h4, h5, h6⟩ := oct_decode ht hc
    obtain ⟨h0', h1', h2', h3', h4', h5', h6'⟩ := oct_decode ht' hc'
    funext k
    by_cases hk : k < 6
    · interval_cases k
      · rw [h0, h0', hv]
      · rw [h1, h1', hv]
      · rw [h2, h2', hv]
      · rw [h3, h3', hv]
      · rw [h4, h4', hv]
      · rw [h5, h5', hv]
    · rw [h6 k (by omega), h6' k (by omega)]
  · intro x
    have key : ∀ t ∈ octahedron.2, ∀ a b e : ℝ, 0 ≤ a → 0 ≤ b → 0 ≤ e → t.1 ≠ t.2.1 → t.2.1 ≠ t.2.2 → t.2.2 ≠ t.1 →
        (∀ i, a * nodeAt octahedron.1 t.1 i + b * nodeAt octahedron.1 t.2.1 i + e * nodeAt octahedron.1 t.2.2 i = x i) →
        ∃ t ∈ octahedron.2, ∃ c, Cone t c ∧ value octahedron.1 t c = x := by
      intro t ht a b e ha hb he n1 n2 n3 h
      refine ⟨t, ht, onCorners t a b e, ⟨?_, onCorners_zero⟩, ?_⟩
      · intro k
        unfold onCorners
        split_ifs <;> first | assumption | exact le_rfl
      · funext i
        rw [← h i]
        unfold value onCorners
        rw [if_pos rfl, if_neg n1.symm, if_pos rfl, if_neg n3, if_neg n2.symm, if_pos rfl]
    rcases le_total 0 (x 0) with h0 | h0 <;> rcases le_total 0 (x 1) with h1 | h1 <;>
      rcases le_total 0 (x 2) with h2 | h2
    · refine key (2, 4, 0) (mem_oct.2 (by simp)) (x 1) (x 2) (x 0) h1 h2 h0 (by decide) (by decide) (by decide) ?_
      intro i; fin_cases i <;> simp [oct0, oct1, oct2, oct3, oct4, oct5]
    · refine key (5, 2, 0) (mem_oct.2 (by simp)) (-x 2) (x 1) (x 0) (by linarith) h1 h0 (by decide) (by decide) (by decide) ?_
      intro i; fin_cases i <;> simp [oct0, oct1, oct2, oct3, oct4, oct5]
    · refine key (0, 4, 3) (mem_oct.2 (by simp)) (x 0) (x 2) (-x 1) h0 h2 (by linarith) (by decide) (by decide) (by decide) ?_
      intro i; fin_cases i <;> simp [oct0, oct1, oct2, oct3, oct4, oct5]
    · refine key (5, 0, 3) (mem_oct.2 (by simp)) (-x 2) (x 0) (-x 1) (by linarith) h0 (by linarith) (by decide) (by decide) (by decide) ?_
      intro i; fin_cases i <;> simp [oct0, oct1, oct2, oct3, oct4, oct5]
    · refine key (1, 4, 2) (mem_oct.2 (by simp)) (-x 0) (x 2) (x 1) (by linarith) h2 h1 (by decide) (by decide) (by decide) ?_
      intro i; fin_cases i <;> simp [oct0, oct1, oct2, oct3, oct4, oct5]
    · refine key (5, 1, 2) (mem_oct.2 (by simp)) (-x 2) (-x 0) (x 1) (by linarith) (by linarith) h1 (by decide) (by decide) (by decide) ?_
      intro i; fin_cases i <;> simp [oct0, oct1, oct2, oct3, oct4, oct5]
    · refine key (3, 4, 1) (mem_oct.2 (by simp)) (-x 1) (x 2) (-x 0) (by linarith) h2 (by linarith) (by decide) (by decide) (by decide) ?_
      intro i; fin_cases i <;> simp [oct0, oct1, oct2, oct3, oct4, oct5]
    · refine key (5, 3, 1) (mem_oct.2 (by simp)) (-x 2) (-x 1) (-x 0) (by linarith) (by linarith) (by linarith) (by decide) (by decide) (by decide) ?_
      intro i; fin_cases i <;> simp [oct0, oct1, oct2, oct3, oct4, oct5]

theorem good_times (n : ℕ) (mesh : List V3 × List Tri) (G : Good mesh.1 mesh.2) (k : ℕ)
    (hE : mesh.2.length = 8 * 4 ^ k) (hN : mesh.1.length = 4 * 4 ^ k + 2) :
    Good (refineTimes n mesh).1 (refineTimes n mesh).2 ∧ (refineTimes n mesh).2.length = 8 * 4 ^ (k + n) ∧
      (refineTimes n mesh).1.length = 4 * 4 ^ (k + n) + 2 := by
  induction n generalizing mesh k with
  | zero => exact ⟨G, hE, hN⟩
  | succ n ih =>
    obtain ⟨m, R⟩ := refineTriangles_spec mesh.1 mesh.2 G.inRange
    have h1 := step_elements R
    have h2 := step_nodes G R
    have := ih (refineTriangles mesh) (step_good G R) (k + 1)
      (by rw [show (refineTriangles mesh).2.length = 4 * mesh.2.length from h1, hE, pow_succ]; ring)
      (by
        have h2 : 2 * (refineTriangles mesh).1.length = 2 * mesh.1.length + 3 * mesh.2.length := h2
        rw [hE, hN] at h2
        rw [pow_succ]
        omega)
    rw [show k + (n + 1) = k + 1 + n by omega]
    exact this

/-! ## Radius and centre -/

theorem Good.sum_pos {P : List V3} {els : List Tri} (G : Good P els) {t : Tri} (ht : t ∈ els) {c : ℕ → ℝ}
    (hc : Cone t c) : ∑ k ∈ Finset.range P.length, c k = c t.1 + c t.2.1 + c t.2.2 :=
  sum_cone hc.zero (G.inRange t ht) (G.ne ht).1 (G.ne ht).2.1 (G.ne ht).2.2

theorem good_triangulation {P : List V3} {els : List Tri} (G : Good P els) (r : ℝ) (hr : 0 < r) (o : V3) :
    SphereTriangulation o r (P.map fun p k => r * p k + o k) els := by
  have hat : ∀ k < P.length, nodeAt (P.map fun p k => r * p k + o k) k = fun i => r * nodeAt P k i + o i :=
    fun k hk => nodeAt_map _ hk
  have hval : ∀ t ∈ els, ∀ c p, BaryOn (P.map fun p k => r * p k + o k) t c p →
      Cone t c ∧ c t.1 + c t.2.1 + c t.2.2 = 1 ∧ ∀ i, p i = r * value P t c i + o i := by
    intro t ht c p h
    refine ⟨⟨h.nonneg, h.corners⟩, h.total, fun i => ?_⟩
    rw [h.point, hat _ (G.inRange t ht t.1 (by simp [cornersOf])), hat _ (G.inRange t ht t.2.1 (by simp [cornersOf])),
      hat _ (G.inRange t ht t.2.2 (by simp [cornersOf]))]
    unfold value
    linear_combination (o i) * h.total
  refine ⟨?_, ?_, ?_, ?_, G.closed, ?_, ?_, ?_⟩
  · intro t ht k hk
    rw [List.length_map]
    exact G.inRange t ht k hk
  · intro k hk
    rw [List.length_map] at hk
    exact G.used k hk
  · have hP : P.Nodup := by
      rw [List.nodup_iff_injective_get]
      intro i j hij
      have hi := i.2
      have hj := j.2
      obtain ⟨t, ht, hit⟩ := G.used i hi
      obtain ⟨t', ht', hjt⟩ := G.used j hj
      have hcone : ∀ (t : Tri) (k : ℕ), k ∈ cornersOf t → Cone t (fun l => if l = k then (1 : ℝ) else 0) := by
        intro t k hk
        constructor
        · intro l
          split_ifs
          · exact zero_le_one
          · exact le_rfl
        · intro l hl
          rw [if_neg]
          rintro rfl
          exact hl hk
      have hv : ∀ t ∈ els, ∀ k ∈ cornersOf t, value P t (fun l => if l = k then (1 : ℝ) else 0) = nodeAt P k := by
        intro t ht k hk
        obtain ⟨n1, n2, n3⟩ := G.ne ht
        simp only [cornersOf, List.mem_cons, List.not_mem_nil, or_false] at hk
        funext x
        unfold value
        rcases hk with rfl | rfl | rfl
        · simp [n1.symm, n3]
        · simp [n1, n2.symm]
        · simp [n2, n3.symm]
      have hnode : nodeAt P i = nodeAt P j := by
        unfold nodeAt
        rw [List.getD_eq_getElem _ _ hi, List.getD_eq_getElem _ _ hj]
        exact hij
      have := G.unique t ht t' ht' _ _ (hcone t i hit) (hcone t' j hjt) (by rw [hv t ht i hit, hv t' ht' j hjt, hnode])
      have := congrFun this i
      rw [if_pos rfl] at this
      split_ifs at this with h
      · exact Fin.ext h
      · exact absurd this one_ne_zero
    refine hP.map ?_
    intro p q h
    funext i
    have := congrFun h i
    dsimp only at this
    have := mul_left_cancel₀ hr.ne' (add_right_cancel this)
    exact this
  · intro p hp
    obtain ⟨q, hq, rfl⟩ := List.mem_map.1 hp
    obtain ⟨k, hk, hkq⟩ := List.mem_iff_getElem.1 hq
    have := G.unit k hk
    have hn : nodeAt P k = q := by
      unfold nodeAt
      rw [List.getD_eq_getElem _ _ hk, hkq]
    rw [hn] at this
    unfold sq at this
    unfold dist3
    linear_combination r ^ 2 * this
  · intro t ht
    have hp := G.pos t ht
    unfold Behind
    rw [hat _ (G.inRange t ht t.1 (by simp [cornersOf])), hat _ (G.inRange t ht t.2.1 (by simp [cornersOf])),
      hat _ (G.inRange t ht t.2.2 (by simp [cornersOf]))]
    have : det3 ((fun i => r * nodeAt P t.2.1 i + o i) - fun i => r * nodeAt P t.1 i + o i)
        ((fun i => r * nodeAt P t.2.2 i + o i) - fun i => r * nodeAt P t.1 i + o i)
        (o - fun i => r * nodeAt P t.1 i + o i) =
        -(r ^ 3 * det3 (nodeAt P t.1) (nodeAt P t.2.1) (nodeAt P t.2.2)) := by
      unfold det3
      simp only [Pi.sub_apply]
      ring
    rw [this]
    have : 0 < r ^ 3 * det3 (nodeAt P t.1) (nodeAt P t.2.1) (nodeAt P t.2.2) := by positivity
    linarith
  · intro t ht t' ht' p c c' h h'
    obtain ⟨a1, -, a3⟩ := hval t ht c p h
    obtain ⟨b1, -, b3⟩ := hval t' ht' c' p h'
    apply G.unique t ht t' ht' c c' a1 b1
    funext i
    have := (a3 i).symm.trans (b3 i)
    exact mul_left_cancel₀ hr.ne' (add_right_cancel this)
  · intro x hx
    obtain ⟨t, ht, c, hc, hv⟩ := G.exist x
    have n1 := hc.nonneg t.1
    have n2 := hc.nonneg t.2.1
    have n3 := hc.nonneg t.2.2
    have hS : 0 < c t.1 + c t.2.1 + c t.2.2 := by
      by_contra h
      apply hx
      rw [← hv]
      funext i
      unfold value
      rw [show c t.1 = 0 by linarith, show c t.2.1 = 0 by linarith, show c t.2.2 = 0 by linarith]
      simp
    refine ⟨fun i => o i + r / (c t.1 + c t.2.1 + c t.2.2) * x i, ⟨⟨_, by positivity, fun i => rfl⟩, t, ht,
      fun k => c k / (c t.1 + c t.2.1 + c t.2.2), ⟨?_, ?_, ?_, ?_⟩⟩, ?_⟩
    · intro k
      exact div_nonneg (hc.nonneg k) hS.le
    · intro k hk
      rw [hc.zero k hk, zero_div]
    · field_simp
    · intro i
      rw [hat _ (G.inRange t ht t.1 (by simp [cornersOf])), hat _ (G.inRange t ht t.2.1 (by simp [cornersOf])),
        hat _ (G.inRange t ht t.2.2 (by simp [cornersOf])), ← hv]
      unfold value
      have hS' := hS.ne'
      field_simp
      ring
    · rintro q ⟨⟨s, hs, hq⟩, t', ht', c', hb⟩
      obtain ⟨b1, b2, b3⟩ := hval t' ht' c' q hb
      -- `c'` is `c` scaled by `s / r`
      have hcc : (fun k => s / r * c k) = c' := by
        apply G.unique t ht t' ht' _ _ ⟨fun k => mul_nonneg (by positivity) (hc.nonneg k),
          fun k hk => by rw [hc.zero k hk, mul_zero]⟩ b1
        funext i
        have h1 := (hq i).symm.trans (b3 i)
        rw [← hv] at h1
        unfold value at h1 ⊢
        field_simp
        linear_combination h1
      have hsum : s / r * (c t.1 + c t.2.1 + c t.2.2) = 1 := by
        rw [← G.sum_pos ht hc, Finset.mul_sum, ← b2, ← G.sum_pos ht' b1, ← hcc]
      funext i
      rw [hq i]
      have hr' := hr.ne'
      have hS' := hS.ne'
      have : s = r / (c t.1 + c t.2.1 + c t.2.2) := by
        field_simp at hsum ⊢
        linear_combination hsum
      rw [this]

end Verif.Shapes.Sphere
