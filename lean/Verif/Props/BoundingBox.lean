import Verif.Lemmas.BoundingBox
/-
Properties C10 and C54: bounding boxes.
-/
namespace Verif.HMat
open Box

section C10

/-- **C10** `distance` is symmetric. -/
theorem C10_distance_symmetric (a b : Box ℝ) (ha : a.Valid) (hb : b.Valid) :
    a.distance b = b.distance a := by
  unfold Box.distance distSq
  have h : ∀ i : Fin 3, intervalDistance (a.lo i) (a.hi i) (b.lo i) (b.hi i) =
      intervalDistance (b.lo i) (b.hi i) (a.lo i) (a.hi i) := fun i =>
    intervalDistance_comm _ _ _ _ (ha i) (hb i)
  simp only [h]

/-- **C10** `distance` is a lower bound for the Euclidean distance of any two points of the two
boxes, and it is attained: it is exactly the distance of the two sets. -/
theorem C10_distance_is_set_distance (a b : Box ℝ) (ha : a.Valid) (hb : b.Valid) :
    (∀ p q, a.Has p → b.Has q → a.distance b ≤ Real.sqrt (sqDist p q)) ∧
    (∃ p q, a.Has p ∧ b.Has q ∧ a.distance b = Real.sqrt (sqDist p q)) := by
  constructor
  · intro p q hp hq
    apply Real.sqrt_le_sqrt
    unfold distSq sqDist
    have h : ∀ i : Fin 3, intervalDistance (a.lo i) (a.hi i) (b.lo i) (b.hi i) *
        intervalDistance (a.lo i) (a.hi i) (b.lo i) (b.hi i) ≤ (p i - q i) ^ 2 := by
      intro i
      have h1 := intervalDistance_le _ _ _ _ _ _ (hp i).1 (hp i).2 (hq i).1 (hq i).2
      have h0 := intervalDistance_nonneg (a.lo i) (a.hi i) (b.lo i) (b.hi i)
      calc _ ≤ |p i - q i| * |p i - q i| := mul_le_mul h1 h1 h0 (abs_nonneg _)
        _ = (p i - q i) ^ 2 := by rw [abs_mul_abs_self]; ring
    have := h 0; have := h 1; have := h 2
    simp only
    linarith
  · have h : ∀ i : Fin 3, ∃ x y, a.lo i ≤ x ∧ x ≤ a.hi i ∧ b.lo i ≤ y ∧ y ≤ b.hi i ∧
        (x - y) ^ 2 = intervalDistance (a.lo i) (a.hi i) (b.lo i) (b.hi i) *
          intervalDistance (a.lo i) (a.hi i) (b.lo i) (b.hi i) := fun i =>
      intervalDistance_attained _ _ _ _ (ha i) (hb i)
    choose p q h1 h2 h3 h4 h5 using h
    refine ⟨p, q, fun i => ⟨h1 i, h2 i⟩, fun i => ⟨h3 i, h4 i⟩, ?_⟩
    unfold Box.distance distSq sqDist
    simp only [h5]
    congr 1; ring

/-- **C10** `distance` is zero exactly when the two (closed) boxes share a point. -/
theorem C10_distance_zero_iff_common_point (a b : Box ℝ) (ha : a.Valid) (hb : b.Valid) :
    a.distance b = 0 ↔ ∃ p, a.Has p ∧ b.Has p := by
  constructor
  · intro h
    obtain ⟨p, q, hp, hq, e⟩ := (C10_distance_is_set_distance a b ha hb).2
    rw [h] at e
    have hnn : 0 ≤ sqDist p q := by unfold sqDist; positivity
    have : sqDist p q = 0 := (Real.sqrt_eq_zero hnn).mp e.symm
    have hpq : p = q := by
      unfold sqDist at this
      have s0 := sq_nonneg (p 0 - q 0)
      have s1 := sq_nonneg (p 1 - q 1)
      have s2 := sq_nonneg (p 2 - q 2)
      have e0 : (p 0 - q 0) ^ 2 = 0 := by linarith
      have e1 : (p 1 - q 1) ^ 2 = 0 := by linarith
      have e2 : (p 2 - q 2) ^ 2 = 0 := by linarith
      have e0 := pow_eq_zero_iff (two_ne_zero) |>.mp e0
      have e1 := pow_eq_zero_iff (two_ne_zero) |>.mp e1
      have e2 := pow_eq_zero_iff (two_ne_zero) |>.mp e2
      funext d
      fin_cases d
      · simpa [sub_eq_zero] using e0
      · simpa [sub_eq_zero] using e1
      · simpa [sub_eq_zero] using e2
    exact ⟨p, hp, hpq ▸ hq⟩
  · rintro ⟨p, hp, hq⟩
    have := (C10_distance_is_set_distance a b ha hb).1 p p hp hq
    have h0 : sqDist p p = 0 := by simp [sqDist]
    rw [h0, Real.sqrt_zero] at this
    exact le_antisymm this (Real.sqrt_nonneg _)

/-- **C10** `distance` is positive when the boxes are disjoint. -/
theorem C10_distance_pos_of_disjoint (a b : Box ℝ) (ha : a.Valid) (hb : b.Valid)
    (h : ∀ p, a.Has p → ¬ b.Has p) : 0 < a.distance b := by
  apply lt_of_le_of_ne (Real.sqrt_nonneg _)
  intro h0
  obtain ⟨p, h1, h2⟩ := (C10_distance_zero_iff_common_point a b ha hb).mp h0.symm
  exact h p h1 h2

/-- Example: two disjoint unit cubes. -/
example : (Box.mk6 (K := ℝ) 0 1 0 1 0 1).Valid ∧ (Box.mk6 (K := ℝ) 3 4 0 1 0 1).Valid ∧
    (Box.mk6 (K := ℝ) 0 1 0 1 0 1).distance (Box.mk6 3 4 0 1 0 1) = 2 := by
  refine ⟨fun d => by fin_cases d <;> simp [Box.mk6], fun d => by fin_cases d <;> norm_num [Box.mk6], ?_⟩
  have : (Box.mk6 (K := ℝ) 0 1 0 1 0 1).distSq (Box.mk6 3 4 0 1 0 1) = 2 ^ 2 := by
    simp [Box.distSq, Box.intervalDistance, Box.mk6]; norm_num
  rw [Box.distance, this, Real.sqrt_sq (by norm_num)]

end C10

section C54
variable {K : Type} [LinearOrder K]

/-- **C54**, partial: merging a non-empty list of boxes into the default box gives their hull provided
every upper bound is at least `std::numeric_limits<double>::min()` (a tiny positive number) and every
lower bound at most `std::numeric_limits<double>::max()`.  Missing: boxes whose upper bounds are zero
or negative, for which the property fails. -/
theorem C54_merge_from_default_partial (big tiny : K) (bs : List (Box K)) (hne : bs ≠ [])
    (hb : ∀ b ∈ bs, ∀ d, b.lo d ≤ big ∧ tiny ≤ b.hi d) :
    (bs.foldl merge (Box.default big tiny)).IsHull (fun i => i < bs.length)
      (fun i => bs[i]?.getD (Box.default big tiny)) := by
  have gen : ∀ (l : List (Box K)) (a : Box K) (d : Fin 3),
      ((l.foldl merge a).lo d ≤ a.lo d ∧ a.hi d ≤ (l.foldl merge a).hi d) ∧
      (∀ b ∈ l, (l.foldl merge a).lo d ≤ b.lo d ∧ b.hi d ≤ (l.foldl merge a).hi d) ∧
      ((l.foldl merge a).lo d = a.lo d ∨ ∃ b ∈ l, (l.foldl merge a).lo d = b.lo d) ∧
      ((l.foldl merge a).hi d = a.hi d ∨ ∃ b ∈ l, (l.foldl merge a).hi d = b.hi d) := by
    intro l
    induction l with
    | nil => intro a d; simp
    | cons x l ih =>
      intro a d
      obtain ⟨⟨h1, h2⟩, h3, h4, h5⟩ := ih (a.merge x) d
      simp only [List.foldl_cons]
      have m1 : (a.merge x).lo d = min (a.lo d) (x.lo d) := rfl
      have m2 : (a.merge x).hi d = max (a.hi d) (x.hi d) := rfl
      rw [m1] at h1 h4
      rw [m2] at h2 h5
      refine ⟨⟨le_trans h1 (min_le_left _ _), le_trans (le_max_left _ _) h2⟩, ?_, ?_, ?_⟩
      · intro b hb
        rcases List.mem_cons.mp hb with rfl | hb
        · exact ⟨le_trans h1 (min_le_right _ _), le_trans (le_max_right _ _) h2⟩
        · exact h3 b hb
      · rcases h4 with h4 | ⟨b, hb, h4⟩
        · rcases min_choice (a.lo d) (x.lo d) with h | h
          · left; rw [h4, h]
          · right; exact ⟨x, by simp, by rw [h4, h]⟩
        · right; exact ⟨b, by simp [hb], h4⟩
      · rcases h5 with h5 | ⟨b, hb, h5⟩
        · rcases max_choice (a.hi d) (x.hi d) with h | h
          · left; rw [h5, h]
          · right; exact ⟨x, by simp, by rw [h5, h]⟩
        · right; exact ⟨b, by simp [hb], h5⟩
  have dlo : ∀ d, (Box.default big tiny).lo d = big := by
    intro d; fin_cases d <;> rfl
  have dhi : ∀ d, (Box.default big tiny).hi d = tiny := by
    intro d; fin_cases d <;> rfl
  obtain ⟨x, hx⟩ := List.exists_mem_of_ne_nil bs hne
  have idx : ∀ b ∈ bs, ∃ i, i < bs.length ∧ bs[i]?.getD (Box.default big tiny) = b := by
    intro b hb
    obtain ⟨i, hi, e⟩ := List.getElem_of_mem hb
    exact ⟨i, hi, by rw [List.getElem?_eq_getElem hi, e]; rfl⟩
  constructor
  · intro i hi d
    have := (gen bs (Box.default big tiny) d).2.1 bs[i] (List.getElem_mem hi)
    simpa [List.getElem?_eq_getElem hi] using this
  · intro d
    obtain ⟨⟨h1, h2⟩, h3, h4, h5⟩ := gen bs (Box.default big tiny) d
    rw [dlo] at h1 h4; rw [dhi] at h2 h5
    constructor
    · rcases h4 with h4 | ⟨b, hb', h4⟩
      · obtain ⟨i, hi, e⟩ := idx x hx
        refine ⟨i, hi, ?_⟩
        beta_reduce; rw [e]
        exact le_antisymm (h3 x hx).1 (by rw [h4]; exact (hb x hx d).1)
      · obtain ⟨i, hi, e⟩ := idx b hb'
        exact ⟨i, hi, by beta_reduce; rw [e, h4]⟩
    · rcases h5 with h5 | ⟨b, hb', h5⟩
      · obtain ⟨i, hi, e⟩ := idx x hx
        refine ⟨i, hi, ?_⟩
        beta_reduce; rw [e]
        exact le_antisymm (by rw [h5]; exact (hb x hx d).2) (h3 x hx).2
      · obtain ⟨i, hi, e⟩ := idx b hb'
        exact ⟨i, hi, by beta_reduce; rw [e, h5]⟩

/-- Example for C54: two cubes in the positive octant. -/
example : ∀ b ∈ [Box.mk6 (K := ℚ) 1 2 1 2 1 2, Box.mk6 3 4 1 2 0 2], ∀ d,
    b.lo d ≤ 1000 ∧ (1 / 1000 : ℚ) ≤ b.hi d := by
  intro b hb d
  simp only [List.mem_cons, List.not_mem_nil, or_false] at hb
  rcases hb with rfl | rfl <;> fin_cases d <;> norm_num [Box.mk6]

/-- **C54 is false of the code** for boxes with negative coordinates: the default constructor uses
`numeric_limits::min()`, which is positive.  Whatever the values `tiny > 0` and `big`, merging the
box [-2,-1]³ into the default box gives upper bounds `tiny` instead of -1. -/
theorem C54_negative_coordinates_counterexample (big tiny : ℚ) (ht : 0 < tiny) :
    let b : Box ℚ := Box.mk6 (-2) (-1) (-2) (-1) (-2) (-1)
    b.Valid ∧ (((Box.default big tiny).merge b).hi 0 = tiny) ∧
    ¬ ((Box.default big tiny).merge b).IsHull (fun i => i = 0) (fun _ => b) := by
  intro b
  have e : ((Box.default big tiny).merge b).hi 0 = tiny := by
    show max tiny (-1) = tiny
    exact max_eq_left (by linarith)
  refine ⟨fun d => by fin_cases d <;> norm_num [b, Box.mk6], e, ?_⟩
  intro h
  obtain ⟨_, i, _, hi⟩ := h.2 0
  rw [e] at hi
  have : b.hi 0 = -1 := rfl
  rw [this] at hi
  linarith

end C54

end Verif.HMat
