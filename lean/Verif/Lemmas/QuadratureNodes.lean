import Verif.Props.Quadrature
/-
Where the points of the tabulated rules lie.
-/
namespace Verif.SingleQuad

/-- All points of a triangle rule lie inside the triangle. -/
def insideCheck (order : Nat) : Bool :=
  match triaRule order with
  | .ok r => (triaRows r).all fun p => decide (0 < p.1) && decide (0 < p.2.1) && decide (p.1 + p.2.1 < 10 ^ 16)
  | _ => false

/-- Some point of a triangle rule lies outside the triangle. -/
def outsideCheck (order : Nat) : Bool :=
  match triaRule order with
  | .ok r => (triaRows r).any fun p => decide (p.1 < 0) || decide (p.2.1 < 0) || decide (10 ^ 16 < p.1 + p.2.1)
  | _ => false

/-- The rows of a tensor rule. -/
def tensorRows (r : Rule) : List (Int × Int × Int) := rows2 r.numOfPoints (gpTensor.drop (r.position * 2)) (gwTensor.drop r.position)

/-- All points of a tensor rule lie inside the square and all weights are positive. -/
def squareCheck (n : Nat) : Bool :=
  match tensorRule n with
  | .ok r => (tensorRows r).all fun p => decide (0 < p.1) && decide (p.1 < 10 ^ 15) && decide (0 < p.2.1) && decide (p.2.1 < 10 ^ 15) &&
      decide (0 < p.2.2)
  | _ => false

theorem insideCheck_small : (List.range 10).all (fun n => insideCheck (n + 1)) = true := by decide +kernel
theorem insideCheck_large : [12, 13, 14, 17, 19].all insideCheck = true := by decide +kernel
theorem outsideCheck_all : [11, 15, 16, 18, 20].all outsideCheck = true := by decide +kernel
theorem squareCheck_small : (List.range 12).all (fun n => squareCheck (n + 1)) = true := by decide +kernel
theorem squareCheck_large : (List.range 8).all (fun n => squareCheck (n + 13)) = true := by decide +kernel

theorem fill_quadrangle_rows (order : Int) (h : order ≤ 39) : ∃ r, tensorRule (max (Int.tdiv (order + 1 + 1) 2) 1).toNat = .ok r ∧
    fillSingle 4 order = .ok ((tensorRows r).map rowPoint15) := by
  have hh := half_spec (order + 1 + 1)
  have hn1 : 1 ≤ (max (Int.tdiv (order + 1 + 1) 2) 1).toNat := by omega
  have hn2 : (max (Int.tdiv (order + 1 + 1) 2) 1).toNat ≤ 20 := by omega
  have hc := tensorCheck_all _ hn1 hn2
  unfold tensorCheck at hc
  split at hc
  · rename_i r hr
    simp only [Bool.and_eq_true] at hc
    obtain ⟨⟨⟨⟨⟨⟨h0, h1⟩, h2⟩, h3⟩, h4⟩, h5⟩, h6⟩ := hc
    have h1 := Nat.le_of_ble_eq_true h1
    have h2 := Nat.le_of_ble_eq_true h2
    refine ⟨r, hr, ?_⟩
    unfold fillSingle
    rw [if_neg (by decide), if_pos rfl]
    dsimp only
    rw [hr]
    have := mapM_rows2 gpTensor gwTensor r.numOfPoints r.position (by rw [gpTensor_length]; exact h1) (by rw [gwTensor_length]; exact h2)
    simp only [collect, tensorPoint, tensorWeight]
    erw [this]
    rfl
  · cases hc

/-- A tensor rule has a point. -/
def nonemptySquareCheck (n : Nat) : Bool :=
  match tensorRule n with
  | .ok r => !(tensorRows r).isEmpty
  | _ => false

theorem nonemptySquareCheck_all : (List.range 20).all (fun n => nonemptySquareCheck (n + 1)) = true := by decide +kernel

theorem square_nonempty (order : Int) (h : order ≤ 39) : ∃ rule, fillSingle 4 order = .ok rule ∧ rule ≠ [] := by
  obtain ⟨r, hr, hf⟩ := fill_quadrangle_rows order h
  refine ⟨_, hf, ?_⟩
  have hh := half_spec (order + 1 + 1)
  have hc : nonemptySquareCheck (max (Int.tdiv (order + 1 + 1) 2) 1).toNat = true := by
    have hn1 : 1 ≤ (max (Int.tdiv (order + 1 + 1) 2) 1).toNat := by omega
    have hn2 : (max (Int.tdiv (order + 1 + 1) 2) 1).toNat ≤ 20 := by omega
    generalize (max (Int.tdiv (order + 1 + 1) 2) 1).toNat = n at hn1 hn2
    have := List.all_eq_true.mp nonemptySquareCheck_all (n - 1) (List.mem_range.mpr (by omega))
    rwa [show n - 1 + 1 = n by omega] at this
  unfold nonemptySquareCheck at hc
  rw [hr] at hc
  intro h0
  rw [List.map_eq_nil_iff] at h0
  dsimp only at hc
  rw [h0] at hc
  simp at hc

theorem square_inside (order : Int) (h : order ≤ 39) : ∃ rule, fillSingle 4 order = .ok rule ∧
    ∀ q ∈ rule, (0 < q.x ∧ q.x < 1) ∧ (0 < q.y ∧ q.y < 1) ∧ 0 < q.w := by
  obtain ⟨r, hr, hf⟩ := fill_quadrangle_rows order h
  refine ⟨_, hf, ?_⟩
  have hh := half_spec (order + 1 + 1)
  have hn1 : 1 ≤ (max (Int.tdiv (order + 1 + 1) 2) 1).toNat := by omega
  have hn2 : (max (Int.tdiv (order + 1 + 1) 2) 1).toNat ≤ 20 := by omega
  have hc : squareCheck (max (Int.tdiv (order + 1 + 1) 2) 1).toNat = true := by
    generalize (max (Int.tdiv (order + 1 + 1) 2) 1).toNat = n at hn1 hn2
    by_cases hn : n ≤ 12
    · have := List.all_eq_true.mp squareCheck_small (n - 1) (List.mem_range.mpr (by omega))
      rwa [show n - 1 + 1 = n by omega] at this
    · have := List.all_eq_true.mp squareCheck_large (n - 13) (List.mem_range.mpr (by omega))
      rwa [show n - 13 + 13 = n by omega] at this
  unfold squareCheck at hc
  rw [hr] at hc
  intro q hq
  obtain ⟨p, hp, rfl⟩ := List.mem_map.mp hq
  have := List.all_eq_true.mp hc p hp
  simp only [Bool.and_eq_true, decide_eq_true_eq] at this
  obtain ⟨⟨⟨⟨h1, h2⟩, h3⟩, h4⟩, h5⟩ := this
  have pos : ∀ z : Int, 0 < z → 0 < lit15 z := fun z hz => by unfold lit15; have : (0 : ℝ) < z := by exact_mod_cast hz
                                                              positivity
  have lt : ∀ z : Int, z < 10 ^ 15 → lit15 z < 1 := fun z hz => by
    unfold lit15
    rw [div_lt_one (by positivity)]
    exact_mod_cast hz
  exact ⟨⟨pos _ h1, lt _ h2⟩, ⟨pos _ h3, lt _ h4⟩, pos _ h5⟩

/-- The orders of the triangle rules with points outside the triangle. -/
def outsideOrders : List Int := [11, 15, 16, 18, 20]

theorem triangle_inside (order : Int) (h : order ≤ 20) (ho : order ∉ outsideOrders) : ∃ rule, fillSingle 3 order = .ok rule ∧
    ∀ q ∈ rule, 0 < q.x ∧ 0 < q.y ∧ q.x + q.y < 1 := by
  obtain ⟨r, hr, hf, -⟩ := fill_triangle order h
  refine ⟨_, hf, ?_⟩
  have hc : insideCheck (max order 1).toNat = true := by
    have h1 : 1 ≤ (max order 1).toNat := by omega
    by_cases hn : (max order 1).toNat ≤ 10
    · have := List.all_eq_true.mp insideCheck_small ((max order 1).toNat - 1) (List.mem_range.mpr (by omega))
      rwa [show (max order 1).toNat - 1 + 1 = (max order 1).toNat by omega] at this
    · refine List.all_eq_true.mp insideCheck_large _ ?_
      simp only [outsideOrders, List.mem_cons, List.not_mem_nil, or_false, not_or] at ho ⊢
      omega
  unfold insideCheck at hc
  rw [hr] at hc
  intro q hq
  obtain ⟨p, hp, rfl⟩ := List.mem_map.mp hq
  have := List.all_eq_true.mp hc p hp
  simp only [Bool.and_eq_true, decide_eq_true_eq] at this
  obtain ⟨⟨h1, h2⟩, h3⟩ := this
  have pos : ∀ z : Int, 0 < z → 0 < lit16 z := fun z hz => by unfold lit16; have : (0 : ℝ) < z := by exact_mod_cast hz
                                                              positivity
  refine ⟨pos _ h1, pos _ h2, ?_⟩
  show lit16 p.1 + lit16 p.2.1 < 1
  unfold lit16
  rw [← add_div, div_lt_one (by positivity)]
  exact_mod_cast h3

theorem triangle_outside (order : Int) (ho : order ∈ outsideOrders) : ∃ rule, fillSingle 3 order = .ok rule ∧
    ∃ q ∈ rule, q.x < 0 ∨ q.y < 0 ∨ 1 < q.x + q.y := by
  have h : order ≤ 20 := by
    simp only [outsideOrders, List.mem_cons, List.not_mem_nil, or_false] at ho; omega
  obtain ⟨r, hr, hf, -⟩ := fill_triangle order h
  refine ⟨_, hf, ?_⟩
  have hc : outsideCheck (max order 1).toNat = true := by
    refine List.all_eq_true.mp outsideCheck_all _ ?_
    simp only [outsideOrders, List.mem_cons, List.not_mem_nil, or_false] at ho ⊢
    omega
  unfold outsideCheck at hc
  rw [hr] at hc
  obtain ⟨p, hp, h⟩ := List.any_eq_true.mp hc
  refine ⟨_, List.mem_map_of_mem hp, ?_⟩
  simp only [Bool.or_eq_true, decide_eq_true_eq] at h
  have neg : ∀ z : Int, z < 0 → lit16 z < 0 := fun z hz => by
    unfold lit16
    have : (z : ℝ) < 0 := by exact_mod_cast hz
    exact div_neg_of_neg_of_pos this (by positivity)
  rcases h with (h | h) | h
  · exact Or.inl (neg _ h)
  · exact Or.inr (Or.inl (neg _ h))
  · refine Or.inr (Or.inr ?_)
    show 1 < lit16 p.1 + lit16 p.2.1
    unfold lit16
    rw [← add_div, one_lt_div (by positivity)]
    exact_mod_cast h

/-- A triangle rule has a point. -/
def nonemptyCheck (order : Nat) : Bool :=
  match triaRule order with
  | .ok r => !(triaRows r).isEmpty
  | _ => false

theorem nonemptyCheck_all : (List.range 20).all (fun n => nonemptyCheck (n + 1)) = true := by decide +kernel

theorem triangle_nonempty (order : Int) (h : order ≤ 20) : ∃ rule, fillSingle 3 order = .ok rule ∧ rule ≠ [] := by
  obtain ⟨r, hr, hf, -⟩ := fill_triangle order h
  refine ⟨_, hf, ?_⟩
  have hc : nonemptyCheck (max order 1).toNat = true := by
    have := List.all_eq_true.mp nonemptyCheck_all ((max order 1).toNat - 1) (List.mem_range.mpr (by omega))
    rwa [show (max order 1).toNat - 1 + 1 = (max order 1).toNat by omega] at this
  unfold nonemptyCheck at hc
  rw [hr] at hc
  intro h0
  rw [List.map_eq_nil_iff] at h0
  dsimp only at hc
  rw [h0] at hc
  simp at hc

end Verif.SingleQuad
