import Verif.Lemmas.QuadratureCert
/-
C75: the quadrature rules on triangles and quadrangles.
-/
namespace Verif.SingleQuad

/-! ### The rules are the rows of the tables -/

theorem mapM_rows3 (g w : List Int) (n pos : Nat) (h1 : (pos + n) * 3 ≤ g.length) (h2 : pos + n ≤ w.length) :
    (List.range n).mapM (fun i => match (match g[(pos + i) * 3 + 1]?, g[(pos + i) * 3 + 2]? with
        | some b, some c => some (lit16 b + lit16 c, lit16 c)
        | _, _ => none), (w[pos + i]?).map fun w => 0.5 * lit16 w with
      | some p, some w => some (QPoint.mk (p.1 - p.2) p.2 w)
      | _, _ => none) = some ((rows3 n (g.drop (pos * 3)) (w.drop pos)).map rowPoint) := by
  induction n generalizing pos with
  | zero => simp [rows3]
  | succ n ih =>
    have e0 : pos * 3 < g.length := by omega
    have e1 : pos * 3 + 1 < g.length := by omega
    have e2 : pos * 3 + 1 + 1 < g.length := by omega
    have e3 : pos < w.length := by omega
    rw [List.drop_eq_getElem_cons e0, List.drop_eq_getElem_cons e1, List.drop_eq_getElem_cons e2, List.drop_eq_getElem_cons e3, rows3,
      show pos * 3 + 1 + 1 + 1 = (pos + 1) * 3 by ring]
    have hi := ih (pos + 1) (by omega) (by omega)
    rw [List.range_succ_eq_map, List.mapM_cons, List.mapM_map]
    have hf : (fun i => match (match g[(pos + 1 + i) * 3 + 1]?, g[(pos + 1 + i) * 3 + 2]? with
        | some b, some c => some (lit16 b + lit16 c, lit16 c)
        | _, _ => none), (w[pos + 1 + i]?).map fun w => 0.5 * lit16 w with
      | some p, some w => some (QPoint.mk (p.1 - p.2) p.2 w)
      | _, _ => none) = (fun i => match (match g[(pos + i) * 3 + 1]?, g[(pos + i) * 3 + 2]? with
        | some b, some c => some (lit16 b + lit16 c, lit16 c)
        | _, _ => none), (w[pos + i]?).map fun w => 0.5 * lit16 w with
      | some p, some w => some (QPoint.mk (p.1 - p.2) p.2 w)
      | _, _ => none) ∘ Nat.succ := by
      funext i
      simp only [Function.comp, Nat.succ_eq_add_one, show pos + 1 + i = pos + (i + 1) by ring]
    rw [hf] at hi
    rw [hi]
    simp only [add_zero, List.getElem?_eq_getElem e1, List.getElem?_eq_getElem e2, List.getElem?_eq_getElem e3, Option.map_some,
      List.map_cons, rowPoint]
    simp

theorem mapM_rows2 (g w : List Int) (n pos : Nat) (h1 : (pos + n) * 2 ≤ g.length) (h2 : pos + n ≤ w.length) :
    (List.range n).mapM (fun i => match (match g[(pos + i) * 2]?, g[(pos + i) * 2 + 1]? with
        | some a, some b => some (lit15 a, lit15 b)
        | _, _ => none), (w[pos + i]?).map fun w => lit15 w with
      | some p, some w => some (QPoint.mk (id p).1 (id p).2 w)
      | _, _ => none) = some ((rows2 n (g.drop (pos * 2)) (w.drop pos)).map rowPoint15) := by
  induction n generalizing pos with
  | zero => simp [rows2]
  | succ n ih =>
    have e0 : pos * 2 < g.length := by omega
    have e1 : pos * 2 + 1 < g.length := by omega
    have e3 : pos < w.length := by omega
    rw [List.drop_eq_getElem_cons e0, List.drop_eq_getElem_cons e1, List.drop_eq_getElem_cons e3, rows2,
      show pos * 2 + 1 + 1 = (pos + 1) * 2 by ring]
    have hi := ih (pos + 1) (by omega) (by omega)
    rw [List.range_succ_eq_map, List.mapM_cons, List.mapM_map]
    have hf : (fun i => match (match g[(pos + 1 + i) * 2]?, g[(pos + 1 + i) * 2 + 1]? with
        | some a, some b => some (lit15 a, lit15 b)
        | _, _ => none), (w[pos + 1 + i]?).map fun w => lit15 w with
      | some p, some w => some (QPoint.mk (id p).1 (id p).2 w)
      | _, _ => none) = (fun i => match (match g[(pos + i) * 2]?, g[(pos + i) * 2 + 1]? with
        | some a, some b => some (lit15 a, lit15 b)
        | _, _ => none), (w[pos + i]?).map fun w => lit15 w with
      | some p, some w => some (QPoint.mk (id p).1 (id p).2 w)
      | _, _ => none) ∘ Nat.succ := by
      funext i
      simp only [Function.comp, Nat.succ_eq_add_one, show pos + 1 + i = pos + (i + 1) by ring]
    rw [hf] at hi
    rw [hi]
    simp only [add_zero, List.getElem?_eq_getElem e0, List.getElem?_eq_getElem e1, List.getElem?_eq_getElem e3, Option.map_some,
      List.map_cons, rowPoint15]
    simp

/-- The rows a triangle rule consists of. -/
def triaRows (r : Rule) : List (Int × Int × Int) := rows3 r.numOfPoints (gpTria.drop (r.position * 3)) (gwTria.drop r.position)

theorem fill_triangle (order : Int) (h : order ≤ 20) : ∃ r, triaRule (max order 1).toNat = .ok r ∧
    fillSingle 3 order = .ok ((triaRows r).map rowPoint) ∧ checkA (max order 1).toNat (triaRows r) (max order 1).toNat = true := by
  have hc := triaCheck_all (max order 1).toNat (by omega) (by omega)
  unfold triaCheck at hc
  split at hc
  · rename_i r hr
    simp only [Bool.and_eq_true] at hc
    obtain ⟨⟨h1, h2⟩, h3⟩ := hc
    have h1 := Nat.le_of_ble_eq_true h1
    have h2 := Nat.le_of_ble_eq_true h2
    refine ⟨r, hr, ?_, h3⟩
    unfold fillSingle
    rw [if_pos rfl]
    dsimp only
    rw [hr]
    have := mapM_rows3 gpTria gwTria r.numOfPoints r.position (by rw [gpTria_length]; exact h1) (by rw [gwTria_length]; exact h2)
    simp only [collect, triaPoint, triaWeight]
    erw [this]
    rfl
  · cases hc

theorem half_spec (x : Int) : (0 ≤ x → Int.tdiv x 2 = x / 2) ∧ (x < 0 → Int.tdiv x 2 ≤ 0) := by
  constructor
  · intro h; exact Int.tdiv_eq_ediv_of_nonneg h
  · intro h
    have h1 : Int.tdiv (-x) 2 = -x / 2 := Int.tdiv_eq_ediv_of_nonneg (by omega)
    rw [Int.neg_tdiv] at h1
    omega

theorem fill_quadrangle (order : Int) (h : order ≤ 39) : ∃ l : List (Int × Int × Int), fillSingle 4 order = .ok (l.map rowPoint15) ∧
    let n := (max (Int.tdiv (order + 1 + 1) 2) 1).toNat
    n ≤ 20 ∧ (nodes1 n).length = n ∧ check1 (nodes1 n) (2 * n) = true ∧ unitNodes (nodes1 n) = true ∧
      consume (nodes1 n) (nodes1 n) l = true := by
  have hh := half_spec (order + 1 + 1)
  have hn1 : 1 ≤ (max (Int.tdiv (order + 1 + 1) 2) 1).toNat := by omega
  have hn2 : (max (Int.tdiv (order + 1 + 1) 2) 1).toNat ≤ 20 := by omega
  have hc := tensorCheck_all _ hn1 hn2
  unfold tensorCheck at hc
  split at hc
  · rename_i r hr
    simp only [Bool.and_eq_true] at hc
    obtain ⟨⟨⟨⟨⟨⟨h0, h1⟩, h2⟩, h3⟩, h4⟩, h5⟩, h6⟩ := hc
    have h1 := Nat.le_of_ble_eq_true h1
    have h2 := Nat.le_of_ble_eq_true h2
    have h3 := Nat.eq_of_beq_eq_true h3
    refine ⟨rows2 r.numOfPoints (gpTensor.drop (r.position * 2)) (gwTensor.drop r.position), ?_, hn2, h3, h4, h5, h6⟩
    unfold fillSingle
    rw [if_neg (by decide), if_pos rfl]
    dsimp only
    rw [hr]
    have := mapM_rows2 gpTensor gwTensor r.numOfPoints r.position (by rw [gpTensor_length]; exact h1) (by rw [gwTensor_length]; exact h2)
    simp only [collect, tensorPoint, tensorWeight]
    erw [this]
  · cases hc

/-! ### Exactness -/

theorem support_degree {p : MvPolynomial (Fin 2) ℝ} {s : Fin 2 →₀ ℕ} (hs : s ∈ p.support) : s 0 + s 1 ≤ p.totalDegree := by
  have := MvPolynomial.le_totalDegree hs
  rwa [Finsupp.sum_fintype _ _ (fun _ => rfl), Fin.sum_univ_two] at this

/-- **C75 (triangles)** For every order up to 20, the rule integrates every polynomial of degree at most the order over the reference
triangle, up to 5e-15 times the sum of the absolute values of its coefficients. -/
theorem C75_triangle (order : Int) (h : order ≤ 20) : ∃ rule, fillSingle 3 order = .ok rule ∧
    ∀ p : MvPolynomial (Fin 2) ℝ, (p.totalDegree : ℤ) ≤ max order 1 →
      |quadSum rule (value p) - triangleIntegral (value p)| ≤ 5 / 10 ^ 15 * coeffNorm p := by
  obtain ⟨r, -, hf, hc⟩ := fill_triangle order h
  refine ⟨_, hf, ?_⟩
  intro p hp
  rw [quadSum_moments, triangle_moments]
  refine moments_error p _ _ _ fun s hs => ?_
  rw [moment_real]
  have hd := support_degree hs
  exact momentOk_real (checkA_spec hc (s 0) (s 1) (by omega) (by omega))

/-- **C75 (quadrangles)** For every order up to 39, the rule integrates every polynomial of degree at most the order in each variable
over the unit square, up to 5e-13 times the sum of the absolute values of its coefficients. -/
theorem C75_quadrangle (order : Int) (h : order ≤ 39) : ∃ rule, fillSingle 4 order = .ok rule ∧
    ∀ p : MvPolynomial (Fin 2) ℝ, (∀ i, (p.degreeOf i : ℤ) ≤ max order 1) →
      |quadSum rule (value p) - squareIntegral (value p)| ≤ 5 / 10 ^ 13 * coeffNorm p := by
  obtain ⟨l, hf, h1, h2, h3, h4, h5⟩ := fill_quadrangle order h
  refine ⟨_, hf, ?_⟩
  intro p hp
  rw [quadSum_moments, square_moments]
  refine moments_error p _ _ _ fun s hs => ?_
  have d0 := MvPolynomial.monomial_le_degreeOf 0 hs
  have d1 := MvPolynomial.monomial_le_degreeOf 1 hs
  have g0 := hp 0
  have g1 := hp 1
  have hh := half_spec (order + 1 + 1)
  exact tensor_error h1 h2 h3 h4 h5 (s 0) (s 1) (by omega) (by omega)

/-- **C75 (orders beyond the tables)** The check of the order comes after the tables have been read with it: a higher order is an
out-of-bounds read instead of the exception. -/
theorem C75_counterexample_order (order : Int) :
    (20 < order → fillSingle 3 order = .undefined) ∧ (39 < order → fillSingle 4 order = .undefined) := by
  constructor
  · intro h
    have hn : gTriaPointsPerOrder[(max order 1).toNat - 1]? = none := by
      rw [List.getElem?_eq_none_iff]
      have : gTriaPointsPerOrder.length = 20 := by decide
      omega
    unfold fillSingle
    rw [if_pos rfl]
    dsimp only
    unfold triaRule
    rw [hn]
  · intro h
    have hn : gTensorAddress[(max (Int.tdiv (order + 1 + 1) 2) 1).toNat - 1]? = none := by
      rw [List.getElem?_eq_none_iff]
      have : gTensorAddress.length = 20 := by decide
      have hh := half_spec (order + 1 + 1)
      omega
    unfold fillSingle
    rw [if_neg (by decide), if_pos rfl]
    dsimp only
    unfold tensorRule
    rw [hn]

/-- **C75 (other elements)** -/
theorem C75_other (corners order : Int) (h3 : corners ≠ 3) (h4 : corners ≠ 4) :
    fillSingle corners order = .throws "elementCornerCount must be either 3 or 4" := by
  unfold fillSingle
  rw [if_neg h3, if_neg h4]

/-! ### Points inside the element, positive weights -/

def rowInside (p : Int × Int × Int) : Bool := (0 ≤ p.1 : Bool) && (0 ≤ p.2.1 : Bool) && (p.1 + p.2.1 ≤ 10 ^ 16 : Bool)

theorem rowInside_iff (p : Int × Int × Int) : rowInside p = true ↔ InTriangle (rowPoint p) := by
  unfold rowInside InTriangle rowPoint lit16
  simp only [Bool.and_eq_true, decide_eq_true_eq, and_assoc]
  have hu : (0 : ℝ) < 10 ^ 16 := by positivity
  rw [← add_div, div_le_one hu, le_div_iff₀ hu, le_div_iff₀ hu, zero_mul]
  constructor
  · rintro ⟨h1, h2, h3⟩
    exact ⟨by exact_mod_cast h1, by exact_mod_cast h2, by exact_mod_cast h3⟩
  · rintro ⟨h1, h2, h3⟩
    exact ⟨by exact_mod_cast h1, by exact_mod_cast h2, by exact_mod_cast h3⟩

def rowsOf (order : Nat) : List (Int × Int × Int) :=
  match triaRule order with
  | .ok r => triaRows r
  | _ => []

theorem fill_rows (order : Int) (h : order ≤ 20) : fillSingle 3 order = .ok ((rowsOf (max order 1).toNat).map rowPoint) := by
  obtain ⟨r, hr, hf, -⟩ := fill_triangle order h
  unfold rowsOf
  rw [hr]
  exact hf

theorem inside_table : ∀ o ∈ List.range 21, o = 0 ∨ ((rowsOf o).all rowInside = decide (o ∉ [11, 15, 16, 18, 20])) := by decide +kernel

theorem positive_table : ∀ o ∈ List.range 21, o = 0 ∨
    ((rowsOf o).all (fun p => decide (0 < p.2.2)) = decide (o ∉ [3, 7, 18, 20])) := by decide +kernel

/-- **C75 (points)** The points are in the triangle except for the orders 11, 15, 16, 18 and 20, where some are not. -/
theorem C75_points (order : Int) (h : order ≤ 20) (rule : List QPoint) (hr : fillSingle 3 order = .ok rule) :
    (∀ q ∈ rule, InTriangle q) ↔ order ∉ [11, 15, 16, 18, 20] := by
  rw [fill_rows order h] at hr
  cases hr
  have ht := inside_table (max order 1).toNat (List.mem_range.mpr (by omega))
  have h0 : (max order 1).toNat ≠ 0 := by omega
  have ht := ht.resolve_left h0
  rw [Bool.eq_iff_iff, List.all_eq_true, decide_eq_true_eq] at ht
  have e1 : (∀ q ∈ (rowsOf (max order 1).toNat).map rowPoint, InTriangle q) ↔ ∀ x ∈ rowsOf (max order 1).toNat, rowInside x = true := by
    simp only [List.mem_map, forall_exists_index, and_imp, forall_apply_eq_imp_iff₂, rowInside_iff]
  rw [e1, ht]
  simp only [List.mem_cons, List.not_mem_nil, or_false]
  omega

/-- **C75 (weights)** The weights are positive except for the orders 3, 7, 18 and 20. -/
theorem C75_weights (order : Int) (h : order ≤ 20) (rule : List QPoint) (hr : fillSingle 3 order = .ok rule) :
    (∀ q ∈ rule, 0 < q.w) ↔ order ∉ [3, 7, 18, 20] := by
  rw [fill_rows order h] at hr
  cases hr
  have ht := positive_table (max order 1).toNat (List.mem_range.mpr (by omega))
  have h0 : (max order 1).toNat ≠ 0 := by omega
  have ht := ht.resolve_left h0
  rw [Bool.eq_iff_iff, List.all_eq_true, decide_eq_true_eq] at ht
  have e1 : (∀ q ∈ (rowsOf (max order 1).toNat).map rowPoint, 0 < q.w) ↔
      ∀ x ∈ rowsOf (max order 1).toNat, decide (0 < x.2.2) = true := by
    simp only [List.mem_map, forall_exists_index, and_imp, forall_apply_eq_imp_iff₂, decide_eq_true_eq]
    refine forall₂_congr fun p _ => ?_
    simp only [rowPoint, lit16]
    constructor
    · intro h1
      by_contra hc
      have : (p.2.2 : ℝ) ≤ 0 := by exact_mod_cast not_lt.mp hc
      have : (p.2.2 : ℝ) / 10 ^ 16 ≤ 0 := div_nonpos_of_nonpos_of_nonneg this (by positivity)
      linarith
    · intro h1
      have : (0 : ℝ) < p.2.2 := by exact_mod_cast h1
      positivity
  rw [e1, ht]
  simp only [List.mem_cons, List.not_mem_nil, or_false]
  omega

/-- Non-vacuity: the default order of a P1 mass matrix, the polynomial `x y` and its integral. -/
example : ∃ rule, fillSingle 3 2 = .ok rule ∧ |quadSum rule (value (MvPolynomial.X 0 * MvPolynomial.X 1)) - 1 / 24| ≤
    5 / 10 ^ 15 * coeffNorm (MvPolynomial.X 0 * MvPolynomial.X 1) := by
  obtain ⟨rule, hr, hp⟩ := C75_triangle 2 (by norm_num)
  refine ⟨rule, hr, ?_⟩
  have hd : ((MvPolynomial.X 0 * MvPolynomial.X 1 : MvPolynomial (Fin 2) ℝ).totalDegree : ℤ) ≤ max 2 1 := by
    have := MvPolynomial.totalDegree_mul (MvPolynomial.X 0 : MvPolynomial (Fin 2) ℝ) (MvPolynomial.X 1)
    rw [MvPolynomial.totalDegree_X, MvPolynomial.totalDegree_X] at this
    norm_num
    omega
  have h := hp _ hd
  have hi : triangleIntegral (value (MvPolynomial.X 0 * MvPolynomial.X 1)) = 1 / 24 := by
    have hv : value (MvPolynomial.X 0 * MvPolynomial.X 1) = fun x y => x * y := by
      funext x y; simp [value]
    have hy : ∀ x : ℝ, ∫ y in (0 : ℝ)..(1 - x), x * y = 1 / 2 * (x ^ 1 * (1 - x) ^ 2) := by
      intro x; rw [intervalIntegral.integral_const_mul, integral_id]; ring
    rw [hv]
    unfold triangleIntegral
    simp only [hy]
    rw [intervalIntegral.integral_const_mul, beta_integral]
    norm_num [Nat.factorial]
  rwa [hi] at h

end Verif.SingleQuad
