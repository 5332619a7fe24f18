import Verif.Lemmas.FractalTriangle
import Verif.Lemmas.ShapeStatements

/-!
# Statements of the Sierpinski pyramid and triangle
-/

noncomputable section

namespace Verif.Shapes

open Finset

/-- no affine dependence -/
def Independent {m d : ℕ} (v : Fin m → Fin d → ℝ) : Prop :=
  ∀ x y : Fin m → ℝ, ∑ k, x k = ∑ k, y k → (∀ r, ∑ k, x k * v k r = ∑ k, y k * v k r) → x = y

theorem pt_injective {m d n : ℕ} {v : Fin m → Fin d → ℝ} (hv : Independent v) {points : List (Fin d → ℝ)}
    {cells : List (List ℕ)} {B : List (Bary m)} (L : Level v n points cells B) {β γ : Bary m}
    (hβ : β ∈ B) (hγ : γ ∈ B) (h : pt v n β = pt v n γ) : β = γ := by
  have hs : ∀ β ∈ B, ∑ k, β k = 2 ^ n := by
    intro β hβ
    obtain ⟨c, hc, k, rfl⟩ := L.isVertex β hβ
    exact sum_vertex hc k
  have h1 : ∑ k, (β k : ℝ) = ∑ k, (γ k : ℝ) := by
    have := (hs β hβ).trans (hs γ hγ).symm
    exact_mod_cast this
  have := hv (fun k => β k) (fun k => γ k) h1 (fun r => by
    have hr := congrFun h r
    unfold pt at hr
    have : (2 : ℝ) ^ n ≠ 0 := by positivity
    field_simp at hr
    exact hr)
  funext k
  have hk := congrFun this k
  exact_mod_cast hk

/-- the state before the first round -/
theorem level_zero {m d : ℕ} (v : Fin m → Fin d → ℝ) {points : List (Fin d → ℝ)}
    (hp : points = (List.finRange m).map v) :
    Level v 0 points [List.range m] ((List.finRange m).map unit) := by
  have hnd : ((List.finRange m).map (unit (m := m))).Nodup :=
    (List.nodup_finRange m).map fun _ _ h => unit_injective h
  refine ⟨?_, hnd, ?_, ?_, ?_, ?_⟩
  · rw [hp, List.map_map]
    refine List.map_congr_left fun k _ => ?_
    funext r
    unfold pt
    rw [Function.comp_apply, pow_zero, div_one, Finset.sum_eq_single k]
    · rw [unit_apply, if_pos rfl]
      simp
    · intro l _ hl
      rw [unit_apply, if_neg hl]
      simp
    · intro h
      exact absurd (Finset.mem_univ k) h
  · intro β hβ
    obtain ⟨k, -, rfl⟩ := List.mem_map.1 hβ
    exact ⟨0, List.mem_singleton.2 rfl, k, (zero_add _).symm⟩
  · intro c hc k
    rw [show corners m 0 = [0] from rfl, List.mem_singleton] at hc
    subst hc
    rw [zero_add]
    exact List.mem_map.2 ⟨k, List.mem_finRange k, rfl⟩
  · show _ = [cell _ 0]
    congr 1
    unfold cell
    refine List.ext_getElem (by simp) fun i h1 h2 => ?_
    rw [List.getElem_range, List.getElem_map, zero_add]
    have hi : i < m := by simpa using h1
    have := hnd.idxOf_getElem i (by simpa using hi)
    rw [List.getElem_map] at this
    exact this.symm
  · rw [List.length_map, List.length_finRange]
    rfl

/-! ### positions of the points -/

theorem sharesPoints {m d n : ℕ} {v : Fin m → Fin d → ℝ} (hv : Independent v)
    {points : List (Fin d → ℝ)} {cells : List (List ℕ)} {B : List (Bary m)}
    (L : Level v n points cells B) {Q : Type*} {f : (Fin d → ℝ) → Q} (hf : Function.Injective f)
    {rest : List (Stmt Q)} (hrest : ∀ k p, Stmt.point k p ∉ rest) :
    SharesPoints (pointStmts f points ++ rest) := by
  have key : ∀ k p, Stmt.point k p ∈ pointStmts f points ++ rest →
      ∃ β, B[k - 1]? = some β ∧ 1 ≤ k ∧ p = f (pt v n β) := by
    intro k p h
    rcases List.mem_append.1 h with h | h
    · obtain ⟨i, q, hi, rfl, rfl⟩ := (mem_pointStmts f points k p).1 h
      rw [L.points, List.getElem?_map, Option.map_eq_some_iff] at hi
      obtain ⟨β, hβ, rfl⟩ := hi
      exact ⟨β, by rw [show 1 + i - 1 = i by omega]; exact hβ, by omega, rfl⟩
    · exact absurd h (hrest k p)
  intro k l p hk hl
  obtain ⟨β, hβ, hk1, rfl⟩ := key k p hk
  obtain ⟨γ, hγ, hl1, he⟩ := key l _ hl
  have := pt_injective hv L (List.mem_of_getElem? hβ) (List.mem_of_getElem? hγ) (hf he)
  subst this
  obtain ⟨h1, e1⟩ := List.getElem?_eq_some_iff.1 hβ
  obtain ⟨h2, e2⟩ := List.getElem?_eq_some_iff.1 hγ
  have := (List.Nodup.getElem_inj_iff L.nodup (hi := h1) (hj := h2)).1 (e1.trans e2.symm)
  omega

theorem vertex_at {m d n : ℕ} {v : Fin m → Fin d → ℝ}
    {points : List (Fin d → ℝ)} {cells : List (List ℕ)} {B : List (Bary m)}
    (L : Level v n points cells B) {Q : Type*} (f : (Fin d → ℝ) → Q) (rest : List (Stmt Q))
    {w : List (Fin m)} (hw : w ∈ words m n) (k : Fin m) :
    Stmt.point (1 + B.idxOf (cornerOf w + unit k)) (f (image v w (v k)))
      ∈ pointStmts f points ++ rest := by
  refine List.mem_append_left _ ((mem_pointStmts f points _ _).2 ⟨_, image v w (v k), ?_, rfl, rfl⟩)
  have hc : cornerOf w ∈ corners m n := by
    rw [corners_words]
    exact List.mem_map.2 ⟨w, hw, rfl⟩
  rw [L.points, List.getElem?_map, idxOf_getElem? (L.vertex _ hc k)]
  show some _ = some _
  rw [← pt_word v w k, length_words hw]

theorem number_at {m d n : ℕ} {v : Fin m → Fin d → ℝ}
    {points : List (Fin d → ℝ)} {cells : List (List ℕ)} {B : List (Bary m)}
    (L : Level v n points cells B) {Q : Type*} (f : (Fin d → ℝ) → Q)
    {c : Bary m} (hc : c ∈ corners m n) (k : Fin m) :
    1 + B.idxOf (c + unit k) ∈ pointNumbers (pointStmts f points) := by
  rw [pointNumbers_pointStmts, List.mem_range'_1, L.points, List.length_map]
  have := List.idxOf_lt_length_iff.2 (L.vertex c hc k)
  omega

theorem numbers_ne {m d n : ℕ} {v : Fin m → Fin d → ℝ}
    {points : List (Fin d → ℝ)} {cells : List (List ℕ)} {B : List (Bary m)}
    (L : Level v n points cells B) {c : Bary m} (hc : c ∈ corners m n) {i j : Fin m} (hij : i ≠ j) :
    1 + B.idxOf (c + unit i) ≠ 1 + B.idxOf (c + unit j) := by
  have := idx_ne (L.vertex c hc i) hij
  omega

/-- a directed edge, as point numbers, determines the cell and its ends -/
theorem edge_numbers {m d n : ℕ} {v : Fin m → Fin d → ℝ}
    {points : List (Fin d → ℝ)} {cells : List (List ℕ)} {B : List (Bary m)}
    (L : Level v n points cells B) {c c' : Bary m} (hc : c ∈ corners m n) (hc' : c' ∈ corners m n)
    {i j i' j' : Fin m} (hij : i ≠ j) (hij' : i' ≠ j')
    (h1 : 1 + B.idxOf (c + unit i) = 1 + B.idxOf (c' + unit i'))
    (h2 : 1 + B.idxOf (c + unit j) = 1 + B.idxOf (c' + unit j')) : c = c' ∧ i = i' ∧ j = j' := by
  have h1' : B.idxOf (c + unit i) = B.idxOf (c' + unit i') := by omega
  have h2' : B.idxOf (c + unit j) = B.idxOf (c' + unit j') := by omega
  have e1 : c + unit i = c' + unit i' := by
    have := idxOf_getElem? (L.vertex c hc i)
    rw [h1', idxOf_getElem? (L.vertex c' hc' i')] at this
    exact (Option.some.inj this).symm
  have e2 : c + unit j = c' + unit j' := by
    have := idxOf_getElem? (L.vertex c hc j)
    rw [h2', idxOf_getElem? (L.vertex c' hc' j')] at this
    exact (Option.some.inj this).symm
  have hsum : c + c + unit i + unit j = c' + c' + unit i' + unit j' := by
    have : (c + unit i) + (c + unit j) = (c' + unit i') + (c' + unit j') := by rw [e1, e2]
    rw [show c + c + unit i + unit j = (c + unit i) + (c + unit j) by abel, this]
    abel
  have hcc := (edge_unique hij hij' hsum).1
  subst hcc
  exact ⟨rfl, unit_injective (add_left_cancel e1), unit_injective (add_left_cancel e2)⟩

/-! ### the pyramid -/

theorem sqrt_facts : √3 * √3 = 3 ∧ 0 < √3 ∧ √6 * √6 = 6 ∧ 0 < √6 ∧
    1 / (2 * √3) = √3 / 6 ∧ √(2 / 3) = √6 / 3 := by
  have h3 : √3 * √3 = (3 : ℝ) := Real.mul_self_sqrt (by norm_num)
  have p3 : (0 : ℝ) < √3 := Real.sqrt_pos.2 (by norm_num)
  have h6 : √6 * √6 = (6 : ℝ) := Real.mul_self_sqrt (by norm_num)
  have p6 : (0 : ℝ) < √6 := Real.sqrt_pos.2 (by norm_num)
  refine ⟨h3, p3, h6, p6, ?_, ?_⟩
  · rw [div_eq_div_iff (by positivity) (by norm_num)]
    nlinarith
  · rw [show (2 / 3 : ℝ) = (√6 / 3) * (√6 / 3) by
      rw [div_mul_div_comm, h6]
      norm_num]
    exact Real.sqrt_mul_self (by positivity)

theorem pyramidBase_eq : pyramidBase = (List.finRange 4).map pyramidCorners := by
  obtain ⟨-, -, -, -, e1, e2⟩ := sqrt_facts
  show _ = [pyramidCorners 0, pyramidCorners 1, pyramidCorners 2, pyramidCorners 3]
  unfold pyramidBase
  rw [e1, e2]
  rw [show (0.5 : ℝ) = 1 / 2 by norm_num]
  rfl

theorem pyramid_independent : Independent pyramidCorners := by
  obtain ⟨h3, p3, h6, p6, -, -⟩ := sqrt_facts
  intro x y hs h
  have e0 : ∀ z : Fin 4 → ℝ, ∑ k, z k * pyramidCorners k 0
      = z 0 * (1 / 2) + z 1 * 0 + z 2 * 1 + z 3 * (1 / 2) := fun z => Fin.sum_univ_four _
  have e1 : ∀ z : Fin 4 → ℝ, ∑ k, z k * pyramidCorners k 1
      = z 0 * (√3 / 6) + z 1 * 0 + z 2 * 0 + z 3 * (√3 / 2) := fun z => Fin.sum_univ_four _
  have e2 : ∀ z : Fin 4 → ℝ, ∑ k, z k * pyramidCorners k 2
      = z 0 * (√6 / 3) + z 1 * 0 + z 2 * 0 + z 3 * 0 := fun z => Fin.sum_univ_four _
  have h0 := h 0
  have h1 := h 1
  have h2 := h 2
  rw [e0, e0] at h0
  rw [e1, e1] at h1
  rw [e2, e2] at h2
  rw [Fin.sum_univ_four, Fin.sum_univ_four] at hs
  have a0 : x 0 = y 0 := by
    have : x 0 * √6 = y 0 * √6 := by linarith
    exact mul_right_cancel₀ p6.ne' this
  have a3 : x 3 = y 3 := by
    rw [a0] at h1
    have : x 3 * √3 = y 3 * √3 := by linarith
    exact mul_right_cancel₀ p3.ne' this
  have a2 : x 2 = y 2 := by
    rw [a0, a3] at h0
    linarith
  have a1 : x 1 = y 1 := by linarith
  funext k
  fin_cases k
  · exact a0
  · exact a1
  · exact a2
  · exact a3

/-- the statements of one tetrahedron -/
def tetraBlock (n t0 t1 t2 t3 : ℕ) : List (Stmt V3) := [
      .line (1 + 6 * n) (1 + t0) (1 + t1),
      .line (1 + 6 * n + 1) (1 + t0) (1 + t2),
      .line (1 + 6 * n + 2) (1 + t0) (1 + t3),
      .line (1 + 6 * n + 3) (1 + t1) (1 + t2),
      .line (1 + 6 * n + 4) (1 + t2) (1 + t3),
      .line (1 + 6 * n + 5) (1 + t3) (1 + t1),
      .loop (1 + 4 * n) [((1 + 6 * n : ℕ) : ℤ), ((1 + 6 * n + 3 : ℕ) : ℤ), -((1 + 6 * n + 1 : ℕ) : ℤ)],
      .loop (1 + 4 * n + 1)
        [((1 + 6 * n + 1 : ℕ) : ℤ), ((1 + 6 * n + 4 : ℕ) : ℤ), -((1 + 6 * n + 2 : ℕ) : ℤ)],
      .loop (1 + 4 * n + 2)
        [((1 + 6 * n + 2 : ℕ) : ℤ), ((1 + 6 * n + 5 : ℕ) : ℤ), -((1 + 6 * n : ℕ) : ℤ)],
      .loop (1 + 4 * n + 3)
        [-((1 + 6 * n + 4 : ℕ) : ℤ), -((1 + 6 * n + 3 : ℕ) : ℤ), -((1 + 6 * n + 5 : ℕ) : ℤ)],
      .surface (1 + 4 * n + 0) (1 + 4 * n + 0),
      .surface (1 + 4 * n + 1) (1 + 4 * n + 1),
      .surface (1 + 4 * n + 2) (1 + 4 * n + 2),
      .surface (1 + 4 * n + 3) (1 + 4 * n + 3)]

theorem tetraBlock_bounds (n t0 t1 t2 t3 : ℕ) :
    List.Forall₂ (Bounds (tetraBlock n t0 t1 t2 t3)) (surfaceNumbers (tetraBlock n t0 t1 t2 t3))
      (tetraFaces ![1 + t0, 1 + t1, 1 + t2, 1 + t3]) := by
  have e : surfaceNumbers (tetraBlock n t0 t1 t2 t3)
      = [1 + 4 * n + 0, 1 + 4 * n + 1, 1 + 4 * n + 2, 1 + 4 * n + 3] := rfl
  rw [e]
  refine .cons ?_ (.cons ?_ (.cons ?_ (.cons ?_ .nil)))
  · refine ⟨1 + 4 * n + 0, [((1 + 6 * n : ℕ) : ℤ), ((1 + 6 * n + 3 : ℕ) : ℤ), -((1 + 6 * n + 1 : ℕ) : ℤ)],
      by simp [tetraBlock], by simp [tetraBlock], ?_⟩
    refine .cons ?_ (.cons ?_ (.cons ?_ .nil))
    · exact .inl ⟨_, rfl, by simp [tetraBlock]⟩
    · exact .inl ⟨_, rfl, by simp [tetraBlock]⟩
    · exact .inr ⟨_, rfl, by simp [tetraBlock]⟩
  · refine ⟨1 + 4 * n + 1, [((1 + 6 * n + 1 : ℕ) : ℤ), ((1 + 6 * n + 4 : ℕ) : ℤ), -((1 + 6 * n + 2 : ℕ) : ℤ)],
      by simp [tetraBlock], by simp [tetraBlock], ?_⟩
    refine .cons ?_ (.cons ?_ (.cons ?_ .nil))
    · exact .inl ⟨_, rfl, by simp [tetraBlock]⟩
    · exact .inl ⟨_, rfl, by simp [tetraBlock]⟩
    · exact .inr ⟨_, rfl, by simp [tetraBlock]⟩
  · refine ⟨1 + 4 * n + 2, [((1 + 6 * n + 2 : ℕ) : ℤ), ((1 + 6 * n + 5 : ℕ) : ℤ), -((1 + 6 * n : ℕ) : ℤ)],
      by simp [tetraBlock], by simp [tetraBlock], ?_⟩
    refine .cons ?_ (.cons ?_ (.cons ?_ .nil))
    · exact .inl ⟨_, rfl, by simp [tetraBlock]⟩
    · exact .inl ⟨_, rfl, by simp [tetraBlock]⟩
    · exact .inr ⟨_, rfl, by simp [tetraBlock]⟩
  · refine ⟨1 + 4 * n + 3, [-((1 + 6 * n + 4 : ℕ) : ℤ), -((1 + 6 * n + 3 : ℕ) : ℤ), -((1 + 6 * n + 5 : ℕ) : ℤ)],
      by simp [tetraBlock], by simp [tetraBlock], ?_⟩
    refine .cons ?_ (.cons ?_ (.cons ?_ .nil))
    · exact .inr ⟨_, rfl, by simp [tetraBlock]⟩
    · exact .inr ⟨_, rfl, by simp [tetraBlock]⟩
    · exact .inr ⟨_, rfl, by simp [tetraBlock]⟩

theorem tetraBlock_inOrder {n t0 t1 t2 t3 : ℕ} {b : List (Stmt V3)}
    (h0 : 1 + t0 ∈ pointNumbers b) (h1 : 1 + t1 ∈ pointNumbers b) (h2 : 1 + t2 ∈ pointNumbers b)
    (h3 : 1 + t3 ∈ pointNumbers b) (n01 : 1 + t0 ≠ 1 + t1) (n02 : 1 + t0 ≠ 1 + t2)
    (n03 : 1 + t0 ≠ 1 + t3) (n12 : 1 + t1 ≠ 1 + t2) (n23 : 1 + t2 ≠ 1 + t3) (n31 : 1 + t3 ≠ 1 + t1) :
    InOrder b (tetraBlock n t0 t1 t2 t3) := by
  have m : ∀ {k : ℕ} {g : List (Stmt V3)}, k ∈ pointNumbers b → k ∈ pointNumbers (b ++ g) := by
    intro k g h
    rw [pointNumbers_append]
    exact List.mem_append_left _ h
  unfold tetraBlock
  simp only [InOrder, Refers, List.append_assoc]
  refine ⟨⟨h0, h1, n01⟩, ⟨m h0, m h2, n02⟩, ⟨m h0, m h3, n03⟩, ⟨m h1, m h2, n12⟩, ⟨m h2, m h3, n23⟩,
    ⟨m h3, m h1, n31⟩, ?_, ?_, ?_, ?_, ?_, ?_, ?_, ?_, trivial⟩
  · simp [lineNumbers_append, lineNumbers, Int.natAbs_neg, Int.natAbs_natCast]
    omega
  · simp [lineNumbers_append, lineNumbers, Int.natAbs_neg, Int.natAbs_natCast]
    omega
  · simp [lineNumbers_append, lineNumbers, Int.natAbs_neg, Int.natAbs_natCast]
    omega
  · simp [lineNumbers_append, lineNumbers, Int.natAbs_neg, Int.natAbs_natCast]
    omega
  all_goals simp [loopNumbers]

theorem tetraFaces_sides {α : Type*} (p : Fin 4 → α) : (tetraFaces p).flatMap sides
    = ([(0, 1), (1, 2), (2, 0), (0, 2), (2, 3), (3, 0), (0, 3), (3, 1), (1, 0), (3, 2), (2, 1), (1, 3)]
        : List (Fin 4 × Fin 4)).map fun e => (p e.1, p e.2) := rfl

/-! ### the triangle -/

theorem triangleBase_eq : triangleBase = (List.finRange 3).map triangleCorners := by
  show _ = [triangleCorners 0, triangleCorners 1, triangleCorners 2]
  unfold triangleBase
  rw [show (0.5 : ℝ) = 1 / 2 by norm_num]
  rfl

theorem triangle_independent : Independent triangleCorners := by
  obtain ⟨h3, p3, h6, p6, -, -⟩ := sqrt_facts
  intro x y hs h
  have e0 : ∀ z : Fin 3 → ℝ, ∑ k, z k * triangleCorners k 0
      = z 0 * 0 + z 1 * 1 + z 2 * (1 / 2) := fun z => Fin.sum_univ_three _
  have e1 : ∀ z : Fin 3 → ℝ, ∑ k, z k * triangleCorners k 1
      = z 0 * 0 + z 1 * 0 + z 2 * (√3 / 2) := fun z => Fin.sum_univ_three _
  have h0 := h 0
  have h1 := h 1
  rw [e0, e0] at h0
  rw [e1, e1] at h1
  rw [Fin.sum_univ_three, Fin.sum_univ_three] at hs
  have a2 : x 2 = y 2 := by
    have : x 2 * √3 = y 2 * √3 := by linarith
    exact mul_right_cancel₀ p3.ne' this
  have a1 : x 1 = y 1 := by
    rw [a2] at h0
    linarith
  have a0 : x 0 = y 0 := by linarith
  funext k
  fin_cases k
  · exact a0
  · exact a1
  · exact a2

/-- the statements of one triangle -/
def triBlock (n t0 t1 t2 : ℕ) : List (Stmt V3) := [
      .line (1 + 3 * n) (1 + t0) (1 + t1),
      .line (1 + 3 * n + 1) (1 + t1) (1 + t2),
      .line (1 + 3 * n + 2) (1 + t2) (1 + t0),
      .loop (1 + n) [((1 + 3 * n : ℕ) : ℤ), ((1 + 3 * n + 1 : ℕ) : ℤ), ((1 + 3 * n + 2 : ℕ) : ℤ)],
      .surface (1 + n) (1 + n)]

theorem triBlock_bounds (n t0 t1 t2 : ℕ) :
    List.Forall₂ (Bounds (triBlock n t0 t1 t2)) (surfaceNumbers (triBlock n t0 t1 t2))
      [[1 + t0, 1 + t1, 1 + t2]] := by
  have e : surfaceNumbers (triBlock n t0 t1 t2) = [1 + n] := rfl
  rw [e]
  refine .cons ?_ .nil
  refine ⟨1 + n, [((1 + 3 * n : ℕ) : ℤ), ((1 + 3 * n + 1 : ℕ) : ℤ), ((1 + 3 * n + 2 : ℕ) : ℤ)],
      by simp [triBlock], by simp [triBlock], ?_⟩
  refine .cons ?_ (.cons ?_ (.cons ?_ .nil))
  · exact .inl ⟨_, rfl, by simp [triBlock]⟩
  · exact .inl ⟨_, rfl, by simp [triBlock]⟩
  · exact .inl ⟨_, rfl, by simp [triBlock]⟩

theorem triBlock_inOrder {n t0 t1 t2 : ℕ} {b : List (Stmt V3)}
    (h0 : 1 + t0 ∈ pointNumbers b) (h1 : 1 + t1 ∈ pointNumbers b) (h2 : 1 + t2 ∈ pointNumbers b)
    (n01 : 1 + t0 ≠ 1 + t1) (n12 : 1 + t1 ≠ 1 + t2) (n20 : 1 + t2 ≠ 1 + t0) :
    InOrder b (triBlock n t0 t1 t2) := by
  have m : ∀ {k : ℕ} {g : List (Stmt V3)}, k ∈ pointNumbers b → k ∈ pointNumbers (b ++ g) := by
    intro k g h
    rw [pointNumbers_append]
    exact List.mem_append_left _ h
  unfold triBlock
  simp only [InOrder, Refers, List.append_assoc]
  refine ⟨⟨h0, h1, n01⟩, ⟨m h1, m h2, n12⟩, ⟨m h2, m h0, n20⟩, ?_, ?_, trivial⟩
  · simp [lineNumbers_append, lineNumbers, Int.natAbs_neg, Int.natAbs_natCast]
    omega
  · simp [loopNumbers]

theorem lift2_injective : Function.Injective lift2 := by
  intro p q h
  funext k
  fin_cases k
  · exact congrFun h 0
  · exact congrFun h 1

end Verif.Shapes
