import Verif.Model.OctreeGeometry
import Verif.Lemmas.Octree2
import Mathlib.Tactic.Positivity
import Mathlib.Tactic.FieldSimp
/-
Lemmas about the geometry of the octree.
-/
namespace Verif.Fmm

theorem cellCoord_spec (p lb ub : ℝ) (side : Nat) (hs : 0 < side) (hw : lb < ub) (h1 : lb ≤ p)
    (h2 : p ≤ ub) :
    cellCoord p lb ub side < side ∧
    lb + cellCoord p lb ub side * ((ub - lb) / side) ≤ p ∧
    (p < lb + (cellCoord p lb ub side + 1) * ((ub - lb) / side) ∨
      (p = ub ∧ cellCoord p lb ub side = side - 1)) := by
  have hw' : 0 < ub - lb := by linarith
  have hsR : (0 : ℝ) < side := by exact_mod_cast hs
  set t := (p - lb) / (ub - lb) with ht
  have ht0 : 0 ≤ t := div_nonneg (by linarith) hw'.le
  have hp : p = lb + t * (ub - lb) := by rw [ht]; field_simp; ring
  have hmax : max 0 t = t := max_eq_right ht0
  have hcc : cellCoord p lb ub side = min ⌊t * side⌋₊ (side - 1) := by
    unfold cellCoord; rw [← ht, hmax]
  have hfl : (⌊t * side⌋₊ : ℝ) ≤ t * side := Nat.floor_le (by positivity)
  have hfu : t * side < ⌊t * side⌋₊ + 1 := Nat.lt_floor_add_one _
  rw [hcc]
  refine ⟨by omega, ?_, ?_⟩
  · have : ((min ⌊t * side⌋₊ (side - 1) : Nat) : ℝ) ≤ t * side :=
      le_trans (by exact_mod_cast Nat.min_le_left _ _) hfl
    have h3 : ((min ⌊t * side⌋₊ (side - 1) : Nat) : ℝ) * ((ub - lb) / side) ≤
        t * side * ((ub - lb) / side) := mul_le_mul_of_nonneg_right this (by positivity)
    have h4 : t * side * ((ub - lb) / side) = t * (ub - lb) := by field_simp
    linarith
  · by_cases hlt : ⌊t * side⌋₊ ≤ side - 1
    · left
      rw [min_eq_left hlt]
      have h3 : t * side * ((ub - lb) / side) < (⌊t * side⌋₊ + 1) * ((ub - lb) / side) :=
        mul_lt_mul_of_pos_right hfu (by positivity)
      have h4 : t * side * ((ub - lb) / side) = t * (ub - lb) := by field_simp
      linarith
    · right
      refine ⟨?_, min_eq_right (by omega)⟩
      have h5 : (side : ℝ) ≤ ⌊t * side⌋₊ := by
        have : side ≤ ⌊t * side⌋₊ := by omega
        exact_mod_cast this
      have h6 : 1 ≤ t := by
        by_contra hc
        have : t * side < 1 * side := mul_lt_mul_of_pos_right (not_le.mp hc) hsR
        linarith
      have h7 : ub - lb ≤ t * (ub - lb) := by nlinarith
      linarith

theorem leaf_cell (lb ub : R3) (levels : Nat) (hl : levels ≤ 10) (p : R3) :
    ∃ c : Cell, c.In levels ∧ getLeafContainingPoint lb ub levels p = .ok c.index ∧
      c.x = cellCoord p.x lb.x ub.x (2 ^ levels) ∧ c.y = cellCoord p.y lb.y ub.y (2 ^ levels) ∧
      c.z = cellCoord p.z lb.z ub.z (2 ^ levels) := by
  have hp := pow_le_1024 hl
  have hpos : 0 < 2 ^ levels := by positivity
  have hlt : ∀ a b c, cellCoord a b c (2 ^ levels) < 2 ^ levels := by
    intro a b c; unfold cellCoord; omega
  have hx := hlt p.x lb.x ub.x
  have hy := hlt p.y lb.y ub.y
  have hz := hlt p.z lb.z ub.z
  set X := cellCoord p.x lb.x ub.x (2 ^ levels) with hX
  set Y := cellCoord p.y lb.y ub.y (2 ^ levels) with hY
  set Z := cellCoord p.z lb.z ub.z (2 ^ levels) with hZ
  refine ⟨⟨X, Y, Z⟩, ⟨hx, hy, hz⟩, ?_, rfl, rfl, rfl⟩
  unfold getLeafContainingPoint
  simp only [nodesPerSide_toNat hl]
  rw [← hX, ← hY, ← hZ]
  have tn : ∀ q, q < 2 ^ levels → (BitVec.ofNat 64 q).toNat = q := by
    intro q hq
    rw [BitVec.toNat_ofNat]; apply Nat.mod_eq_of_lt; omega
  obtain ⟨m, hm, hmn⟩ := morton_eq (BitVec.ofNat 64 X) (BitVec.ofNat 64 Y) (BitVec.ofNat 64 Z)
    (by rw [tn X hx]; omega) (by rw [tn Y hy]; omega) (by rw [tn Z hz]; omega)
  have hme : m = (⟨X, Y, Z⟩ : Cell).index := by
    apply BitVec.eq_of_toNat_eq
    rw [hmn, Cell.index_toNat, tn X hx, tn Y hy, tn Z hz]
  rw [hm, hme]

theorem cubeBounds_cell (lb ub : R3) {c : Cell} {l : Nat} (hl : l ≤ 10) (h : c.In l) :
    cubeBounds lb ub c.index l =
      (⟨lb.x + c.x * ((ub.x - lb.x) / (2 ^ l : Nat)), lb.y + c.y * ((ub.x - lb.x) / (2 ^ l : Nat)),
          lb.z + c.z * ((ub.x - lb.x) / (2 ^ l : Nat))⟩,
       ⟨lb.x + (c.x + 1) * ((ub.x - lb.x) / (2 ^ l : Nat)),
        lb.y + (c.y + 1) * ((ub.x - lb.x) / (2 ^ l : Nat)),
        lb.z + (c.z + 1) * ((ub.x - lb.x) / (2 ^ l : Nat))⟩) := by
  obtain ⟨h1, h2, h3⟩ := Cell.deMorton_index hl h
  unfold cubeBounds cubeWidth
  rw [nodesPerSide_toNat hl]
  rcases hd : deMorton c.index with ⟨wx, wy, wz⟩
  rw [hd] at h1 h2 h3
  simp only at h1 h2 h3 ⊢
  rw [h1, h2, h3]

/-! ### Elements stay in the extended cube of their leaf -/

theorem norm_nonneg (a : R3) : 0 ≤ a.norm := Real.sqrt_nonneg _

theorem norm_sq (a : R3) : a.norm ^ 2 = a.x ^ 2 + a.y ^ 2 + a.z ^ 2 :=
  Real.sq_sqrt (by positivity)

theorem cross_le (a b : R3) : (a.cross b).norm ≤ a.norm * b.norm := by
  apply le_of_sq_le_sq _ (mul_nonneg (norm_nonneg a) (norm_nonneg b))
  rw [mul_pow, norm_sq, norm_sq, norm_sq]
  simp only [R3.cross]
  nlinarith [sq_nonneg (a.x * b.x + a.y * b.y + a.z * b.z)]

theorem cross_sub (a b : R3) : (a.cross b).norm = (a.cross (a.sub b)).norm := by
  unfold R3.norm
  congr 1
  simp only [R3.cross, R3.sub]
  ring

theorem cross_sub' (a b : R3) : (a.cross b).norm = (b.cross (a.sub b)).norm := by
  unfold R3.norm
  congr 1
  simp only [R3.cross, R3.sub]
  ring

theorem comp_le (a : R3) : |a.x| ≤ a.norm ∧ |a.y| ≤ a.norm ∧ |a.z| ≤ a.norm := by
  have h := norm_sq a
  have h0 := norm_nonneg a
  refine ⟨abs_le_of_sq_le_sq ?_ h0, abs_le_of_sq_le_sq ?_ h0, abs_le_of_sq_le_sq ?_ h0⟩ <;>
    · rw [h]; nlinarith [sq_nonneg a.x, sq_nonneg a.y, sq_nonneg a.z]

/-- Each side of a non-degenerate triangle is at most its circumdiameter. -/
theorem sides_le_diam (t : R3 × R3 × R3) (h : 0 < ((t.2.1.sub t.1).cross (t.2.2.sub t.1)).norm) :
    (t.2.1.sub t.1).norm ≤ elementDiam t ∧ (t.2.2.sub t.1).norm ≤ elementDiam t ∧
      ((t.2.1.sub t.1).sub (t.2.2.sub t.1)).norm ≤ elementDiam t := by
  unfold elementDiam
  simp only
  generalize t.2.1.sub t.1 = a at *
  generalize t.2.2.sub t.1 = b at *
  have h1 := cross_le a b
  have h2 := cross_le a (a.sub b)
  have h3 := cross_le b (a.sub b)
  rw [← cross_sub] at h2
  rw [← cross_sub'] at h3
  have na := norm_nonneg a
  have nb := norm_nonneg b
  have nc := norm_nonneg (a.sub b)
  refine ⟨?_, ?_, ?_⟩
  · rw [le_div_iff₀ h]; nlinarith
  · rw [le_div_iff₀ h]; nlinarith
  · rw [le_div_iff₀ h]; nlinarith

theorem diam_le_max (ts : List (R3 × R3 × R3)) (t : R3 × R3 × R3) (ht : t ∈ ts) :
    elementDiam t ≤ maximumElementDiameter ts := by
  classical
  unfold maximumElementDiameter
  have gen : ∀ (l : List (R3 × R3 × R3)) (r : ℝ),
      r ≤ l.foldl (fun result t => if elementDiam t > result then elementDiam t else result) r ∧
      ∀ t ∈ l, elementDiam t ≤
        l.foldl (fun result t => if elementDiam t > result then elementDiam t else result) r := by
    intro l
    induction l with
    | nil => intro r; exact ⟨le_refl _, by simp⟩
    | cons a l ih =>
      intro r
      rw [List.foldl_cons]
      obtain ⟨i1, i2⟩ := ih (if elementDiam a > r then elementDiam a else r)
      have ha : r ≤ (if elementDiam a > r then elementDiam a else r) ∧
          elementDiam a ≤ (if elementDiam a > r then elementDiam a else r) := by
        split
        · rename_i h; exact ⟨h.le, le_refl _⟩
        · rename_i h; exact ⟨le_refl _, not_lt.mp h⟩
      refine ⟨ha.1.trans i1, fun t ht => ?_⟩
      rcases List.mem_cons.mp ht with rfl | ht
      · exact ha.2.trans i1
      · exact i2 t ht
  convert (gen ts 0).2 t ht using 2

end Verif.Fmm
