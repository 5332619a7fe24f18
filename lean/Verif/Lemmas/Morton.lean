import Verif.Model.Morton
import Verif.Spec.Morton
import Mathlib.Tactic.IntervalCases
import Mathlib.Tactic.Ring
import Mathlib.Tactic.Linarith
/-
Bit-level lemmas about Morton codes.
-/
namespace Verif.Fmm

theorem dilate3_ok_iff (x : ULong) : (∃ d, dilate3 x = .ok d) ↔ x.toNat < 1024 := by
  unfold dilate3
  have : x > 0x000003FF#64 ↔ 1023 < x.toNat := by
    rw [gt_iff_lt, BitVec.lt_def]; rfl
  split
  · rename_i h; rw [this] at h; simp; omega
  · rename_i h; rw [this] at h; simp; omega

theorem dilate3_error (x : ULong) (h : 1024 ≤ x.toNat) : dilate3 x = .error .invalidArgument := by
  unfold dilate3
  rw [if_pos]
  rw [gt_iff_lt, BitVec.lt_def]
  show 1023 < x.toNat
  omega

theorem dilate3_bits (x d : ULong) (h : dilate3 x = .ok d) (k : Nat) :
    d.getLsbD k = (decide (k < 30) && decide (k % 3 = 0) && x.getLsbD (k / 3)) := by
  have hlt := (dilate3_ok_iff x).mp ⟨d, h⟩
  unfold dilate3 at h
  split at h
  · cases h
  · simp only [Except.ok.injEq] at h
    have hx' : ∀ i, 10 ≤ i → x.getLsbD i = false := by
      intro i hi
      unfold BitVec.getLsbD
      refine Nat.testBit_lt_two_pow (lt_of_lt_of_le hlt ?_)
      calc 1024 = 2 ^ 10 := rfl
        _ ≤ 2 ^ i := Nat.pow_le_pow_right (by norm_num) hi
    have h24 : x[24] = false := hx' 24 (by norm_num)
    have h25 : x[25] = false := hx' 25 (by norm_num)
    subst h
    by_cases hk : k < 64
    · interval_cases k <;> simp [h24, h25]
    · rw [BitVec.getLsbD_of_ge _ _ (by omega)]
      have : ¬ k < 30 := by omega
      simp [this]

theorem contract3_bits (n : ULong) (k : Nat) :
    (contract3 n).getLsbD k = (decide (k < 10) && n.getLsbD (3 * k)) := by
  unfold contract3
  by_cases hk : k < 64
  · interval_cases k <;> simp
  · rw [BitVec.getLsbD_of_ge _ _ (by omega)]
    have : ¬ k < 10 := by omega
    simp [this]

theorem zcode_testBit (n : Nat) : ∀ (x y z k : Nat), (zcode n x y z).testBit k =
    (decide (k < 3 * n) && (if k % 3 = 0 then x else if k % 3 = 1 then y else z).testBit (k / 3)) := by
  induction n with
  | zero => intro x y z k; simp [zcode]
  | succ n ih =>
    intro x y z k
    have hd : x % 2 + 2 * (y % 2) + 4 * (z % 2) < 2 ^ 3 := by omega
    have h := Nat.testBit_two_pow_mul_add (zcode n (x / 2) (y / 2) (z / 2)) hd k
    have e : zcode (n + 1) x y z =
        2 ^ 3 * zcode n (x / 2) (y / 2) (z / 2) + (x % 2 + 2 * (y % 2) + 4 * (z % 2)) := by
      rw [zcode]; omega
    rw [e, h]
    split
    · rename_i hk
      interval_cases k
      · simp [Nat.testBit_eq_decide_div_mod_eq]; omega
      · simp only [Nat.testBit_eq_decide_div_mod_eq]
        have : (1 < 3 * (n + 1)) := by omega
        simp [this]; omega
      · simp only [Nat.testBit_eq_decide_div_mod_eq]
        have : (2 < 3 * (n + 1)) := by omega
        simp [this]; omega
    · rename_i hk
      rw [ih]
      obtain ⟨q, rfl⟩ : ∃ q, k = q + 3 := ⟨k - 3, by omega⟩
      have e1 : (q + 3) % 3 = q % 3 := by omega
      have e2 : (q + 3) / 3 = q / 3 + 1 := by omega
      have e3 : q + 3 - 3 = q := by omega
      have e4 : (q + 3 < 3 * (n + 1)) ↔ q < 3 * n := by omega
      rw [e1, e2, e3, Nat.testBit_succ]
      simp only [e4]
      congr 1
      split_ifs <;> rfl

theorem zcode_lt (n : Nat) : ∀ x y z, zcode n x y z < 8 ^ n := by
  induction n with
  | zero => intros; simp [zcode]
  | succ n ih =>
    intro x y z
    rw [zcode, pow_succ]
    have := ih (x / 2) (y / 2) (z / 2)
    omega

/-- `morton` computes the Z-order code. -/
theorem morton_eq (x y z : ULong) (hx : x.toNat < 1024) (hy : y.toNat < 1024) (hz : z.toNat < 1024) :
    ∃ m, morton x y z = .ok m ∧ m.toNat = zcode 10 x.toNat y.toNat z.toNat := by
  obtain ⟨dx, ex⟩ := (dilate3_ok_iff x).mpr hx
  obtain ⟨dy, ey⟩ := (dilate3_ok_iff y).mpr hy
  obtain ⟨dz, ez⟩ := (dilate3_ok_iff z).mpr hz
  refine ⟨dx ||| (dy <<< 1) ||| (dz <<< 2), by simp [morton, ex, ey, ez]; rfl, ?_⟩
  apply Nat.eq_of_testBit_eq
  intro k
  rw [zcode_testBit]
  show BitVec.getLsbD _ k = _
  by_cases hk : k < 64
  · simp only [BitVec.getLsbD_or, BitVec.getLsbD_shiftLeft, hk, decide_true, Bool.true_and,
      dilate3_bits x dx ex, dilate3_bits y dy ey, dilate3_bits z dz ez]
    unfold BitVec.getLsbD
    have h3 : k % 3 = 0 ∨ k % 3 = 1 ∨ k % 3 = 2 := by omega
    have big : ∀ (w : ULong), w.toNat < 1024 → ∀ i, 10 ≤ i → w.toNat.testBit i = false := by
      intro w hw i hi
      refine Nat.testBit_lt_two_pow (lt_of_lt_of_le hw ?_)
      calc 1024 = 2 ^ 10 := rfl
        _ ≤ 2 ^ i := Nat.pow_le_pow_right (by norm_num) hi
    interval_cases k <;> simp
  · rw [BitVec.getLsbD_of_ge _ _ (by omega)]
    have : ¬ k < 3 * 10 := by omega
    simp [this]

theorem morton_error (x y z : ULong)
    (h : 1024 ≤ x.toNat ∨ 1024 ≤ y.toNat ∨ 1024 ≤ z.toNat) :
    morton x y z = .error .invalidArgument := by
  unfold morton
  by_cases hx : x.toNat < 1024
  · obtain ⟨dx, ex⟩ := (dilate3_ok_iff x).mpr hx
    by_cases hy : y.toNat < 1024
    · obtain ⟨dy, ey⟩ := (dilate3_ok_iff y).mpr hy
      rw [ex, ey, dilate3_error z (by omega)]; rfl
    · rw [ex, dilate3_error y (by omega)]; rfl
  · rw [dilate3_error x (by omega)]; rfl

/-- `deMorton` inverts the Z-order code. -/
theorem deMorton_zcode (n : ULong) (x y z : Nat) (hx : x < 1024) (hy : y < 1024) (hz : z < 1024)
    (h : n.toNat = zcode 10 x y z) :
    (deMorton n).1.toNat = x ∧ (deMorton n).2.1.toNat = y ∧ (deMorton n).2.2.toNat = z := by
  have big : ∀ w, w < 1024 → ∀ i, 10 ≤ i → Nat.testBit w i = false := by
    intro w hw i hi
    refine Nat.testBit_lt_two_pow (lt_of_lt_of_le hw ?_)
    calc 1024 = 2 ^ 10 := rfl
      _ ≤ 2 ^ i := Nat.pow_le_pow_right (by norm_num) hi
  have hb : ∀ k, n.getLsbD k = (decide (k < 3 * 10) &&
      (if k % 3 = 0 then x else if k % 3 = 1 then y else z).testBit (k / 3)) := by
    intro k; unfold BitVec.getLsbD; rw [h, zcode_testBit]
  refine ⟨?_, ?_, ?_⟩ <;> apply Nat.eq_of_testBit_eq <;> intro k
  · show (contract3 n).getLsbD k = _
    rw [contract3_bits, hb]
    by_cases hk : k < 10
    · have e1 : 3 * k % 3 = 0 := by omega
      have e2 : 3 * k / 3 = k := by omega
      have e3 : 3 * k < 3 * 10 := by omega
      simp [hk, e1, e2]; intro; omega
    · rw [big x hx k (by omega)]; simp [hk]
  · show (contract3 (n >>> 1)).getLsbD k = _
    rw [contract3_bits, BitVec.getLsbD_ushiftRight, hb]
    by_cases hk : k < 10
    · have e1 : (1 + 3 * k) % 3 = 1 := by omega
      have e2 : (1 + 3 * k) / 3 = k := by omega
      have e3 : 1 + 3 * k < 3 * 10 := by omega
      rw [e1, e2]; simp [hk, e3]
    · rw [big y hy k (by omega)]; simp [hk]
  · show (contract3 (n >>> 2)).getLsbD k = _
    rw [contract3_bits, BitVec.getLsbD_ushiftRight, hb]
    by_cases hk : k < 10
    · have e1 : (2 + 3 * k) % 3 = 2 := by omega
      have e2 : (2 + 3 * k) / 3 = k := by omega
      have e3 : 2 + 3 * k < 3 * 10 := by omega
      rw [e1, e2]; simp [hk, e3]
    · rw [big z hz k (by omega)]; simp [hk]

theorem contract3_lt (n : ULong) : (contract3 n).toNat < 1024 := by
  show _ < 2 ^ 10
  apply Nat.lt_pow_two_of_testBit
  intro i hi
  show (contract3 n).getLsbD i = false
  rw [contract3_bits]
  have : ¬ i < 10 := by omega
  simp [this]

/-- Every code below `8^10` is the code of its coordinates. -/
theorem zcode_deMorton (n : ULong) (h : n.toNat < 8 ^ 10) :
    n.toNat = zcode 10 (deMorton n).1.toNat (deMorton n).2.1.toNat (deMorton n).2.2.toNat := by
  apply Nat.eq_of_testBit_eq
  intro k
  rw [zcode_testBit]
  have hx : ∀ i, (deMorton n).1.toNat.testBit i = (decide (i < 10) && n.getLsbD (3 * i)) :=
    fun i => contract3_bits n i
  have hy : ∀ i, (deMorton n).2.1.toNat.testBit i = (decide (i < 10) && n.getLsbD (1 + 3 * i)) := by
    intro i
    have := contract3_bits (n >>> 1) i
    rw [BitVec.getLsbD_ushiftRight] at this
    exact this
  have hz : ∀ i, (deMorton n).2.2.toNat.testBit i = (decide (i < 10) && n.getLsbD (2 + 3 * i)) := by
    intro i
    have := contract3_bits (n >>> 2) i
    rw [BitVec.getLsbD_ushiftRight] at this
    exact this
  by_cases hk : k < 3 * 10
  · have e : k / 3 < 10 := by omega
    have h3 : k % 3 = 0 ∨ k % 3 = 1 ∨ k % 3 = 2 := by omega
    rcases h3 with h3 | h3 | h3
    · rw [if_pos h3, hx]
      have : 3 * (k / 3) = k := by omega
      rw [this]; simp only [hk, e, decide_true, Bool.true_and]; rfl
    · rw [if_neg (by omega), if_pos h3, hy]
      have : 1 + 3 * (k / 3) = k := by omega
      rw [this]; simp only [hk, e, decide_true, Bool.true_and]; rfl
    · rw [if_neg (by omega), if_neg (by omega), hz]
      have : 2 + 3 * (k / 3) = k := by omega
      rw [this]; simp only [hk, e, decide_true, Bool.true_and]; rfl
  · rw [Nat.testBit_lt_two_pow (lt_of_lt_of_le h ?_)]
    · simp [hk]
    · calc 8 ^ 10 = 2 ^ 30 := by norm_num
        _ ≤ 2 ^ k := Nat.pow_le_pow_right (by norm_num) (by omega)

end Verif.Fmm
