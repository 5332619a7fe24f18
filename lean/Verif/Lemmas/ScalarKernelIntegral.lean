import Verif.Spec.ScalarKernelIntegral
import Mathlib.Tactic.Ring
/-
Lemmas about the quadrature sums.
-/
namespace Verif.Integral

open Finset

/-- A sum over `b * n + a`, `a < b`. -/
theorem sum_blocks {K : Type} [AddCommMonoid K] (b n : Nat) (f : Nat → K) :
    ∑ c ∈ range (b * n), f c = ∑ p ∈ range n, ∑ d ∈ range b, f (d + b * p) := by
  induction n with
  | zero => simp
  | succ n ih =>
    rw [Nat.mul_succ, Finset.sum_range_add, ih, Finset.sum_range_succ]
    congr 1
    exact Finset.sum_congr rfl fun d _ => by rw [Nat.add_comm]

theorem block_lt {b n d p : Nat} (hd : d < b) (hp : p < n) : d + b * p < b * n := by
  calc d + b * p < b + b * p := by omega
    _ = b * (p + 1) := by rw [Nat.mul_succ, Nat.add_comm]
    _ ≤ b * n := Nat.mul_le_mul_left _ hp

theorem block_div {b d p : Nat} (hd : d < b) : (d + b * p) / b = p := by
  rw [Nat.add_mul_div_left _ _ (by omega), Nat.div_eq_of_lt hd, Nat.zero_add]

theorem block_mod {b d p : Nat} (hd : d < b) : (d + b * p) % b = d := by
  rw [Nat.add_mul_mod_self_left, Nat.mod_eq_of_lt hd]

variable {K : Type} [CommRing K] [StarRing K]

/-- What the transposed buffer holds. -/
theorem transposeSlices_apply (v : Array3 K) (g : Nat → K → K) (tmp : Nat → K) {f d p : Nat}
    (hf : f < v.ext1) (hd : d < v.ext0) (hp : p < v.ext2) :
    transposeSlices v g tmp (f + v.ext1 * (d + v.ext0 * p)) = g p (v.get d f p) := by
  unfold transposeSlices
  dsimp only
  obtain ⟨n, hn⟩ : ∃ n, n = v.ext2 := ⟨_, rfl⟩
  rw [← hn] at hp ⊢
  clear hn
  have hr : f + v.ext1 * d < v.ext0 * v.ext1 := by
    rw [Nat.mul_comm v.ext0]
    exact block_lt hf hd
  have hk : f + v.ext1 * (d + v.ext0 * p) = (f + v.ext1 * d) + v.ext0 * v.ext1 * p := by ring
  rw [hk]
  induction n with
  | zero => omega
  | succ n ih =>
    rw [List.range_succ, List.foldl_append, List.foldl_cons, List.foldl_nil]
    by_cases hpn : p = n
    · subst hpn
      rw [if_pos (by omega)]
      have hs : f + v.ext1 * d + v.ext0 * v.ext1 * p - v.ext0 * v.ext1 * p = f + v.ext1 * d := by omega
      rw [hs, block_mod hf, block_div hf]
      simp only [mapped, Array3.get]
      congr 2
      ring
    · have hlt := block_lt hr (show p < n by omega)
      rw [if_neg (by omega)]
      exact ih (by omega)

/-- Two buffers mapped as matrices, multiplied: a sum over points and components. -/
theorem mulAdjoint_transposed (A B : Nat → Nat → K) (dim n : Nat) (i j : Nat) :
    mulAdjoint (dim * n) A B i j =
      ∑ p ∈ range n, ∑ d ∈ range dim, A i (d + dim * p) * star (B j (d + dim * p)) := by
  unfold mulAdjoint
  exact sum_blocks dim n _

theorem foldlM_range_some {σ : Type} (f : σ → Nat → Option σ) (n : Nat) (s : σ) (I : Nat → σ → Prop) (h0 : I 0 s)
    (hs : ∀ k s, k < n → I k s → ∃ s', f s k = some s' ∧ I (k + 1) s') :
    ∃ s', (List.range n).foldlM f s = some s' ∧ I n s' := by
  induction n with
  | zero => exact ⟨s, rfl, h0⟩
  | succ n ih =>
    obtain ⟨s₁, h₁, I₁⟩ := ih fun k s hk => hs k s (by omega)
    obtain ⟨s₂, h₂, I₂⟩ := hs n s₁ (by omega) I₁
    refine ⟨s₂, ?_, I₂⟩
    rw [List.range_succ, List.foldlM_append, h₁]
    simp [h₂]

theorem foldl_range_sum {K : Type} [AddCommMonoid K] (n : Nat) (f : Nat → K) :
    (List.range n).foldl (fun s d => s + f d) 0 = ∑ d ∈ range n, f d := by
  induction n with
  | zero => rfl
  | succ n ih => rw [List.range_succ, List.foldl_append, ih, Finset.sum_range_succ]; rfl

theorem foldlM_range_sum {K : Type} [AddCommMonoid K] (n : Nat) (g : K → Nat → Option K) (f : Nat → K)
    (h : ∀ s d, d < n → g s d = some (s + f d)) :
    (List.range n).foldlM g 0 = some (∑ d ∈ range n, f d) := by
  obtain ⟨s, hs, hI⟩ := foldlM_range_some g n 0 (fun k s => s = ∑ d ∈ range k, f d) (by simp)
    (fun k s hk hI => ⟨s + f k, h s k hk, by rw [Finset.sum_range_succ, hI]⟩)
  rw [hs, hI]

theorem Compatible.test_some {T m n P Q : Nat} {dim : Nat → Nat} {test trial : List (Array3 K)}
    (h : Compatible T m n P Q dim test trial) {t : Nat} (ht : t < T) :
    ∃ a, test[t]? = some a ∧ a.ext0 = dim t ∧ a.ext1 = m ∧ a.ext2 = P := by
  have hl : t < test.length := by rw [h.testLength]; exact ht
  exact ⟨test[t], List.getElem?_eq_getElem hl, h.testExt t _ (List.getElem?_eq_getElem hl)⟩

theorem Compatible.trial_some {T m n P Q : Nat} {dim : Nat → Nat} {test trial : List (Array3 K)}
    (h : Compatible T m n P Q dim test trial) {t : Nat} (ht : t < T) :
    ∃ a, trial[t]? = some a ∧ a.ext0 = dim t ∧ a.ext1 = n ∧ a.ext2 = Q := by
  have hl : t < trial.length := by rw [h.trialLength]; exact ht
  exact ⟨trial[t], List.getElem?_eq_getElem hl, h.trialExt t _ (List.getElem?_eq_getElem hl)⟩

theorem value_of_some {values : List (Array3 K)} {t : Nat} {a : Array3 K} (h : values[t]? = some a) (d i p : Nat) :
    value values t d i p = a.get d i p := by
  simp [value, h]

/-- The contribution of one transformation to the sum over pairs of points. -/
theorem nontensor_term (test trial : Array3 K) (g : Nat → K) (u v : Nat → K) {P : Nat}
    (hdim : trial.ext0 = test.ext0) (hP : test.ext2 = P) (hQ : trial.ext2 = P) {i j : Nat}
    (hi : i < test.ext1) (hj : j < trial.ext1) :
    mulAdjoint (P * test.ext0) (mapped (transposeSlices test (fun _ x => star x) u) test.ext1)
        (mapped (transposeSlices trial (fun point x => g point * star x) v) trial.ext1) i j =
      ∑ p ∈ range P, star (g p) * ∑ d ∈ range test.ext0, star (test.get d i p) * trial.get d j p := by
  rw [Nat.mul_comm, mulAdjoint_transposed]
  refine Finset.sum_congr rfl fun p hp => ?_
  rw [Finset.mul_sum]
  refine Finset.sum_congr rfl fun d hd => ?_
  rw [Finset.mem_range] at hp hd
  unfold mapped
  rw [transposeSlices_apply test _ _ hi hd (by omega)]
  conv_lhs => rw [← hdim]
  rw [transposeSlices_apply trial _ _ hj (by omega) (by omega), star_mul', star_star]
  ring

/-- The contribution of one transformation to the sum over a grid of points. -/
def gridTerm (test trial : Array3 K) (k : Nat → Nat → K) (w w' : Nat → K) (P Q i j : Nat) : K :=
  ∑ p ∈ range P, ∑ q ∈ range Q,
    k p q * (∑ d ∈ range test.ext0, star (test.get d i p) * trial.get d j q) * (w p * w' q)

theorem tensor_term_trial (test trial : Array3 K) (kernel : Nat → K) (w w' : Nat → K) (u v b : Nat → K) {P Q : Nat}
    (hdim : trial.ext0 = test.ext0) (hP : test.ext2 = P) (hQ : trial.ext2 = Q) {i j : Nat}
    (hi : i < test.ext1) (hj : j < trial.ext1) (hw : ∀ q, star (w' q) = w' q) :
    mulAdjoint (test.ext0 * P) (mapped (transposeSlices test (fun point x => w point * star x) u) test.ext1)
        (mapped (fun k => if k < trial.ext1 * test.ext0 * P then
          mulAdjoint Q (mapped (transposeSlices trial (fun point x => w' point * star x) v) (trial.ext1 * test.ext0))
            (mapped kernel P) (k % (trial.ext1 * test.ext0)) (k / (trial.ext1 * test.ext0)) else b k) trial.ext1) i j =
      gridTerm test trial (fun p q => kernel (p + P * q)) w w' P Q i j := by
  rw [mulAdjoint_transposed]
  unfold gridTerm
  refine Finset.sum_congr rfl fun p hp => ?_
  rw [Finset.mem_range] at hp
  have hterm : ∀ d ∈ range test.ext0,
      mapped (transposeSlices test (fun point x => w point * star x) u) test.ext1 i (d + test.ext0 * p) *
        star (mapped (fun k => if k < trial.ext1 * test.ext0 * P then
          mulAdjoint Q (mapped (transposeSlices trial (fun point x => w' point * star x) v) (trial.ext1 * test.ext0))
            (mapped kernel P) (k % (trial.ext1 * test.ext0)) (k / (trial.ext1 * test.ext0)) else b k) trial.ext1
            j (d + test.ext0 * p)) =
      ∑ q ∈ range Q, (w p * star (test.get d i p)) * (w' q * trial.get d j q * kernel (p + P * q)) := by
    intro d hd
    rw [Finset.mem_range] at hd
    have hr : j + trial.ext1 * d < trial.ext1 * test.ext0 := block_lt hj hd
    have hk : j + trial.ext1 * (d + test.ext0 * p) = (j + trial.ext1 * d) + trial.ext1 * test.ext0 * p := by ring
    have h1 : mapped (transposeSlices test (fun point x => w point * star x) u) test.ext1 i (d + test.ext0 * p) =
        w p * star (test.get d i p) := by
      unfold mapped
      exact transposeSlices_apply test _ _ hi hd (by omega)
    rw [h1, ← Finset.mul_sum]
    congr 1
    unfold mapped
    rw [hk]
    dsimp only
    rw [if_pos (block_lt hr hp), block_mod hr, block_div hr]
    unfold mulAdjoint
    rw [star_sum]
    refine Finset.sum_congr rfl fun q hq => ?_
    rw [Finset.mem_range] at hq
    have hk' : j + trial.ext1 * d + trial.ext1 * test.ext0 * q = j + trial.ext1 * (d + trial.ext0 * q) := by
      rw [hdim]; ring
    dsimp only
    rw [hk', transposeSlices_apply trial _ _ hj (by omega) (by omega), star_mul', star_mul', star_star, star_star, hw]
  rw [Finset.sum_congr rfl hterm, Finset.sum_comm]
  refine Finset.sum_congr rfl fun q _ => ?_
  rw [Finset.mul_sum, Finset.sum_mul]
  exact Finset.sum_congr rfl fun d _ => by ring

theorem tensor_term_test (test trial : Array3 K) (kernel : Nat → K) (w w' : Nat → K) (u v b : Nat → K) {P Q : Nat}
    (hdim : trial.ext0 = test.ext0) (hP : test.ext2 = P) (hQ : trial.ext2 = Q) {i j : Nat}
    (hi : i < test.ext1) (hj : j < trial.ext1) (hw : ∀ q, star (w' q) = w' q) :
    mulAdjoint (test.ext0 * Q)
        (mapped (fun k => if k < test.ext1 * test.ext0 * Q then
          mulPlain P (mapped (transposeSlices test (fun point x => w point * star x) u) (test.ext1 * test.ext0))
            (mapped kernel P) (k % (test.ext1 * test.ext0)) (k / (test.ext1 * test.ext0)) else b k) test.ext1)
        (mapped (transposeSlices trial (fun point x => w' point * star x) v) trial.ext1) i j =
      gridTerm test trial (fun p q => kernel (p + P * q)) w w' P Q i j := by
  rw [mulAdjoint_transposed]
  unfold gridTerm
  conv_rhs => rw [Finset.sum_comm]
  refine Finset.sum_congr rfl fun q hq => ?_
  rw [Finset.mem_range] at hq
  have hterm : ∀ d ∈ range test.ext0,
      mapped (fun k => if k < test.ext1 * test.ext0 * Q then
          mulPlain P (mapped (transposeSlices test (fun point x => w point * star x) u) (test.ext1 * test.ext0))
            (mapped kernel P) (k % (test.ext1 * test.ext0)) (k / (test.ext1 * test.ext0)) else b k) test.ext1
            i (d + test.ext0 * q) *
        star (mapped (transposeSlices trial (fun point x => w' point * star x) v) trial.ext1 j (d + test.ext0 * q)) =
      ∑ p ∈ range P, (w p * star (test.get d i p) * kernel (p + P * q)) * (w' q * trial.get d j q) := by
    intro d hd
    rw [Finset.mem_range] at hd
    have hr : i + test.ext1 * d < test.ext1 * test.ext0 := block_lt hi hd
    have hk : i + test.ext1 * (d + test.ext0 * q) = (i + test.ext1 * d) + test.ext1 * test.ext0 * q := by ring
    have h1 : mapped (transposeSlices trial (fun point x => w' point * star x) v) trial.ext1 j (d + test.ext0 * q) =
        w' q * star (trial.get d j q) := by
      unfold mapped
      rw [← hdim]
      exact transposeSlices_apply trial _ _ hj (by omega) (by omega)
    rw [h1, star_mul', star_star, hw, ← Finset.sum_mul]
    congr 1
    unfold mapped
    rw [hk]
    dsimp only
    rw [if_pos (block_lt hr hq), block_mod hr, block_div hr]
    unfold mulPlain
    refine Finset.sum_congr rfl fun p hp => ?_
    rw [Finset.mem_range] at hp
    have hk' : i + test.ext1 * d + test.ext1 * test.ext0 * p = i + test.ext1 * (d + test.ext0 * p) := by ring
    dsimp only
    rw [hk', transposeSlices_apply test _ _ hi hd (by omega)]
  rw [Finset.sum_congr rfl hterm, Finset.sum_comm]
  refine Finset.sum_congr rfl fun p _ => ?_
  rw [Finset.mul_sum, Finset.sum_mul]
  exact Finset.sum_congr rfl fun d _ => by ring

end Verif.Integral
