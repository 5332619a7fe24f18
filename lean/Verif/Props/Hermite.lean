import Verif.Model.Hermite
import Verif.Spec.Kernels
import Verif.Lemmas.Hermite
import Verif.Props.Kernels
import Mathlib.Algebra.Polynomial.Derivative
/-
C74: interpolated kernels.
-/
namespace Verif.Kernel
open Verif.Grid

theorem truncate_nat (i : Nat) (t : ℝ) (h0 : 0 ≤ t) (h1 : t < 1) : truncate ((i : ℝ) + t) = i := by
  unfold truncate
  rw [if_pos (by positivity), Int.floor_eq_iff]
  push_cast
  constructor <;> linarith

/-- What a successful initialisation stores. -/
theorem initialize_ok {start stop : ℝ} {values derivatives : List ℂ} {H : Hermite}
    (h : Hermite.initialize start stop values derivatives = .ok H) :
    values.length = derivatives.length ∧ 2 ≤ values.length ∧ start < stop ∧
      H = ⟨start, stop, values.length, (stop - start) / ((values.length : ℝ) - 1), values, derivatives⟩ := by
  unfold Hermite.initialize at h
  split at h
  · cases h
  · split at h
    · cases h
    · split at h
      · cases h
      · rename_i h1 h2 h3
        cases h
        exact ⟨not_not.mp h1, by omega, not_le.mp h3, rfl⟩

theorem initialize_of {start stop : ℝ} {values derivatives : List ℂ} (h1 : values.length = derivatives.length)
    (h2 : 2 ≤ values.length) (h3 : start < stop) :
    Hermite.initialize start stop values derivatives =
      .ok ⟨start, stop, values.length, (stop - start) / ((values.length : ℝ) - 1), values, derivatives⟩ := by
  unfold Hermite.initialize
  rw [if_neg (not_not.mpr h1), if_neg (by omega), if_neg (not_le.mpr h3)]

section
variable {start stop : ℝ} {values derivatives : List ℂ} {H : Hermite}
  (h : Hermite.initialize start stop values derivatives = .ok H)
include h

theorem interval_pos : 0 < H.interval := by
  obtain ⟨-, h2, h3, rfl⟩ := initialize_ok h
  have : (2 : ℝ) ≤ values.length := by exact_mod_cast h2
  exact div_pos (by linarith) (by linarith)

/-- The value in a cell. -/
theorem evaluate_cell (i : Nat) (t : ℝ) (h0 : 0 ≤ t) (h1 : t < 1) (f1 f2 g1 g2 : ℂ) (e1 : values[i]? = some f1)
    (e2 : values[i + 1]? = some f2) (e3 : derivatives[i]? = some g1) (e4 : derivatives[i + 1]? = some g2) :
    H.evaluate (start + (i + t) * H.interval) = some (cubic f1 f2 (g1 * H.interval) (g2 * H.interval) (t : ℂ)) := by
  have hi := (interval_pos h).ne'
  obtain ⟨-, -, -, hH⟩ := initialize_ok h
  have hs : H.start = start := by rw [hH]
  have hv : H.values = values := by rw [hH]
  have hd : H.derivatives = derivatives := by rw [hH]
  unfold Hermite.evaluate
  have hq : (start + (i + t) * H.interval - H.start) / H.interval = i + t := by rw [hs]; field_simp; ring
  rw [hq]
  dsimp only
  rw [truncate_nat i t h0 h1, hv, hd]
  simp only [Int.toNat_natCast, e1, e2, e3, e4]
  rw [if_neg (by omega)]
  simp [cubic]

/-- Every point before the end is in a cell. -/
theorem cell_exists (x : ℝ) (hx0 : start ≤ x) (hx1 : x < stop) :
    ∃ (i : Nat) (t : ℝ), i + 1 < values.length ∧ 0 ≤ t ∧ t < 1 ∧ x = start + (i + t) * H.interval := by
  have hi := interval_pos h
  obtain ⟨-, h2, h3, hH⟩ := initialize_ok h
  have hint : H.interval = (stop - start) / ((values.length : ℝ) - 1) := by rw [hH]
  have hl : (2 : ℝ) ≤ values.length := by exact_mod_cast h2
  have hq0 : 0 ≤ (x - start) / H.interval := div_nonneg (by linarith) hi.le
  have hq1 : (x - start) / H.interval < (values.length : ℝ) - 1 := by
    rw [div_lt_iff₀ hi, hint]
    have h5 : ((values.length : ℝ) - 1) * ((stop - start) / ((values.length : ℝ) - 1)) = stop - start := by
      have : (values.length : ℝ) - 1 ≠ 0 := by linarith
      field_simp
    linarith
  refine ⟨⌊(x - start) / H.interval⌋₊, (x - start) / H.interval - ⌊(x - start) / H.interval⌋₊, ?_, ?_, ?_, ?_⟩
  · have := Nat.floor_le hq0
    have h5 : ((⌊(x - start) / H.interval⌋₊ : ℕ) : ℝ) + 1 < values.length := by linarith
    exact_mod_cast h5
  · linarith [Nat.floor_le hq0]
  · linarith [Nat.lt_floor_add_one ((x - start) / H.interval)]
  · field_simp
    ring

end

/-- **C74 (interpolation)** For any data, the interpolator is on each cell a polynomial of degree at most three that has the given
values and derivatives at both ends of the cell; every point of the range except its end is evaluated from the data of its cell
(no read outside the vectors). -/
theorem C74_interpolation (start stop : ℝ) (values derivatives : List ℂ) (hlen : values.length = derivatives.length)
    (h2 : 2 ≤ values.length) (hs : start < stop) :
    ∃ H, Hermite.initialize start stop values derivatives = .ok H ∧
      let node := fun i : Nat => start + (stop - start) * i / ((values.length : ℝ) - 1)
      (∀ x, start ≤ x → x < stop → ∃ i : Nat, i + 1 < values.length ∧ node i ≤ x ∧ x < node (i + 1)) ∧
      ∀ i : Nat, i + 1 < values.length → ∃ P : Polynomial ℂ, P.natDegree ≤ 3 ∧
        values[i]? = some (P.eval (node i : ℂ)) ∧ values[i + 1]? = some (P.eval (node (i + 1) : ℂ)) ∧
        derivatives[i]? = some (P.derivative.eval (node i : ℂ)) ∧
        derivatives[i + 1]? = some (P.derivative.eval (node (i + 1) : ℂ)) ∧
        ∀ x, node i ≤ x → x < node (i + 1) → H.evaluate x = some (P.eval (x : ℂ)) := by
  have hok := initialize_of hlen h2 hs
  set H : Hermite := ⟨start, stop, values.length, (stop - start) / ((values.length : ℝ) - 1), values, derivatives⟩ with hH
  have hi := interval_pos hok
  have hnode : ∀ i : Nat, start + (stop - start) * i / ((values.length : ℝ) - 1) = start + i * H.interval := by
    intro i; rw [hH]; ring
  refine ⟨H, hok, ?_, ?_⟩
  · intro x hx0 hx1
    obtain ⟨i, t, hi1, ht0, ht1, rfl⟩ := cell_exists hok x hx0 hx1
    refine ⟨i, hi1, ?_, ?_⟩
    · dsimp only; rw [hnode]; nlinarith
    · dsimp only; rw [hnode]; push_cast; nlinarith
  · intro i hi1
    have e1 := List.getElem?_eq_getElem (show i < values.length by omega)
    have e2 := List.getElem?_eq_getElem hi1
    have e3 := List.getElem?_eq_getElem (show i < derivatives.length by omega)
    have e4 := List.getElem?_eq_getElem (show i + 1 < derivatives.length by omega)
    generalize values[i] = f1 at e1
    generalize values[i + 1] = f2 at e2
    generalize derivatives[i] = g1 at e3
    generalize derivatives[i + 1] = g2 at e4
    have hc : (H.interval : ℂ) ≠ 0 := by exact_mod_cast hi.ne'
    have hnC : ∀ i : Nat, ((start + (stop - start) * i / ((values.length : ℝ) - 1) : ℝ) : ℂ) = start + i * H.interval := by
      intro i; rw [hnode]; push_cast; rfl
    -- t = (X - node i) / interval
    set T : Polynomial ℂ := Polynomial.C ((H.interval : ℂ)⁻¹) * (Polynomial.X - Polynomial.C ((start : ℂ) + i * H.interval)) with hT
    have hTd : T.derivative = Polynomial.C ((H.interval : ℂ)⁻¹) := by rw [hT]; simp
    have hTdeg : T.natDegree ≤ 1 := by
      rw [hT]; compute_degree
    have hT0 : T.eval ((start : ℂ) + i * H.interval) = 0 := by rw [hT]; simp
    have hT1 : T.eval ((start : ℂ) + ((i : ℂ) + 1) * H.interval) = 1 := by
      rw [hT]; simp; field_simp; ring
    set d1 := g1 * (H.interval : ℂ) with hd1
    set d2 := g2 * (H.interval : ℂ) with hd2
    set c2 := -((d1 - (f2 - f1)) + (d1 - (f2 - f1)) + (d2 - (f2 - f1))) with hc2
    set c3 := (d1 - (f2 - f1)) + (d2 - (f2 - f1)) with hc3
    refine ⟨Polynomial.C f1 + T * (Polynomial.C d1 + T * (Polynomial.C c2 + T * Polynomial.C c3)), ?_, ?_, ?_, ?_, ?_, ?_⟩
    · have q1 : (T * Polynomial.C c3).natDegree ≤ 1 + 0 := Polynomial.natDegree_mul_le_of_le hTdeg (by simp)
      have q2 : (Polynomial.C c2 + T * Polynomial.C c3).natDegree ≤ 1 :=
        Polynomial.natDegree_add_le_of_degree_le (by simp) q1
      have q3 : (T * (Polynomial.C c2 + T * Polynomial.C c3)).natDegree ≤ 1 + 1 := Polynomial.natDegree_mul_le_of_le hTdeg q2
      have q4 : (Polynomial.C d1 + T * (Polynomial.C c2 + T * Polynomial.C c3)).natDegree ≤ 2 :=
        Polynomial.natDegree_add_le_of_degree_le (by simp) q3
      have q5 := Polynomial.natDegree_mul_le_of_le hTdeg q4
      exact Polynomial.natDegree_add_le_of_degree_le (by simp) q5
    · dsimp only; rw [e1, hnC]; simp [hT0]
    · dsimp only; rw [e2, hnC]; simp [hT1, hc2, hc3]; ring
    · dsimp only; rw [e3, hnC]; simp [hT0, hTd, hd1]; field_simp
    · dsimp only; rw [e4, hnC]; simp [hT1, hTd, hc2, hc3, hd2]; field_simp; ring
    · intro x hx0 hx1
      dsimp only at hx0 hx1
      rw [hnode] at hx0 hx1
      have hx : x = start + (i + (x - (start + i * H.interval)) / H.interval) * H.interval := by field_simp; ring
      have := evaluate_cell hok i ((x - (start + i * H.interval)) / H.interval) (div_nonneg (by linarith) hi.le)
        (by rw [div_lt_one hi]; push_cast at hx1; linarith) f1 f2 g1 g2 e1 e2 e3 e4
      rw [← hx] at this
      rw [this]
      have hTx : T.eval (x : ℂ) = (((x - (start + i * H.interval)) / H.interval : ℝ) : ℂ) := by
        rw [hT]; simp; field_simp
      simp only [Polynomial.eval_add, Polynomial.eval_mul, Polynomial.eval_C, hTx, cubic, hc2, hc3, hd1, hd2]

/-- **C74 (error)** The interpolator of a function with four derivatives differs from it by at most `M h⁴ / 384`, `h` being the
distance of the nodes and `M` a bound of the fourth derivative at distance at most `h`. -/
theorem C74_error (f f1 f2 f3 f4 : ℝ → ℂ) (h0 : ∀ x, HasDerivAt f (f1 x) x) (h1 : ∀ x, HasDerivAt f1 (f2 x) x)
    (h2 : ∀ x, HasDerivAt f2 (f3 x) x) (h3 : ∀ x, HasDerivAt f3 (f4 x) x) (start stop : ℝ) (hs : start < stop) (n : Nat) (hn : 2 ≤ n) :
    let node := fun i : Nat => start + (stop - start) * i / ((n : ℝ) - 1)
    let step := (stop - start) / ((n : ℝ) - 1)
    ∃ H, Hermite.initialize start stop ((List.range n).map fun i => f (node i)) ((List.range n).map fun i => f1 (node i)) = .ok H ∧
      ∀ x, start ≤ x → x < stop → ∃ v, H.evaluate x = some v ∧
        ∀ M, (∀ ξ, start ≤ ξ → ξ ≤ stop → |ξ - x| ≤ step → ‖f4 ξ‖ ≤ M) → ‖v - f x‖ ≤ M * step ^ 4 / 384 := by
  intro node step
  have hok := initialize_of (start := start) (stop := stop) (values := (List.range n).map fun i => f (node i))
    (derivatives := (List.range n).map fun i => f1 (node i)) (by simp) (by simpa using hn) hs
  refine ⟨_, hok, ?_⟩
  intro x hx0 hx1
  obtain ⟨i, t, hi1, ht0, ht1, hx⟩ := cell_exists hok x hx0 hx1
  have hip := interval_pos hok
  simp only [List.length_map, List.length_range] at hi1
  have hstep : (⟨start, stop, ((List.range n).map fun i => f (node i)).length,
      (stop - start) / (((((List.range n).map fun i => f (node i)).length : ℕ) : ℝ) - 1), (List.range n).map fun i => f (node i),
      (List.range n).map fun i => f1 (node i)⟩ : Hermite).interval = step := by
    simp [step]
  rw [hstep] at hx hip
  have hn' : (2 : ℝ) ≤ n := by exact_mod_cast hn
  have hnode : ∀ i : Nat, node i = start + i * step := by intro i; simp only [node, step]; ring
  have hcell := evaluate_cell hok i t ht0 ht1 (f (node i)) (f (node (i + 1))) (f1 (node i)) (f1 (node (i + 1)))
    (by rw [List.getElem?_map, List.getElem?_range (by omega)]; rfl) (by rw [List.getElem?_map, List.getElem?_range (by omega)]; rfl)
    (by rw [List.getElem?_map, List.getElem?_range (by omega)]; rfl) (by rw [List.getElem?_map, List.getElem?_range (by omega)]; rfl)
  rw [hstep, ← hx] at hcell
  refine ⟨_, hcell, ?_⟩
  intro M hM
  -- the function on the unit interval
  have hl : ∀ {g g' : ℝ → ℂ} (j : Nat), (∀ x, HasDerivAt g (g' x) x) →
      ∀ s, HasDerivAt (fun s : ℝ => (step : ℂ) ^ j * g (node i + s * step)) ((step : ℂ) ^ (j + 1) * g' (node i + s * step)) s := by
    intro g g' j hg s
    have ha : HasDerivAt (fun s : ℝ => node i + s * step) step s := by
      have := ((hasDerivAt_id s).mul_const step).const_add (node i)
      simpa using this
    have hc := ((hg (node i + s * step)).scomp s ha).const_mul ((step : ℂ) ^ j)
    refine HasDerivAt.congr_deriv (f := fun s : ℝ => (step : ℂ) ^ j * g (node i + s * step)) hc ?_
    rw [Complex.real_smul]; ring
  have key := cubic_error_complex (hl 0 h0) (hl 1 h1) (hl 2 h2) (hl 3 h3) (M * step ^ 4) ?_ t ht0 ht1.le
  · simp only [pow_zero, one_mul, pow_one, zero_mul, add_zero] at key
    have e1 : node i + 1 * step = node (i + 1) := by rw [hnode, hnode]; push_cast; ring
    have e2 : node i + t * step = x := by rw [hnode, hx]; ring
    rw [one_mul] at e1
    rw [e1, e2] at key
    rw [mul_comm (f1 (node i)), mul_comm (f1 (node (i + 1)))]
    simpa using key
  · intro ξ hξ0 hξ1
    rw [norm_mul, norm_pow, Complex.norm_real, Real.norm_eq_abs, abs_of_pos hip, mul_comm]
    refine mul_le_mul_of_nonneg_right (hM _ ?_ ?_ ?_) (by positivity)
    · rw [hnode]; have : 0 ≤ ((i : ℝ) + ξ) * step := by positivity
      linarith
    · rw [hnode]
      have h5 : ((i : ℝ) + 1) ≤ n - 1 := by
        have : ((i + 1 + 1 : ℕ) : ℝ) ≤ n := by exact_mod_cast hi1
        push_cast at this; linarith
      have h6 : ((i : ℝ) + ξ) * step ≤ (n - 1) * step := mul_le_mul_of_nonneg_right (by linarith) hip.le
      have h7 : ((n : ℝ) - 1) * step = stop - start := by
        have : (n : ℝ) - 1 ≠ 0 := by linarith
        simp only [step]; field_simp
      linarith
    · rw [hnode, hx, show start + (i : ℝ) * step + ξ * step - (start + (i + t) * step) = (ξ - t) * step by ring, abs_mul,
        abs_of_pos hip]
      have : |ξ - t| ≤ 1 := abs_le.mpr ⟨by linarith, by linarith⟩
      nlinarith

/-! ### The range -/

theorem foldl_max_ge {α : Type} (g : α → ℝ → ℝ) (hg : ∀ a r, r ≤ g a r) (l : List α) (r : ℝ) : r ≤ l.foldl (fun r a => g a r) r := by
  induction l generalizing r with
  | nil => exact le_rfl
  | cons a l ih => exact (hg a r).trans (ih _)

theorem foldl_max_mem {α : Type} (g : α → ℝ → ℝ) (hg : ∀ a r, r ≤ g a r) (l : List α) (a : α) (ha : a ∈ l) (c : ℝ)
    (hc : ∀ r, c ≤ g a r) (r : ℝ) : c ≤ l.foldl (fun r a => g a r) r := by
  induction l generalizing r with
  | nil => cases ha
  | cons b l ih =>
    rcases List.mem_cons.mp ha with rfl | ha
    · exact (hc r).trans (foldl_max_ge g hg l _)
    · exact ih ha _

/-- The distance of any two of the 16 points is taken into account. -/
theorem maxDistance_pair (l1 u1 l2 u2 : P3 ℝ) (i j : Nat) (p q : P3 ℝ) (hij : i < j)
    (hp : (boxPoints l1 u1 l2 u2)[i]? = some p) (hq : (boxPoints l1 u1 l2 u2)[j]? = some q) :
    dist p q ≤ maxDistance l1 u1 l2 u2 := by
  have hj := (List.getElem?_eq_some_iff.mp hq).1
  unfold maxDistance
  dsimp only
  set pts := boxPoints l1 u1 l2 u2
  have hin : ∀ (i j : Nat) (r : ℝ), r ≤ (match pts[i]?, pts[j]? with
      | some p, some q => max (Real.sqrt ((p.sub q).x * (p.sub q).x + (p.sub q).y * (p.sub q).y + (p.sub q).z * (p.sub q).z)) r
      | _, _ => r) := by
    intro i j r
    split
    · exact le_max_right _ _
    · exact le_rfl
  refine foldl_max_mem (fun i r => (List.range' (i + 1) (pts.length - (i + 1))).foldl (fun r j =>
      match pts[i]?, pts[j]? with
      | some p, some q => max (Real.sqrt ((p.sub q).x * (p.sub q).x + (p.sub q).y * (p.sub q).y + (p.sub q).z * (p.sub q).z)) r
      | _, _ => r) r) ?_ _ i (List.mem_range.mpr (by omega)) _ ?_ 0
  · intro i r
    exact foldl_max_ge _ (hin i) _ r
  · intro r
    refine foldl_max_mem _ (hin i) _ j (List.mem_range'_1.mpr ⟨by omega, by omega⟩) _ ?_ r
    intro r
    rw [hp, hq]
    refine le_trans (le_of_eq ?_) (le_max_left _ _)
    unfold dist
    congr 1
    simp only [P3.sub]; ring

theorem coord_bound {a b l1 u1 l2 u2 : ℝ} (h1 : l1 ≤ a) (h2 : a ≤ u1) (h3 : l2 ≤ b) (h4 : b ≤ u2) :
    (a - b) ^ 2 ≤ (u1 - l2) ^ 2 ∨ (a - b) ^ 2 ≤ (l1 - u2) ^ 2 := by
  rcases le_total b a with h | h
  · left; exact pow_le_pow_left₀ (by linarith) (by linarith) 2
  · right
    have : (b - a) ^ 2 ≤ (u2 - l1) ^ 2 := pow_le_pow_left₀ (by linarith) (by linarith) 2
    nlinarith

/-- **C74 (range)** `maxDistance` is an upper bound of the distances between points of two grids, if the boxes contain them. -/
theorem C74_max_distance (l1 u1 l2 u2 p q : P3 ℝ) (hp : InBox l1 u1 p) (hq : InBox l2 u2 q) :
    dist p q ≤ maxDistance l1 u1 l2 u2 := by
  obtain ⟨a1, a2, a3, a4, a5, a6⟩ := hp
  obtain ⟨b1, b2, b3, b4, b5, b6⟩ := hq
  have key : ∀ (i j : Nat) (p' q' : P3 ℝ), i < j → (boxPoints l1 u1 l2 u2)[i]? = some p' → (boxPoints l1 u1 l2 u2)[j]? = some q' →
      (p.x - q.x) ^ 2 ≤ (p'.x - q'.x) ^ 2 → (p.y - q.y) ^ 2 ≤ (p'.y - q'.y) ^ 2 → (p.z - q.z) ^ 2 ≤ (p'.z - q'.z) ^ 2 →
      dist p q ≤ maxDistance l1 u1 l2 u2 := by
    intro i j p' q' hij hp hq hx hy hz
    refine le_trans ?_ (maxDistance_pair l1 u1 l2 u2 i j p' q' hij hp hq)
    exact Real.sqrt_le_sqrt (by linarith)
  rcases coord_bound a1 a2 b1 b2 with hx | hx <;> rcases coord_bound a3 a4 b3 b4 with hy | hy <;>
    rcases coord_bound a5 a6 b5 b6 with hz | hz
  · exact key 7 8 _ _ (by decide) rfl rfl hx hy hz
  · exact key 6 11 _ _ (by decide) rfl rfl hx hy hz
  · exact key 5 10 _ _ (by decide) rfl rfl hx hy hz
  · exact key 1 12 _ _ (by decide) rfl rfl hx hy hz
  · exact key 4 9 _ _ (by decide) rfl rfl hx hy hz
  · exact key 2 13 _ _ (by decide) rfl rfl hx hy hz
  · exact key 3 14 _ _ (by decide) rfl rfl hx hy hz
  · exact key 0 15 _ _ (by decide) rfl rfl hx hy hz

/-- At the end of the range the code reads one element past the end of the vectors, although its assertions hold. -/
theorem C74_counterexample_end (start stop : ℝ) (values derivatives : List ℂ) (H : Hermite)
    (h : Hermite.initialize start stop values derivatives = .ok H) : H.evaluate stop = none := by
  have hi := interval_pos h
  obtain ⟨-, h2, h3, hH⟩ := initialize_ok h
  have hs : H.start = start := by rw [hH]
  have hv : H.values = values := by rw [hH]
  have hint : H.interval = (stop - start) / ((values.length : ℝ) - 1) := by rw [hH]
  have hl : (2 : ℝ) ≤ values.length := by exact_mod_cast h2
  have hq : (stop - H.start) / H.interval = ((values.length - 1 : ℕ) : ℝ) + 0 := by
    rw [hs, hint, Nat.cast_sub (by omega)]
    have h5 : (values.length : ℝ) - 1 ≠ 0 := by linarith
    have h6 : stop - start ≠ 0 := by linarith
    push_cast
    field_simp
    ring
  unfold Hermite.evaluate
  rw [hq]
  dsimp only
  rw [truncate_nat _ 0 le_rfl one_pos, hv]
  simp only [Int.toNat_natCast]
  rw [if_neg (by omega)]
  have hn : values[values.length - 1 + 1]? = none := by
    rw [List.getElem?_eq_none_iff]; omega
  rw [hn]
  split
  · rename_i hc _ _; cases hc
  · rfl

/-! ### The exponential -/

theorem pointCount_eq {A : ℝ} (hA : 1 ≤ A) :
    ∃ n : Nat, (truncate (A + 1)).toNat = n + 1 ∧ 1 ≤ n ∧ A < 2 * n := by
  refine ⟨⌊A⌋₊, ?_, ?_, ?_⟩
  · unfold truncate
    rw [if_pos (by linarith), Int.floor_add_one]
    have : ⌊A⌋ = (⌊A⌋₊ : ℤ) := (Int.natCast_floor_eq_floor (by linarith)).symm
    rw [this]
    omega
  · exact Nat.one_le_floor_iff A |>.mpr hA
  · have h1 := Nat.lt_floor_add_one A
    have h2 : (1 : ℝ) ≤ ⌊A⌋₊ := by exact_mod_cast (Nat.one_le_floor_iff A).mpr hA
    linarith

/-- **C74 (range too short)** Less than one cell in the range: the constructor throws; in particular for wave number 0. -/
theorem C74_counterexample_short (k : ℂ) (maxDist : ℝ) (p : ℤ) (hd : 0 ≤ maxDist) (hp : 0 ≤ p)
    (h : maxDist * ‖k‖ * p < 2 * Real.pi) :
    initializeInterpolator k maxDist p = .error "at least two points are required" := by
  unfold initializeInterpolator
  dsimp only
  have hA : (maxDist - 0) / (2 * Real.pi / ‖k‖) * p = maxDist * ‖k‖ * p / (2 * Real.pi) := by
    rw [sub_zero, div_div_eq_mul_div]; ring
  have hpi := Real.pi_pos
  have h0 : 0 ≤ maxDist * ‖k‖ * p / (2 * Real.pi) := by
    have : (0 : ℝ) ≤ p := by exact_mod_cast hp
    positivity
  have h1 : maxDist * ‖k‖ * p / (2 * Real.pi) < 1 := by rw [div_lt_one (by positivity)]; exact h
  have hc : truncate ((maxDist - 0) / (2 * Real.pi / ‖k‖) * p + 1) = 1 := by
    rw [hA]
    unfold truncate
    rw [if_pos (by linarith), Int.floor_eq_iff]
    push_cast
    constructor <;> linarith
  rw [hc]
  unfold Hermite.initialize
  simp

/-- **C74 (exponential)** With `p` points per wavelength, if the range is not shorter than a cell, every value before the end of
the range is that of `exp (-k x)` up to a relative error of `(4 π / p)⁴ / 384 · exp (4 π / p)`. -/
theorem C74_exponential (k : ℂ) (maxDist : ℝ) (p : ℤ) (hd : 0 < maxDist) (hp : 0 < p)
    (h : 2 * Real.pi ≤ maxDist * ‖k‖ * p) :
    ∃ H, initializeInterpolator k maxDist p = .ok H ∧ ∀ x, 0 ≤ x → x < maxDist → ∃ v, H.evaluate x = some v ∧
      Approximates ((4 * Real.pi / p) ^ 4 / 384 * Real.exp (4 * Real.pi / p)) (Complex.exp (-k * x)) v := by
  have hpi := Real.pi_pos
  have hp' : (0 : ℝ) < p := by exact_mod_cast hp
  have hA : (maxDist - 0) / (2 * Real.pi / ‖k‖) * p = maxDist * ‖k‖ * p / (2 * Real.pi) := by
    rw [sub_zero, div_div_eq_mul_div]; ring
  have h1 : 1 ≤ maxDist * ‖k‖ * p / (2 * Real.pi) := by rw [one_le_div (by positivity)]; exact h
  obtain ⟨n, hn, hn1, hn2⟩ := pointCount_eq h1
  have hexp : ∀ x : ℝ, HasDerivAt (fun x : ℝ => Complex.exp (-k * x)) (-k * Complex.exp (-k * x)) x := by
    intro x
    have h2 : HasDerivAt (fun x : ℝ => -k * (x : ℂ)) (-k) x := by
      simpa using (Complex.ofRealCLM.hasDerivAt (x := x)).const_mul (-k)
    exact HasDerivAt.congr_deriv (f := fun x : ℝ => Complex.exp (-k * x)) h2.cexp (by ring)
  have hder : ∀ (j : Nat) (x : ℝ), HasDerivAt (fun x : ℝ => (-k) ^ j * Complex.exp (-k * x)) ((-k) ^ (j + 1) * Complex.exp (-k * x)) x := by
    intro j x
    exact HasDerivAt.congr_deriv (f := fun x : ℝ => (-k) ^ j * Complex.exp (-k * x)) ((hexp x).const_mul _) (by ring)
  obtain ⟨H, hH, hE⟩ := C74_error (fun x => Complex.exp (-k * x)) (fun x => -k * Complex.exp (-k * x))
    (fun x => (-k) ^ 2 * Complex.exp (-k * x)) (fun x => (-k) ^ 3 * Complex.exp (-k * x)) (fun x => (-k) ^ 4 * Complex.exp (-k * x))
    hexp (fun x => by simpa using hder 1 x) (hder 2) (hder 3) 0 maxDist hd (n + 1) (by omega)
  refine ⟨H, ?_, ?_⟩
  · unfold initializeInterpolator
    dsimp only
    rw [hA, hn]
    exact hH
  · intro x hx0 hx1
    obtain ⟨v, hv, hM⟩ := hE x hx0 hx1
    refine ⟨v, hv, ?_⟩
    unfold Approximates
    have hn0 : (1 : ℝ) ≤ n := by exact_mod_cast hn1
    set step := (maxDist - 0) / (((n + 1 : ℕ) : ℝ) - 1) with hstep
    have hs : step = maxDist / n := by rw [hstep]; push_cast; ring
    have hs0 : 0 < step := by rw [hs]; positivity
    have hks : step * ‖k‖ ≤ 4 * Real.pi / p := by
      rw [hs, le_div_iff₀ hp', div_mul_eq_mul_div, div_mul_eq_mul_div, div_le_iff₀ (by linarith)]
      rw [div_lt_iff₀ (by positivity)] at hn2
      linarith
    have hb := hM (‖k‖ ^ 4 * (Real.exp (step * ‖k‖) * ‖Complex.exp (-k * x)‖)) ?_
    · refine hb.trans ?_
      have e1 : ‖k‖ ^ 4 * (Real.exp (step * ‖k‖) * ‖Complex.exp (-k * x)‖) * step ^ 4 / 384
          = (step * ‖k‖) ^ 4 / 384 * Real.exp (step * ‖k‖) * ‖Complex.exp (-k * x)‖ := by ring
      rw [e1]
      have e2 : 0 ≤ step * ‖k‖ := by positivity
      gcongr
    · intro ξ _ _ hξ
      rw [norm_mul, norm_pow, norm_neg]
      refine mul_le_mul_of_nonneg_left ?_ (by positivity)
      rw [Complex.norm_exp, Complex.norm_exp, ← Real.exp_add]
      apply Real.exp_le_exp.mpr
      have r1 : (-k * (ξ : ℂ)).re = -k.re * ξ := by simp
      have r2 : (-k * (x : ℂ)).re = -k.re * x := by simp
      rw [r1, r2]
      have r3 : |(-k.re) * (ξ - x)| ≤ ‖k‖ * step := by
        rw [abs_mul, abs_neg]
        exact mul_le_mul (Complex.abs_re_le_norm k) hξ (abs_nonneg _) (norm_nonneg _)
      have := le_abs_self ((-k.re) * (ξ - x))
      nlinarith

/-- Relative errors are not changed by a common factor. -/
theorem Approximates.mul {ε : ℝ} {a b : ℂ} (h : Approximates ε a b) (c : ℂ) : Approximates ε (c * a) (c * b) := by
  unfold Approximates at *
  rw [← mul_sub, norm_mul, norm_mul]
  calc ‖c‖ * ‖b - a‖ ≤ ‖c‖ * (ε * ‖a‖) := mul_le_mul_of_nonneg_left h (norm_nonneg _)
    _ = _ := by ring

/-- Pairs and triples of kernels. -/
theorem Approximates.of_eq {ε : ℝ} {a b A B : ℂ} (h : Approximates ε a b) (c : ℂ) (hA : A = c * a) (hB : B = c * b) : Approximates ε A B := by
  rw [hA, hB]; exact h.mul c

theorem sqrt_dist (x y : P3 ℝ) : Real.sqrt (sumSq (x.sub y)) = dist x y := by
  unfold dist
  congr 1
  simp only [sumSq, P3.sub]
  ring

theorem dist_symm (x y : P3 ℝ) : dist x y = dist y x := by
  unfold dist
  congr 1
  ring

/-- **C74 (kernels)** If the interpolator approximates the exponential at the distance of the points with a relative error, the
interpolated kernels approximate the exact ones with the same error. -/
theorem C74_kernels (k : ℂ) (ε : ℝ) (H : Hermite) (s t : Slice) (hst : s.global ≠ t.global) (v : ℂ)
    (hv : H.evaluate (dist s.global t.global) = some v) (he : Approximates ε (Complex.exp (-k * dist s.global t.global)) v) :
    (∃ w, interpSL H s t = some w ∧ Approximates ε (helmholtzSL k s t) w) ∧
    (∃ w, interpDL k H s t = some w ∧ Approximates ε (helmholtzDL k s t) w) ∧
    (∃ w, interpADL k H s t = some w ∧ Approximates ε (helmholtzADL k s t) w) ∧
    (∃ w, interpHyp k H s t = some w ∧ Approximates ε (helmholtzHyp k s t) w) ∧
    (∃ w, interpHypPair k H s t = some w ∧ Approximates ε (helmholtzHypPair k s t).1 w.1 ∧ Approximates ε (helmholtzHypPair k s t).2 w.2) ∧
    (∃ w, interpMaxwellSL k H s t = some w ∧ Approximates ε (maxwellSL k s t).1 w.1 ∧ Approximates ε (maxwellSL k s t).2 w.2) ∧
    (∃ w, interpMaxwellDL k H s t = some w ∧ Approximates ε (maxwellDL k s t).1 w.1 ∧ Approximates ε (maxwellDL k s t).2.1 w.2.1 ∧
      Approximates ε (maxwellDL k s t).2.2 w.2.2) := by
  have hr := sqrt_dist s.global t.global
  have hr' : Real.sqrt (sumSq (t.global.sub s.global)) = dist s.global t.global := by rw [sqrt_dist, dist_symm]
  have hsl : ∃ w, interpSL H s t = some w ∧ Approximates ε (helmholtzSL k s t) w := by
    unfold interpSL helmholtzSL
    dsimp only
    rw [hr, hv]
    refine ⟨_, rfl, he.of_eq (((1 / (4 * Real.pi) / dist s.global t.global : ℝ)) : ℂ) ?_ rfl⟩
    push_cast; ring
  have hd : (dist s.global t.global : ℂ) ≠ 0 := distC_ne s t hst
  refine ⟨hsl, ?_, ?_, ?_, ?_, ?_, ?_⟩
  · unfold interpDL helmholtzDL
    dsimp only
    rw [hr', hv]
    refine ⟨_, rfl, he.of_eq _ ?_ rfl⟩
    push_cast; field_simp
  · unfold interpADL helmholtzADL
    dsimp only
    rw [hr, hv]
    refine ⟨_, rfl, he.of_eq _ ?_ rfl⟩
    push_cast; field_simp
  · unfold interpHyp helmholtzHyp
    dsimp only
    rw [hr', hv]
    refine ⟨_, rfl, he.of_eq _ ?_ rfl⟩
    rw [neg_mul k]
  · obtain ⟨w, hw, ha⟩ := hsl
    unfold interpHypPair helmholtzHypPair
    rw [hw]
    exact ⟨_, rfl, ha, ha.of_eq (k * k) (by ring) (by ring)⟩
  · obtain ⟨w, hw, ha⟩ := hsl
    unfold interpMaxwellSL maxwellSL
    rw [hw]
    exact ⟨_, rfl, ha.of_eq k (by ring) (by ring), ha.of_eq (k⁻¹) (by ring) (by ring)⟩
  · unfold interpMaxwellDL maxwellDL
    dsimp only
    rw [hr, hv]
    refine ⟨_, rfl, ?_, ?_, ?_⟩
    · exact he.of_eq (((-1 / (4 * Real.pi) : ℝ) : ℂ) * (1 + k * dist s.global t.global) / ((dist s.global t.global * sumSq (s.global.sub t.global) : ℝ) : ℂ) *
        ((s.global.sub t.global).x : ℂ)) (by ring) (by ring)
    · exact he.of_eq (((-1 / (4 * Real.pi) : ℝ) : ℂ) * (1 + k * dist s.global t.global) / ((dist s.global t.global * sumSq (s.global.sub t.global) : ℝ) : ℂ) *
        ((s.global.sub t.global).y : ℂ)) (by ring) (by ring)
    · exact he.of_eq (((-1 / (4 * Real.pi) : ℝ) : ℂ) * (1 + k * dist s.global t.global) / ((dist s.global t.global * sumSq (s.global.sub t.global) : ℝ) : ℂ) *
        ((s.global.sub t.global).z : ℂ)) (by ring) (by ring)

/-- **C74 (operators)** An operator with an interpolated kernel on grids inside these boxes, two different points of which exist: if
the operator is constructed (the boxes are not shorter than a cell), the exponential at the distance of any two points of the
grids is approximated, without a read outside the table; otherwise the constructor throws. -/
theorem C74_operator (k : ℂ) (p : ℤ) (hp : 0 < p) (l1 u1 l2 u2 : P3 ℝ)
    (hne : 0 < maxDistance l1 u1 l2 u2) :
    (2 * Real.pi ≤ 1.1 * maxDistance l1 u1 l2 u2 * ‖k‖ * p →
      ∃ H, operatorInterpolator k l1 u1 l2 u2 p = .ok H ∧ ∀ x y, InBox l1 u1 x → InBox l2 u2 y →
        ∃ v, H.evaluate (dist x y) = some v ∧
          Approximates ((4 * Real.pi / p) ^ 4 / 384 * Real.exp (4 * Real.pi / p)) (Complex.exp (-k * dist x y)) v) ∧
    (1.1 * maxDistance l1 u1 l2 u2 * ‖k‖ * p < 2 * Real.pi →
      operatorInterpolator k l1 u1 l2 u2 p = .error "at least two points are required") := by
  constructor
  · intro h
    obtain ⟨H, hH, hx⟩ := C74_exponential k (1.1 * maxDistance l1 u1 l2 u2) p (by positivity) hp h
    refine ⟨H, hH, ?_⟩
    intro x y hx1 hy1
    refine hx _ (Real.sqrt_nonneg _) ?_
    have := C74_max_distance l1 u1 l2 u2 x y hx1 hy1
    linarith
  · intro h
    exact C74_counterexample_short k _ p (by positivity) hp.le h

/-- Non-vacuity: the unit cube, wave number 10 i, 100 points per wavelength. -/
example : 0 < maxDistance ⟨0, 0, 0⟩ ⟨1, 1, 1⟩ ⟨0, 0, 0⟩ ⟨1, 1, 1⟩ ∧
    2 * Real.pi ≤ 1.1 * maxDistance ⟨0, 0, 0⟩ ⟨1, 1, 1⟩ ⟨0, 0, 0⟩ ⟨1, 1, 1⟩ * ‖10 * Complex.I‖ * (100 : ℤ) := by
  have h1 : (1 : ℝ) ≤ maxDistance ⟨0, 0, 0⟩ ⟨1, 1, 1⟩ ⟨0, 0, 0⟩ ⟨1, 1, 1⟩ := by
    have := C74_max_distance ⟨0, 0, 0⟩ ⟨1, 1, 1⟩ ⟨0, 0, 0⟩ ⟨1, 1, 1⟩ ⟨0, 0, 0⟩ ⟨1, 0, 0⟩ (by simp [InBox]) (by simp [InBox])
    simpa [dist] using this
  have h2 := Real.pi_le_four
  have h3 : ‖10 * Complex.I‖ = 10 := by simp
  rw [h3]
  constructor
  · linarith
  · push_cast; linarith

end Verif.Kernel
