import Verif.Lemmas.DuffyRemap
import Mathlib.Algebra.BigOperators.Group.Finset.Basic
/-
The loops that fill the quadrature points and weights.
-/
namespace Verif.Quad

/-- The column that one iteration writes. -/
def colOf (n : Nat) (it : Nat × Nat × Nat) : Nat := it.2.1 + it.2.2 * n + it.1 * n * n

theorem mem_iterations {R n : Nat} {it : Nat × Nat × Nat} :
    it ∈ iterations R n ↔ it.1 < R ∧ it.2.1 < n ∧ it.2.2 < n := by
  obtain ⟨r, i, j⟩ := it
  simp [iterations]

theorem colOf_inj {n r i j r' i' j' : Nat} (hi : i < n) (hj : j < n) (hi' : i' < n) (hj' : j' < n)
    (h : i + j * n + r * n * n = i' + j' * n + r' * n * n) : r = r' ∧ i = i' ∧ j = j' := by
  have e1 : i + n * (j + n * r) = i' + n * (j' + n * r') := by
    rw [show i + n * (j + n * r) = i + j * n + r * n * n by ring,
      show i' + n * (j' + n * r') = i' + j' * n + r' * n * n by ring, h]
  have a1 : i = i' := by
    have := congrArg (· % n) e1
    simpa [Nat.add_mul_mod_self_left, Nat.mod_eq_of_lt hi, Nat.mod_eq_of_lt hi'] using this
  have hn : 0 < n := by omega
  have e2 : j + n * r = j' + n * r' := by
    have : n * (j + n * r) = n * (j' + n * r') := by omega
    exact Nat.eq_of_mul_eq_mul_left hn this
  have a2 : j = j' := by
    have := congrArg (· % n) e2
    simpa [Nat.add_mul_mod_self_left, Nat.mod_eq_of_lt hj, Nat.mod_eq_of_lt hj'] using this
  refine ⟨?_, a1, a2⟩
  have : n * r = n * r' := by omega
  exact Nat.eq_of_mul_eq_mul_left hn this

section
variable {K : Type} [Ring K]

/-- The values that an iteration writes. -/
def Written (c : Config) (rule : Rule K) (r i j : Nat) (s : Points K) (k : Nat) : Prop :=
  ∀ p, (c.samples (rule.point i).1 (rule.point i).2 (rule.point j).1 (rule.point j).2)[r]? = some p →
    s.test k = toDune (p.x0, p.x1) ∧ s.trial k = toDune (p.y0, p.y1) ∧
      s.weight k = p.w * rule.weight i * rule.weight j

theorem fillStep_at (c : Config) (rule : Rule K) (s : Points K) (r i j : Nat) :
    Written c rule r i j (fillStep c rule s (r, i, j)) (i + j * rule.n + r * rule.n * rule.n) := by
  intro p hp
  simp [fillStep, hp]

theorem fillStep_ne (c : Config) (rule : Rule K) (s : Points K) (r i j k : Nat)
    (h : k ≠ i + j * rule.n + r * rule.n * rule.n) :
    (fillStep c rule s (r, i, j)).test k = s.test k ∧ (fillStep c rule s (r, i, j)).trial k = s.trial k ∧
      (fillStep c rule s (r, i, j)).weight k = s.weight k := by
  unfold fillStep
  simp only
  split
  · exact ⟨rfl, rfl, rfl⟩
  · simp [Function.update_of_ne h]

theorem foldl_written (c : Config) (rule : Rule K) (l : List (Nat × Nat × Nat))
    (hl : ∀ it ∈ l, it.2.1 < rule.n ∧ it.2.2 < rule.n) (s : Points K) (r i j : Nat) (hi : i < rule.n) (hj : j < rule.n)
    (h : (r, i, j) ∈ l ∨ Written c rule r i j s (i + j * rule.n + r * rule.n * rule.n)) :
    Written c rule r i j (l.foldl (fillStep c rule) s) (i + j * rule.n + r * rule.n * rule.n) := by
  induction l generalizing s with
  | nil => simpa using h
  | cons a l ih =>
    obtain ⟨r', i', j'⟩ := a
    rw [List.foldl_cons]
    apply ih (fun it h => hl it (List.mem_cons_of_mem _ h))
    obtain ⟨hi', hj'⟩ := hl _ List.mem_cons_self
    by_cases e : (r, i, j) = (r', i', j')
    · right
      cases e
      exact fillStep_at c rule s r i j
    · rcases h with h | h
      · left
        rcases List.mem_cons.mp h with h | h
        · exact absurd h e
        · exact h
      · right
        have ne : i + j * rule.n + r * rule.n * rule.n ≠ i' + j' * rule.n + r' * rule.n * rule.n := by
          intro he
          obtain ⟨rfl, rfl, rfl⟩ := colOf_inj hi hj hi' hj' he
          exact e rfl
        obtain ⟨h1, h2, h3⟩ := fillStep_ne c rule s r' i' j' _ ne
        intro p hp
        rw [h1, h2, h3]
        exact h p hp

theorem fillSingular_at (c : Config) (rule : Rule K) (r i j : Nat) (hr : r < c.numRegions) (hi : i < rule.n)
    (hj : j < rule.n) (p : Sample K)
    (hp : (c.samples (rule.point i).1 (rule.point i).2 (rule.point j).1 (rule.point j).2)[r]? = some p) :
    (fillSingular c rule).test (i + j * rule.n + r * rule.n * rule.n) = c.remapTest (toDune (p.x0, p.x1)) ∧
    (fillSingular c rule).trial (i + j * rule.n + r * rule.n * rule.n) = c.remapTrial (toDune (p.y0, p.y1)) ∧
    (fillSingular c rule).weight (i + j * rule.n + r * rule.n * rule.n) = p.w * rule.weight i * rule.weight j := by
  have := foldl_written c rule (iterations c.numRegions rule.n) (fun it h => (mem_iterations.mp h).2)
    ⟨fun _ => (0, 0), fun _ => (0, 0), fun _ => 0⟩ r i j hi hj (Or.inl (mem_iterations.mpr ⟨hr, hi, hj⟩)) p hp
  obtain ⟨h1, h2, h3⟩ := this
  exact ⟨congrArg c.remapTest h1, congrArg c.remapTrial h2, h3⟩

end

theorem col_decomp {R n col : Nat} (h : col < R * n * n) :
    ∃ r i j, r < R ∧ i < n ∧ j < n ∧ col = i + j * n + r * n * n := by
  have hn : 0 < n := by
    rcases Nat.eq_zero_or_pos n with h0 | h0
    · subst h0; simp at h
    · exact h0
  refine ⟨col / n / n, col % n, col / n % n, ?_, Nat.mod_lt _ hn, Nat.mod_lt _ hn, ?_⟩
  · rw [Nat.div_lt_iff_lt_mul hn, Nat.div_lt_iff_lt_mul hn]; exact h
  · have e1 := Nat.mod_add_div col n
    have e2 := Nat.mod_add_div (col / n) n
    calc col = col % n + n * (col / n) := e1.symm
      _ = col % n + n * (col / n % n + n * (col / n / n)) := by rw [e2]
      _ = _ := by ring

theorem sum_range_mul' {M : Type} [AddCommMonoid M] (R m : Nat) (g : Nat → M) :
    ∑ k ∈ Finset.range (R * m), g k = ∑ r ∈ Finset.range R, ∑ k ∈ Finset.range m, g (k + r * m) := by
  induction R with
  | zero => simp
  | succ R ih =>
    rw [Nat.succ_mul, Finset.sum_range_add, ih, Finset.sum_range_succ]
    congr 1
    exact Finset.sum_congr rfl fun k _ => by rw [Nat.add_comm]

theorem sum_cols {M : Type} [AddCommMonoid M] (R n : Nat) (g : Nat → M) :
    ∑ k ∈ Finset.range (R * n * n), g k =
      ∑ r ∈ Finset.range R, ∑ i ∈ Finset.range n, ∑ j ∈ Finset.range n, g (i + j * n + r * n * n) := by
  rw [Nat.mul_assoc, sum_range_mul']
  refine Finset.sum_congr rfl fun r _ => ?_
  rw [sum_range_mul', Finset.sum_comm]
  refine Finset.sum_congr rfl fun i _ => Finset.sum_congr rfl fun j _ => ?_
  rw [Nat.mul_assoc]

end Verif.Quad
