import Verif.Spec.Menger
import Verif.Model.Menger
import Mathlib.Tactic.FinCases
import Mathlib.Tactic.Ring
import Mathlib.Tactic.Linarith

/-!
# The cells of the Menger sponge and their sides
-/

noncomputable section

namespace Verif.Shapes

theorem sponge_succ (n : ℕ) (x y z : ℤ) : Sponge (n + 1) (x, y, z) ↔ Sponge n (x / 3, y / 3, z / 3) ∧
    ¬(x % 3 = 1 ∧ y % 3 = 1) ∧ ¬(x % 3 = 1 ∧ z % 3 = 1) ∧ ¬(y % 3 = 1 ∧ z % 3 = 1) := Iff.rfl

theorem sponge_zero (x y z : ℤ) : Sponge 0 (x, y, z) ↔ x = 0 ∧ y = 0 ∧ z = 0 := by
  show (x, y, z) = (0, 0, 0) ↔ _
  simp

theorem sponge_swap12 (n : ℕ) : ∀ x y z : ℤ, Sponge n (x, y, z) ↔ Sponge n (y, x, z) := by
  induction n with
  | zero => intro x y z; rw [sponge_zero, sponge_zero]; tauto
  | succ n ih => intro x y z; rw [sponge_succ, sponge_succ, ih]; tauto

theorem sponge_swap23 (n : ℕ) : ∀ x y z : ℤ, Sponge n (x, y, z) ↔ Sponge n (x, z, y) := by
  induction n with
  | zero => intro x y z; rw [sponge_zero, sponge_zero]; tauto
  | succ n ih => intro x y z; rw [sponge_succ, sponge_succ, ih]; tauto

/-- Two cells that touch only in an edge have one of the cells between them in common with the
sponge. -/
theorem no_diagonal (n : ℕ) : ∀ (x y z s t : ℤ), (s = 1 ∨ s = -1) → (t = 1 ∨ t = -1) →
    Sponge n (x, y, z) → Sponge n (x + s, y + t, z) →
    Sponge n (x + s, y, z) ∨ Sponge n (x, y + t, z) := by
  induction n with
  | zero =>
    intro x y z s t hs ht h1 h2
    rw [sponge_zero] at h1 h2
    omega
  | succ n ih =>
    intro x y z s t hs ht h1 h2
    rw [sponge_succ] at h1 h2 ⊢
    rw [sponge_succ]
    obtain ⟨h1, d1⟩ := h1
    obtain ⟨h2, d2⟩ := h2
    have step : ∀ x s : ℤ, (s = 1 ∨ s = -1) →
        ((x + s) / 3 = x / 3 ∧ (x % 3 = 1 ↔ ¬(x + s) % 3 = 1)) ∨
        ((x + s) / 3 = x / 3 + s ∧ ¬x % 3 = 1 ∧ ¬(x + s) % 3 = 1) := by
      intro x s hs
      omega
    have sx := step x s hs
    have sy := step y t ht
    generalize hA : (x % 3 = 1) = A at *
    generalize hA' : ((x + s) % 3 = 1) = A' at *
    generalize hB : (y % 3 = 1) = B at *
    generalize hB' : ((y + t) % 3 = 1) = B' at *
    generalize hC : (z % 3 = 1) = C at *
    clear step
    rcases sx with ⟨ex, hx⟩ | ⟨ex, hx1, hx2⟩ <;>
      rcases sy with ⟨ey, hy⟩ | ⟨ey, hy1, hy2⟩ <;> rw [ex, ey] at h2 <;> rw [ex, ey]
    · simp only [h1, true_and]
      by_cases A <;> by_cases B <;> by_cases C <;> simp_all
    · refine .inr ⟨h2, ?_⟩
      by_cases A <;> by_cases C <;> simp_all
    · refine .inl ⟨h2, ?_⟩
      by_cases B <;> by_cases C <;> simp_all
    · rcases ih (x / 3) (y / 3) (z / 3) s t hs ht h1 h2 with h | h
      · refine .inl ⟨h, ?_⟩
        simp_all
      · refine .inr ⟨h, ?_⟩
        simp_all

/-- The cells of the sponge lie in the cube of `3^n` cells a side. -/
theorem sponge_bounds (n : ℕ) : ∀ x y z : ℤ, Sponge n (x, y, z) →
    (0 ≤ x ∧ x < 3 ^ n) ∧ (0 ≤ y ∧ y < 3 ^ n) ∧ (0 ≤ z ∧ z < 3 ^ n) := by
  induction n with
  | zero => intro x y z h; rw [sponge_zero] at h; simp only [pow_zero]; omega
  | succ n ih =>
    intro x y z h
    have := ih _ _ _ (sponge_succ n x y z |>.1 h).1
    rw [pow_succ]
    generalize (3 : ℤ) ^ n = N at *
    omega

/-- The code's test. -/
theorem isSolid_iff (n : ℕ) (x y z : ℤ) : isSolid n x y z = true ↔ Sponge n (x, y, z) := by
  have key : ∀ n : ℕ, ∀ x y z : ℤ, Sponge n (x, y, z) ↔
      ((0 ≤ x ∧ x < 3 ^ n) ∧ (0 ≤ y ∧ y < 3 ^ n) ∧ (0 ≤ z ∧ z < 3 ^ n)) ∧
      ∀ i < n, ¬(x / 3 ^ i % 3 = 1 ∧ y / 3 ^ i % 3 = 1) ∧ ¬(x / 3 ^ i % 3 = 1 ∧ z / 3 ^ i % 3 = 1) ∧
        ¬(y / 3 ^ i % 3 = 1 ∧ z / 3 ^ i % 3 = 1) := by
    intro n
    induction n with
    | zero => intro x y z; rw [sponge_zero]; simp only [pow_zero]; constructor <;> intro h
              · exact ⟨by omega, fun i hi => by omega⟩
              · omega
    | succ n ih =>
      intro x y z
      rw [sponge_succ, ih]
      have hb : ∀ x : ℤ, (0 ≤ x / 3 ∧ x / 3 < 3 ^ n) ↔ (0 ≤ x ∧ x < 3 ^ (n + 1)) := by
        intro x
        rw [pow_succ]
        generalize (3 : ℤ) ^ n = N
        omega
      rw [hb, hb, hb]
      have hd : ∀ (x : ℤ) (i : ℕ), x / 3 / 3 ^ i = x / 3 ^ (i + 1) := by
        intro x i
        rw [Int.ediv_ediv_of_nonneg (by norm_num), pow_succ, mul_comm]
      simp only [hd]
      constructor
      · rintro ⟨⟨h1, h2⟩, h3⟩
        refine ⟨h1, fun i hi => ?_⟩
        cases i with
        | zero => simpa using h3
        | succ i => exact h2 i (by omega)
      · rintro ⟨h1, h2⟩
        exact ⟨⟨h1, fun i hi => h2 (i + 1) (by omega)⟩, by simpa using h2 0 (by omega)⟩
  rw [key]
  unfold isSolid
  simp only []
  split
  · rename_i h
    simp only [Bool.false_eq_true, false_iff]
    rintro ⟨h1, -⟩
    omega
  · split
    · rename_i h1 h
      simp only [Bool.false_eq_true, false_iff]
      rintro ⟨h2, -⟩
      omega
    · rename_i h1 h2
      rw [List.all_eq_true]
      constructor
      · intro h
        refine ⟨by omega, fun i hi => ?_⟩
        have := h i (List.mem_range.2 hi)
        simp at this
        tauto
      · rintro ⟨-, h⟩ i hi
        have := h i (List.mem_range.1 hi)
        simp
        tauto

/-! ## Sides of cells -/

/-- The corners of the side in direction `f`, in the order of the code. -/
def off : Fin 6 → Fin 4 → Z3 :=
  ![![(0, 0, 0), (0, 1, 0), (0, 1, 1), (0, 0, 1)],
    ![(1, 0, 0), (1, 0, 1), (1, 1, 1), (1, 1, 0)],
    ![(0, 0, 0), (0, 0, 1), (1, 0, 1), (1, 0, 0)],
    ![(0, 1, 0), (1, 1, 0), (1, 1, 1), (0, 1, 1)],
    ![(0, 0, 0), (1, 0, 0), (1, 1, 0), (0, 1, 0)],
    ![(0, 0, 1), (0, 1, 1), (1, 1, 1), (1, 0, 1)]]

/-- The side of the cell `c` in direction `f`, in the order of the code. -/
def square (c : Z3) (f : Fin 6) : List Z3 := [c + off f 0, c + off f 1, c + off f 2, c + off f 3]

theorem mem_sides_square (c : Z3) (f : Fin 6) (e : Z3 × Z3) :
    e ∈ sides (square c f) ↔ ∃ j : Fin 4, e = (c + off f j, c + off f (j + 1)) := by
  show e ∈ [(c + off f 0, c + off f 1), (c + off f 1, c + off f 2), (c + off f 2, c + off f 3),
    (c + off f 3, c + off f 0)] ↔ _
  constructor
  · intro h
    simp only [List.mem_cons, List.not_mem_nil, or_false] at h
    rcases h with h | h | h | h
    · exact ⟨0, h⟩
    · exact ⟨1, h⟩
    · exact ⟨2, h⟩
    · exact ⟨3, h⟩
  · rintro ⟨j, rfl⟩
    fin_cases j <;> simp

theorem off_inj : ∀ f j j', off f j = off f j' → j = j' := by decide +kernel

theorem nodup_sides_square (c : Z3) (f : Fin 6) : (sides (square c f)).Nodup := by
  show List.Nodup [(c + off f 0, c + off f 1), (c + off f 1, c + off f 2), (c + off f 2, c + off f 3),
    (c + off f 3, c + off f 0)]
  have h : ∀ j j' : Fin 4, c + off f j = c + off f j' → j = j' := fun j j' h =>
    off_inj f j j' (add_left_cancel h)
  have hn : ∀ j j' : Fin 4, j ≠ j' → ¬ c + off f j = c + off f j' := fun j j' hj h' => hj (h j j' h')
  simp only [List.nodup_cons, List.mem_cons, List.not_mem_nil, or_false, Prod.mk.injEq, not_or, not_and]
  refine ⟨⟨?_, ?_, ?_⟩, ⟨?_, ?_⟩, ?_, not_false, List.nodup_nil⟩ <;> intro h' <;> exact absurd h' (hn _ _ (by decide))

/-- Different axes. -/
def Across (f g : Fin 6) : Prop := dir f ≠ dir g ∧ dir f ≠ -dir g

instance : DecidableRel Across := fun f g => inferInstanceAs (Decidable (_ ∧ _))

theorem no_diagonal' (n : ℕ) (c : Z3) (f g : Fin 6) (h : Across f g)
    (h1 : Sponge n c) (h2 : Sponge n (c + dir f + dir g)) :
    Sponge n (c + dir f) ∨ Sponge n (c + dir g) := by
  obtain ⟨x, y, z⟩ := c
  have hxy : ∀ s t : ℤ, (s = 1 ∨ s = -1) → (t = 1 ∨ t = -1) → Sponge n (x + s, y + t, z) →
    Sponge n (x + s, y, z) ∨ Sponge n (x, y + t, z) := fun s t hs ht h => no_diagonal n x y z s t hs ht h1 h
  have hyz : ∀ s t : ℤ, (s = 1 ∨ s = -1) → (t = 1 ∨ t = -1) → Sponge n (x, y + s, z + t) →
      Sponge n (x, y + s, z) ∨ Sponge n (x, y, z + t) := by
    intro s t hs ht h
    rw [sponge_swap12, sponge_swap23] at h h1
    have := no_diagonal n y z x s t hs ht h1 h
    rwa [sponge_swap23, sponge_swap12, sponge_swap23 n y, sponge_swap12 n y] at this
  have hxz : ∀ s t : ℤ, (s = 1 ∨ s = -1) → (t = 1 ∨ t = -1) → Sponge n (x + s, y, z + t) →
      Sponge n (x + s, y, z) ∨ Sponge n (x, y, z + t) := by
    intro s t hs ht h
    rw [sponge_swap23] at h h1
    have := no_diagonal n x z y s t hs ht h1 h
    rwa [sponge_swap23, sponge_swap23 n x] at this
  revert h h2
  fin_cases f <;> fin_cases g <;> intro h h2 <;>
    first
    | exact absurd h (by decide)
    | (simp only [dir, Prod.mk_add_mk, Matrix.cons_val, add_zero, Matrix.cons_val_zero, Matrix.cons_val_one,
        Fin.zero_eta, Fin.mk_one, Fin.reduceFinMk] at h2 ⊢
       first
       | exact hxy _ _ (by decide) (by decide) h2
       | exact hyz _ _ (by decide) (by decide) h2
       | exact hxz _ _ (by decide) (by decide) h2
       | exact (hxy _ _ (by decide) (by decide) h2).symm
       | exact (hyz _ _ (by decide) (by decide) h2).symm
       | exact (hxz _ _ (by decide) (by decide) h2).symm)

theorem meet_table : ∀ f j f' j', off f (j + 1) - off f j = off f' (j' + 1) - off f' j' →
    (f = f' ∧ j = j') ∨ off f j - off f' j' = dir f ∨ off f' j' - off f j = dir f' ∨
    ∃ g, Across f g ∧ off f j - off f' j' = dir f + dir g ∧ dir f' = -dir f := by
  decide +kernel

theorem back_table : ∀ f j, ∃ g, Across f g ∧
    (∃ j1, off g j1 = off f (j + 1) ∧ off g (j1 + 1) = off f j) ∧
    (∃ j2, dir g + off f j2 = off f (j + 1) ∧ dir g + off f (j2 + 1) = off f j) ∧
    ∃ g' j3, dir g' = -dir g ∧ dir f + dir g + off g' j3 = off f (j + 1) ∧
      dir f + dir g + off g' (j3 + 1) = off f j := by
  decide +kernel

/-- The side in direction `f` of the cell `c` belongs to the surface of the sponge. -/
def OnSurface (n : ℕ) (b : Z3 × Fin 6) : Prop := Sponge n b.1 ∧ ¬Sponge n (b.1 + dir b.2)

theorem surface_once (n : ℕ) {c c' : Z3} {f f' : Fin 6} {j j' : Fin 4} (h : OnSurface n (c, f))
    (h' : OnSurface n (c', f')) (e1 : c + off f j = c' + off f' j')
    (e2 : c + off f (j + 1) = c' + off f' (j' + 1)) : c = c' ∧ f = f' := by
  have hs : off f (j + 1) - off f j = off f' (j' + 1) - off f' j' := by
    have e : (c + off f (j + 1)) - (c + off f j) = (c' + off f' (j' + 1)) - (c' + off f' j') := by
      rw [e1, e2]
    simpa using e
  have hc : c' - c = off f j - off f' j' := by
    rw [sub_eq_sub_iff_add_eq_add, ← e1]
    abel
  rcases meet_table f j f' j' hs with ⟨rfl, rfl⟩ | h1 | h1 | ⟨g, hg, h1, h2⟩
  · exact ⟨add_right_cancel e1, rfl⟩
  · rw [h1, sub_eq_iff_eq_add'] at hc
    rw [hc] at h'
    exact absurd h'.1 h.2
  · have : c = c' + dir f' := by
      rw [← h1, ← sub_eq_iff_eq_add', ← neg_sub c' c, hc, neg_sub]
    rw [this] at h
    exact absurd h.1 h'.2
  · rw [h1, sub_eq_iff_eq_add', ← add_assoc] at hc
    subst hc
    have h3 := h'.2
    simp only at h3
    rw [h2, show c + dir f + dir g + -dir f = c + dir g by abel] at h3
    rcases no_diagonal' n c f g hg h.1 h'.1 with h4 | h4
    · exact absurd h4 h.2
    · exact absurd h4 h3

theorem surface_back (n : ℕ) {c : Z3} {f : Fin 6} (j : Fin 4) (h : OnSurface n (c, f)) :
    ∃ c' f' j', OnSurface n (c', f') ∧ c' + off f' j' = c + off f (j + 1) ∧
      c' + off f' (j' + 1) = c + off f j := by
  obtain ⟨g, hg, ⟨j1, a1, a2⟩, ⟨j2, b1, b2⟩, g', j3, hg', c1, c2⟩ := back_table f j
  by_cases s1 : Sponge n (c + dir g)
  · by_cases s2 : Sponge n (c + dir f + dir g)
    · refine ⟨c + dir f + dir g, g', j3, ⟨s2, ?_⟩, ?_, ?_⟩
      · show ¬Sponge n (c + dir f + dir g + dir g')
        rw [hg', add_neg_cancel_right]
        exact h.2
      · rw [← c1]; abel
      · rw [← c2]; abel
    · refine ⟨c + dir g, f, j2, ⟨s1, ?_⟩, ?_, ?_⟩
      · show ¬Sponge n (c + dir g + dir f)
        rwa [add_right_comm]
      · rw [← b1]; abel
      · rw [← b2]; abel
  · exact ⟨c, g, j1, ⟨h.1, s1⟩, by rw [a1], by rw [a2]⟩

theorem closed_squares (n : ℕ) (bs : List (Z3 × Fin 6)) (hn : bs.Nodup)
    (hb : ∀ b, b ∈ bs ↔ OnSurface n b) : ClosedSurface (bs.map fun b => square b.1 b.2) := by
  constructor
  · rw [List.flatMap_map, List.nodup_flatMap]
    refine ⟨fun b _ => nodup_sides_square _ _, ?_⟩
    refine (hn.pairwise_of_forall_ne (r := fun b b' => (sides (square b.1 b.2)).Disjoint
      (sides (square b'.1 b'.2))) ?_)
    intro b h b' h' hne e he he'
    obtain ⟨j, hj⟩ := (mem_sides_square _ _ _).1 he
    obtain ⟨j', hj'⟩ := (mem_sides_square _ _ _).1 he'
    rw [hj, Prod.mk.injEq] at hj'
    obtain ⟨r1, r2⟩ := surface_once n ((hb b).1 h) ((hb b').1 h') hj'.1 hj'.2
    exact hne (Prod.ext r1 r2)
  · intro e he
    rw [List.flatMap_map, List.mem_flatMap] at he ⊢
    obtain ⟨b, h, he⟩ := he
    obtain ⟨j, hj⟩ := (mem_sides_square _ _ _).1 he
    obtain ⟨c', f', j', h1, h2, h3⟩ := surface_back n j ((hb b).1 h)
    refine ⟨(c', f'), (hb _).2 h1, (mem_sides_square _ _ _).2 ⟨j', ?_⟩⟩
    rw [hj]
    simp only [Prod.swap]
    rw [h2, h3]

theorem square_isSide (c : Z3) (f : Fin 6) : IsSide c (dir f) (square c f) := by
  have hoff : ∀ f (p : Z3), (CornerOf p (0, 0, 0) ∧ CornerOf p (dir f)) ↔
      p = off f 0 ∨ p = off f 1 ∨ p = off f 2 ∨ p = off f 3 := by
    intro f p
    obtain ⟨x, y, z⟩ := p
    fin_cases f
    · show (CornerOf (x, y, z) (0, 0, 0) ∧ CornerOf (x, y, z) ((-1, 0, 0) : Z3)) ↔ (x, y, z) = ((0, 0, 0) : Z3) ∨
        (x, y, z) = ((0, 1, 0) : Z3) ∨ (x, y, z) = ((0, 1, 1) : Z3) ∨ (x, y, z) = ((0, 0, 1) : Z3)
      simp only [CornerOf, Prod.mk.injEq]
      omega
    · show (CornerOf (x, y, z) (0, 0, 0) ∧ CornerOf (x, y, z) ((1, 0, 0) : Z3)) ↔ (x, y, z) = ((1, 0, 0) : Z3) ∨
        (x, y, z) = ((1, 0, 1) : Z3) ∨ (x, y, z) = ((1, 1, 1) : Z3) ∨ (x, y, z) = ((1, 1, 0) : Z3)
      simp only [CornerOf, Prod.mk.injEq]
      omega
    · show (CornerOf (x, y, z) (0, 0, 0) ∧ CornerOf (x, y, z) ((0, -1, 0) : Z3)) ↔ (x, y, z) = ((0, 0, 0) : Z3) ∨
        (x, y, z) = ((0, 0, 1) : Z3) ∨ (x, y, z) = ((1, 0, 1) : Z3) ∨ (x, y, z) = ((1, 0, 0) : Z3)
      simp only [CornerOf, Prod.mk.injEq]
      omega
    · show (CornerOf (x, y, z) (0, 0, 0) ∧ CornerOf (x, y, z) ((0, 1, 0) : Z3)) ↔ (x, y, z) = ((0, 1, 0) : Z3) ∨
        (x, y, z) = ((1, 1, 0) : Z3) ∨ (x, y, z) = ((1, 1, 1) : Z3) ∨ (x, y, z) = ((0, 1, 1) : Z3)
      simp only [CornerOf, Prod.mk.injEq]
      omega
    · show (CornerOf (x, y, z) (0, 0, 0) ∧ CornerOf (x, y, z) ((0, 0, -1) : Z3)) ↔ (x, y, z) = ((0, 0, 0) : Z3) ∨
        (x, y, z) = ((1, 0, 0) : Z3) ∨ (x, y, z) = ((1, 1, 0) : Z3) ∨ (x, y, z) = ((0, 1, 0) : Z3)
      simp only [CornerOf, Prod.mk.injEq]
      omega
    · show (CornerOf (x, y, z) (0, 0, 0) ∧ CornerOf (x, y, z) ((0, 0, 1) : Z3)) ↔ (x, y, z) = ((0, 0, 1) : Z3) ∨
        (x, y, z) = ((0, 1, 1) : Z3) ∨ (x, y, z) = ((1, 1, 1) : Z3) ∨ (x, y, z) = ((1, 0, 1) : Z3)
      simp only [CornerOf, Prod.mk.injEq]
      omega
  have hstep : ∀ f j, ∃ g, off f (j + 1) = off f j + dir g := by decide +kernel
  refine ⟨rfl, ?_, fun p => ?_, fun e he => ?_⟩
  · have hn : ∀ j j' : Fin 4, j ≠ j' → ¬ c + off f j = c + off f j' := fun j j' hj h' =>
      hj (off_inj f j j' (add_left_cancel h'))
    simp [square, hn, -add_right_inj]
  · have hs : ∀ q d : Z3, CornerOf (c + q) (c + d) ↔ CornerOf q d := by
      intro q d
      unfold CornerOf
      simp only [Prod.fst_add, Prod.snd_add]
      omega
    obtain ⟨q, rfl⟩ : ∃ q, p = c + q := ⟨p - c, by abel⟩
    have h0 := hs q (0, 0, 0)
    rw [show c + ((0, 0, 0) : Z3) = c from add_zero c] at h0
    rw [h0, hs, hoff]
    simp [square]
  · obtain ⟨j, rfl⟩ := (mem_sides_square _ _ _).1 he
    obtain ⟨g, hg⟩ := hstep f j
    exact ⟨g, by simp only [hg, add_assoc]⟩

end Verif.Shapes
