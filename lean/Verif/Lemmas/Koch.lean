import Verif.Spec.Koch
import Verif.Lemmas.Sierpinski
import Mathlib.Tactic.LinearCombination

/-! # Koch's snowflake -/

noncomputable section

namespace Verif.Shapes

/-! ### chains -/

/-- the sides of the open chain `a, r…, z` -/
def path {α : Type*} (a : α) : List α → α → List (α × α)
  | [], z => [(a, z)]
  | b :: r, z => (a, b) :: path b r z

theorem sides_cons {α : Type*} (a : α) (r : List α) : sides (a :: r) = path a r a := by
  unfold sides
  rw [List.rotate_cons_succ, List.rotate_zero]
  have : ∀ (b z : α) (r : List α), (b :: r).zip (r ++ [z]) = path b r z := by
    intro b z r
    induction r generalizing b with
    | nil => rfl
    | cons c r ih =>
      rw [List.cons_append, List.zip_cons_cons, ih]
      rfl
  exact this a a r

theorem path_append {α : Type*} (a b z : α) (r s : List α) :
    path a (r ++ b :: s) z = path a r b ++ path b s z := by
  induction r generalizing a with
  | nil => rfl
  | cons c r ih =>
    show (a, c) :: path c (r ++ b :: s) z = (a, c) :: path c r b ++ path b s z
    rw [ih]
    rfl

theorem path_map_fst {α : Type*} (a : α) (r : List α) (z : α) :
    (path a r z).map Prod.fst = a :: r := by
  induction r generalizing a with
  | nil => rfl
  | cons b r ih =>
    unfold path
    rw [List.map_cons, ih]

theorem sides_map_fst {α : Type*} (s : List α) : (sides s).map Prod.fst = s := by
  cases s with
  | nil => rfl
  | cons a r => rw [sides_cons, path_map_fst]

theorem path_expand {α β : Type*} (f : (α × α) × β → List α) (r : List α) (a z : α)
    (l : List ((α × α) × β)) (hl : l.map Prod.fst = path a r z) :
    ∃ R, (l.flatMap fun q => q.1.1 :: f q) = a :: R ∧
      path a R z = l.flatMap fun q => path q.1.1 (f q) q.1.2 := by
  induction r generalizing a l with
  | nil =>
    rw [show path a [] z = [(a, z)] from rfl, List.map_eq_singleton_iff] at hl
    obtain ⟨q, rfl, hq⟩ := hl
    · refine ⟨f q, ?_, ?_⟩
      · simp [hq]
      · simp [hq]
  | cons b r ih =>
    match l, hl with
    | q :: l', hl =>
      unfold path at hl
      rw [List.map_cons] at hl
      injection hl with h1 h2
      obtain ⟨R, hR, hp⟩ := ih b l' h2
      refine ⟨f q ++ b :: R, ?_, ?_⟩
      · rw [List.flatMap_cons, hR, h1]
        rfl
      · rw [path_append, hp, List.flatMap_cons, h1]

/-- Replacing every side of a cycle by a chain. -/
theorem sides_expand {α β : Type*} (f : (α × α) × β → List α) (s : List α)
    (l : List ((α × α) × β)) (hl : l.map Prod.fst = sides s) :
    sides (l.flatMap fun q => q.1.1 :: f q) = l.flatMap fun q => path q.1.1 (f q) q.1.2 := by
  cases s with
  | nil =>
    rw [show sides ([] : List α) = [] from rfl, List.map_eq_nil_iff] at hl
    subst hl
    rfl
  | cons a r =>
    rw [sides_cons] at hl
    obtain ⟨R, hR, hp⟩ := path_expand f r a a l hl
    rw [hR, sides_cons, hp]

/-! ### the polygon -/

/-- the four sides that replace a side -/
def koch4 (e : V2 × V2) : List (V2 × V2) :=
  [(e.1, third e.1 e.2), (third e.1 e.2, tip e.1 e.2), (tip e.1 e.2, third e.2 e.1), (third e.2 e.1, e.2)]

theorem sides_koch (n : ℕ) : sides (kochPolygon (n + 1)) = (sides (kochPolygon n)).flatMap koch4 := by
  have := sides_expand (α := V2) (β := Unit) (fun q => [third q.1.1 q.1.2, tip q.1.1 q.1.2, third q.1.2 q.1.1])
    (kochPolygon n) ((sides (kochPolygon n)).map fun e => (e, ())) (by rw [List.map_map]; exact List.map_id _)
  rw [List.flatMap_map, List.flatMap_map] at this
  exact this

/-- `n` replacements of a list of sides -/
def kochIter : ℕ → List (V2 × V2) → List (V2 × V2)
  | 0, l => l
  | n + 1, l => kochIter n (l.flatMap koch4)

theorem kochIter_append (n : ℕ) (l m : List (V2 × V2)) :
    kochIter n (l ++ m) = kochIter n l ++ kochIter n m := by
  induction n generalizing l m with
  | zero => rfl
  | succ n ih =>
    unfold kochIter
    rw [List.flatMap_append, ih]

theorem kochIter_flatMap (n : ℕ) (l : List (V2 × V2)) :
    kochIter n (l.flatMap koch4) = (kochIter n l).flatMap koch4 := by
  induction n generalizing l with
  | zero => rfl
  | succ n ih =>
    unfold kochIter
    rw [ih]

theorem sides_kochPolygon (n : ℕ) : sides (kochPolygon n) = kochIter n (sides (kochPolygon 0)) := by
  induction n with
  | zero => rfl
  | succ n ih =>
    rw [sides_koch, ih, ← kochIter_flatMap]
    rfl

/-! ### the flat triangle over a side -/

/-- `x` is the point with coordinates `s` along and `t` to the right of the side `e` -/
def Coord (e : V2 × V2) (x : V2) (s t : ℝ) : Prop :=
  x 0 = e.1 0 + s * (e.2 0 - e.1 0) + t * (e.2 1 - e.1 1) ∧
  x 1 = e.1 1 + s * (e.2 1 - e.1 1) - t * (e.2 0 - e.1 0)

/-- the triangle over a side, with angles of 30 degrees at its ends -/
def Flat (e : V2 × V2) (x : V2) : Prop :=
  ∃ s t, Coord e x s t ∧ 0 ≤ t ∧ √3 * t ≤ s ∧ √3 * t ≤ 1 - s

theorem coord_unique {e : V2 × V2} (he : e.1 ≠ e.2) {x : V2} {s t s' t' : ℝ} (h : Coord e x s t)
    (h' : Coord e x s' t') : s = s' ∧ t = t' := by
  obtain ⟨h0, h1⟩ := h
  obtain ⟨h0', h1'⟩ := h'
  have hd : 0 < (e.2 0 - e.1 0) ^ 2 + (e.2 1 - e.1 1) ^ 2 := by
    rcases eq_or_ne (e.2 0) (e.1 0) with h | h
    · have h1 : e.2 1 ≠ e.1 1 := by
        intro h1
        apply he
        funext k
        fin_cases k
        · exact h.symm
        · exact h1.symm
      have : 0 < (e.2 1 - e.1 1) ^ 2 := by
        have := sub_ne_zero.2 h1
        positivity
      nlinarith [sq_nonneg (e.2 0 - e.1 0)]
    · have : 0 < (e.2 0 - e.1 0) ^ 2 := by
        have := sub_ne_zero.2 h
        positivity
      nlinarith [sq_nonneg (e.2 1 - e.1 1)]
  generalize e.2 0 - e.1 0 = u at *
  generalize e.2 1 - e.1 1 = v at *
  have e0 : (s - s') * u + (t - t') * v = 0 := by linarith
  have e1 : (s - s') * v - (t - t') * u = 0 := by linarith
  have a : (s - s') * (u ^ 2 + v ^ 2) = 0 := by linear_combination u * e0 + v * e1
  have b : (t - t') * (u ^ 2 + v ^ 2) = 0 := by linear_combination v * e0 - u * e1
  rcases mul_eq_zero.1 a with h | h
  · rcases mul_eq_zero.1 b with h' | h'
    · exact ⟨by linarith, by linarith⟩
    · linarith
  · linarith

/-- coordinates over the four new sides in terms of those over the old one -/
theorem coord_sub (e : V2 × V2) (x : V2) (s t : ℝ) :
    (Coord (e.1, third e.1 e.2) x s t → Coord e x (s / 3) (t / 3)) ∧
    (Coord (third e.1 e.2, tip e.1 e.2) x s t →
      Coord e x (1 / 3 + s / 6 - √3 / 6 * t) (√3 / 6 * s + t / 6)) ∧
    (Coord (tip e.1 e.2, third e.2 e.1) x s t →
      Coord e x (1 / 2 + s / 6 + √3 / 6 * t) (√3 / 6 - √3 / 6 * s + t / 6)) ∧
    (Coord (third e.2 e.1, e.2) x s t → Coord e x (2 / 3 + s / 3) (t / 3)) := by
  unfold Coord third tip
  simp only [Matrix.cons_val_zero, Matrix.cons_val_one]
  refine ⟨?_, ?_, ?_, ?_⟩ <;> rintro ⟨h0, h1⟩ <;> refine ⟨?_, ?_⟩
  all_goals first | (rw [h0]; ring) | (rw [h1]; ring)

theorem flat_sub (e : V2 × V2) (x : V2) :
    (Flat (e.1, third e.1 e.2) x → ∃ s t, Coord e x s t ∧ 0 ≤ t ∧ √3 * t ≤ s ∧ √3 * t ≤ 1 - s ∧
      s ≤ 1 / 3 ∧ (s = 1 / 3 → t = 0)) ∧
    (Flat (third e.1 e.2, tip e.1 e.2) x → ∃ s t, Coord e x s t ∧ 0 ≤ t ∧ √3 * t ≤ s ∧ √3 * t ≤ 1 - s ∧
      1 / 3 ≤ s ∧ s ≤ 1 / 2 ∧ (s = 1 / 2 → t = √3 / 6)) ∧
    (Flat (tip e.1 e.2, third e.2 e.1) x → ∃ s t, Coord e x s t ∧ 0 ≤ t ∧ √3 * t ≤ s ∧ √3 * t ≤ 1 - s ∧
      1 / 2 ≤ s ∧ s ≤ 2 / 3 ∧ (s = 1 / 2 → t = √3 / 6)) ∧
    (Flat (third e.2 e.1, e.2) x → ∃ s t, Coord e x s t ∧ 0 ≤ t ∧ √3 * t ≤ s ∧ √3 * t ≤ 1 - s ∧
      2 / 3 ≤ s ∧ (s = 2 / 3 → t = 0)) := by
  obtain ⟨h3, p3, -, -, -, -⟩ := sqrt_facts
  refine ⟨?_, ?_, ?_, ?_⟩ <;> rintro ⟨s, t, hc, h0, h1, h2⟩
  · have hpos : 0 ≤ √3 * t := mul_nonneg p3.le h0
    refine ⟨_, _, (coord_sub e x s t).1 hc, by linarith, by linarith, by linarith, by linarith, ?_⟩
    intro h
    have : √3 * t ≤ 0 := by linarith
    have ht : t = 0 := by
      have := le_antisymm this hpos
      exact (mul_eq_zero.1 this).resolve_left p3.ne'
    rw [ht, zero_div]
  · have hpos : 0 ≤ √3 * t := mul_nonneg p3.le h0
    have hs : √3 * (√3 / 6 * s + t / 6) = s / 2 + √3 * t / 6 := by linear_combination s / 6 * h3
    refine ⟨_, _, (coord_sub e x s t).2.1 hc, ?_, ?_, ?_, by linarith, by linarith, ?_⟩
    · have : 0 ≤ √3 / 6 * s := mul_nonneg (by positivity) (by linarith)
      linarith
    · rw [hs]; linarith
    · rw [hs]; linarith
    · intro h
      have hs1 : s = 1 := by linarith
      have : √3 * t = 0 := by linarith
      have ht := (mul_eq_zero.1 this).resolve_left p3.ne'
      rw [ht, hs1]
      ring
  · have hpos : 0 ≤ √3 * t := mul_nonneg p3.le h0
    have hs : √3 * (√3 / 6 - √3 / 6 * s + t / 6) = 1 / 2 - s / 2 + √3 * t / 6 := by
      linear_combination (1 - s) / 6 * h3
    refine ⟨_, _, (coord_sub e x s t).2.2.1 hc, ?_, ?_, ?_, by linarith, by linarith, ?_⟩
    · have : 0 ≤ √3 / 6 * (1 - s) := mul_nonneg (by positivity) (by linarith)
      linarith
    · rw [hs]; linarith
    · rw [hs]; linarith
    · intro h
      have hs1 : s = 0 := by linarith
      have : √3 * t = 0 := by linarith
      have ht := (mul_eq_zero.1 this).resolve_left p3.ne'
      rw [ht, hs1]
      ring
  · have hpos : 0 ≤ √3 * t := mul_nonneg p3.le h0
    refine ⟨_, _, (coord_sub e x s t).2.2.2 hc, by linarith, by linarith, by linarith, by linarith, ?_⟩
    intro h
    have : √3 * t ≤ 0 := by linarith
    have ht : t = 0 := by
      have := le_antisymm this hpos
      exact (mul_eq_zero.1 this).resolve_left p3.ne'
    rw [ht, zero_div]

theorem coord_eq {e : V2 × V2} {x y : V2} {s t : ℝ} (h : Coord e x s t) (h' : Coord e y s t) : x = y := by
  funext k
  fin_cases k
  · exact h.1.trans h'.1.symm
  · exact h.2.trans h'.2.symm

theorem coord_ends (e : V2 × V2) : Coord e e.1 0 0 ∧ Coord e (third e.1 e.2) (1 / 3) 0 ∧
    Coord e (tip e.1 e.2) (1 / 2) (√3 / 6) ∧ Coord e (third e.2 e.1) (2 / 3) 0 ∧ Coord e e.2 1 0 := by
  unfold Coord third tip
  simp only [Matrix.cons_val_zero, Matrix.cons_val_one]
  refine ⟨⟨?_, ?_⟩, ⟨?_, ?_⟩, ⟨?_, ?_⟩, ⟨?_, ?_⟩, ⟨?_, ?_⟩⟩ <;> ring

theorem koch4_ne {e : V2 × V2} (he : e.1 ≠ e.2) :
    e.1 ≠ third e.1 e.2 ∧ third e.1 e.2 ≠ tip e.1 e.2 ∧ tip e.1 e.2 ≠ third e.2 e.1 ∧
      third e.2 e.1 ≠ e.2 := by
  obtain ⟨c0, c1, c2, c3, c4⟩ := coord_ends e
  refine ⟨?_, ?_, ?_, ?_⟩ <;> intro h
  · rw [← h] at c1
    have := (coord_unique he c0 c1).1
    norm_num at this
  · rw [← h] at c2
    have := (coord_unique he c1 c2).1
    norm_num at this
  · rw [← h] at c3
    have := (coord_unique he c2 c3).1
    norm_num at this
  · rw [← h] at c4
    have := (coord_unique he c3 c4).1
    norm_num at this

/-! ### the curve over a side -/

/-- a chain of sides over the side `e` that does not meet itself -/
structure Good (l : List (V2 × V2)) (e : V2 × V2) : Prop where
  proper : ∀ f ∈ l, f.1 ≠ f.2
  apart : l.Pairwise fun f g => ∀ x, OnSide x f → OnSide x g → x = f.2 ∧ x = g.1
  inside : ∀ f ∈ l, ∀ x, OnSide x f → Flat e x
  start : ∀ f ∈ l, OnSide e.1 f → f.1 = e.1
  finish : ∀ f ∈ l, OnSide e.2 f → f.2 = e.2

theorem good_zero {e : V2 × V2} (he : e.1 ≠ e.2) : Good [e] e := by
  refine ⟨?_, List.pairwise_singleton _ _, ?_, ?_, ?_⟩
  · intro f hf
    rw [List.mem_singleton.1 hf]
    exact he
  · intro f hf x hx
    rw [List.mem_singleton.1 hf] at hx
    obtain ⟨t, h0, h1, h⟩ := hx
    refine ⟨t, 0, ⟨?_, ?_⟩, le_rfl, by simpa using h0, by simpa using h1⟩
    · rw [h 0]; ring
    · rw [h 1]; ring
  · intro f hf _
    rw [List.mem_singleton.1 hf]
  · intro f hf _
    rw [List.mem_singleton.1 hf]

theorem good_join {e : V2 × V2} (he : e.1 ≠ e.2) {l1 l2 l3 l4 : List (V2 × V2)}
    (g1 : Good l1 (e.1, third e.1 e.2)) (g2 : Good l2 (third e.1 e.2, tip e.1 e.2))
    (g3 : Good l3 (tip e.1 e.2, third e.2 e.1)) (g4 : Good l4 (third e.2 e.1, e.2)) :
    Good (l1 ++ (l2 ++ (l3 ++ l4))) e := by
  obtain ⟨c0, c1, c2, c3, c4⟩ := coord_ends e
  -- what a point on a side of one of the four chains is like
  have i1 : ∀ f ∈ l1, ∀ x, OnSide x f → _ := fun f hf x hx => (flat_sub e x).1 (g1.inside f hf x hx)
  have i2 : ∀ f ∈ l2, ∀ x, OnSide x f → _ := fun f hf x hx => (flat_sub e x).2.1 (g2.inside f hf x hx)
  have i3 : ∀ f ∈ l3, ∀ x, OnSide x f → _ := fun f hf x hx => (flat_sub e x).2.2.1 (g3.inside f hf x hx)
  have i4 : ∀ f ∈ l4, ∀ x, OnSide x f → _ := fun f hf x hx => (flat_sub e x).2.2.2 (g4.inside f hf x hx)
  refine ⟨?_, ?_, ?_, ?_, ?_⟩
  · intro f hf
    simp only [List.mem_append] at hf
    rcases hf with h | h | h | h
    · exact g1.proper f h
    · exact g2.proper f h
    · exact g3.proper f h
    · exact g4.proper f h
  · refine List.pairwise_append.2 ⟨g1.apart, List.pairwise_append.2 ⟨g2.apart,
      List.pairwise_append.2 ⟨g3.apart, g4.apart, ?_⟩, ?_⟩, ?_⟩
    · intro f hf g hg x hx hx'
      obtain ⟨s, t, hc, -, -, -, -, b2, -⟩ := i3 f hf x hx
      obtain ⟨s', t', hc', -, -, -, b1, b3⟩ := i4 g hg x hx'
      obtain ⟨rfl, rfl⟩ := coord_unique he hc hc'
      have hs : s = 2 / 3 := le_antisymm b2 b1
      rw [hs, b3 hs] at hc
      have hx0 : x = third e.2 e.1 := coord_eq hc c3
      subst hx0
      exact ⟨(g3.finish f hf hx).symm, (g4.start g hg hx').symm⟩
    · intro f hf g hg x hx hx'
      obtain ⟨s, t, hc, -, -, -, -, b2, b3⟩ := i2 f hf x hx
      rcases List.mem_append.1 hg with hg | hg
      · obtain ⟨s', t', hc', -, -, -, b1, -, -⟩ := i3 g hg x hx'
        obtain ⟨rfl, rfl⟩ := coord_unique he hc hc'
        have hs : s = 1 / 2 := le_antisymm b2 b1
        rw [hs, b3 hs] at hc
        have hx0 : x = tip e.1 e.2 := coord_eq hc c2
        subst hx0
        exact ⟨(g2.finish f hf hx).symm, (g3.start g hg hx').symm⟩
      · obtain ⟨s', t', hc', -, -, -, b1, -⟩ := i4 g hg x hx'
        obtain ⟨rfl, rfl⟩ := coord_unique he hc hc'
        exfalso
        linarith
    · intro f hf g hg x hx hx'
      obtain ⟨s, t, hc, -, -, -, b2, b3⟩ := i1 f hf x hx
      rcases List.mem_append.1 hg with hg | hg
      · obtain ⟨s', t', hc', -, -, -, b1, -, -⟩ := i2 g hg x hx'
        obtain ⟨rfl, rfl⟩ := coord_unique he hc hc'
        have hs : s = 1 / 3 := le_antisymm b2 b1
        rw [hs, b3 hs] at hc
        have hx0 : x = third e.1 e.2 := coord_eq hc c1
        subst hx0
        exact ⟨(g1.finish f hf hx).symm, (g2.start g hg hx').symm⟩
      · rcases List.mem_append.1 hg with hg | hg
        · obtain ⟨s', t', hc', -, -, -, b1, -, -⟩ := i3 g hg x hx'
          obtain ⟨rfl, rfl⟩ := coord_unique he hc hc'
          exfalso
          linarith
        · obtain ⟨s', t', hc', -, -, -, b1, -⟩ := i4 g hg x hx'
          obtain ⟨rfl, rfl⟩ := coord_unique he hc hc'
          exfalso
          linarith
  · intro f hf x hx
    simp only [List.mem_append] at hf
    rcases hf with h | h | h | h
    · obtain ⟨s, t, hc, h0, h1, h2, -⟩ := i1 f h x hx
      exact ⟨s, t, hc, h0, h1, h2⟩
    · obtain ⟨s, t, hc, h0, h1, h2, -⟩ := i2 f h x hx
      exact ⟨s, t, hc, h0, h1, h2⟩
    · obtain ⟨s, t, hc, h0, h1, h2, -⟩ := i3 f h x hx
      exact ⟨s, t, hc, h0, h1, h2⟩
    · obtain ⟨s, t, hc, h0, h1, h2, -⟩ := i4 f h x hx
      exact ⟨s, t, hc, h0, h1, h2⟩
  · intro f hf hx
    simp only [List.mem_append] at hf
    rcases hf with h | h | h | h
    · exact g1.start f h hx
    · obtain ⟨s, t, hc, -, -, -, b, -⟩ := i2 f h _ hx
      have := (coord_unique he hc c0).1
      linarith
    · obtain ⟨s, t, hc, -, -, -, b, -⟩ := i3 f h _ hx
      have := (coord_unique he hc c0).1
      linarith
    · obtain ⟨s, t, hc, -, -, -, b, -⟩ := i4 f h _ hx
      have := (coord_unique he hc c0).1
      linarith
  · intro f hf hx
    simp only [List.mem_append] at hf
    rcases hf with h | h | h | h
    · obtain ⟨s, t, hc, -, -, -, b, -⟩ := i1 f h _ hx
      have := (coord_unique he hc c4).1
      linarith
    · obtain ⟨s, t, hc, -, -, -, -, b, -⟩ := i2 f h _ hx
      have := (coord_unique he hc c4).1
      linarith
    · obtain ⟨s, t, hc, -, -, -, -, b, -⟩ := i3 f h _ hx
      have := (coord_unique he hc c4).1
      linarith
    · exact g4.finish f h hx

theorem good_iter (n : ℕ) {e : V2 × V2} (he : e.1 ≠ e.2) : Good (kochIter n [e]) e := by
  induction n generalizing e with
  | zero => exact good_zero he
  | succ n ih =>
    have : kochIter (n + 1) [e] = kochIter n [(e.1, third e.1 e.2)] ++
        (kochIter n [(third e.1 e.2, tip e.1 e.2)] ++
        (kochIter n [(tip e.1 e.2, third e.2 e.1)] ++ kochIter n [(third e.2 e.1, e.2)])) := by
      rw [← kochIter_append, ← kochIter_append, ← kochIter_append]
      rfl
    rw [this]
    obtain ⟨n1, n2, n3, n4⟩ := koch4_ne he
    exact good_join he (ih n1) (ih n2) (ih n3) (ih n4)

/-! ### the whole snowflake -/

theorem flat_base {x : V2} :
    (Flat (triangleCorners 0, triangleCorners 1) x → x 1 ≤ 0) ∧
    (Flat (triangleCorners 1, triangleCorners 2) x →
      1 / 2 ≤ x 0 ∧ (x 0 = 1 / 2 → x = triangleCorners 2) ∧ 0 ≤ x 1 ∧ (x 1 = 0 → x = triangleCorners 1)) ∧
    (Flat (triangleCorners 2, triangleCorners 0) x →
      x 0 ≤ 1 / 2 ∧ 0 ≤ x 1 ∧ (x 1 = 0 → x = triangleCorners 0)) := by
  obtain ⟨h3, p3, -, -, -, -⟩ := sqrt_facts
  have t00 : triangleCorners 0 0 = 0 := rfl
  have t01 : triangleCorners 0 1 = 0 := rfl
  have t10 : triangleCorners 1 0 = 1 := rfl
  have t11 : triangleCorners 1 1 = 0 := rfl
  have t20 : triangleCorners 2 0 = 1 / 2 := rfl
  have t21 : triangleCorners 2 1 = √3 / 2 := rfl
  refine ⟨?_, ?_, ?_⟩ <;> rintro ⟨s, t, ⟨e0, e1⟩, h0, h1, h2⟩ <;>
    simp only [t00, t01, t10, t11, t20, t21] at e0 e1
  · linarith
  · have hpos : 0 ≤ √3 * t := mul_nonneg p3.le h0
    have hx0 : x 0 = 1 - s / 2 + √3 * t / 2 := by linarith
    have hx1 : x 1 = √3 * s / 2 + t / 2 := by linarith
    have hs0 : 0 ≤ s := by linarith
    have hps : 0 ≤ √3 * s := mul_nonneg p3.le hs0
    refine ⟨by linarith, ?_, by linarith, ?_⟩
    · intro h
      have hs : s = 1 := by linarith
      have : √3 * t = 0 := by linarith
      have ht := (mul_eq_zero.1 this).resolve_left p3.ne'
      funext k
      fin_cases k
      · exact h
      · show x 1 = √3 / 2
        rw [hx1, hs, ht]
        ring
    · intro h
      have ht : t = 0 := by linarith
      have : √3 * s = 0 := by linarith
      have hs := (mul_eq_zero.1 this).resolve_left p3.ne'
      funext k
      fin_cases k
      · show x 0 = 1
        rw [hx0, hs, ht]
        ring
      · exact h
  · have hpos : 0 ≤ √3 * t := mul_nonneg p3.le h0
    have hx0 : x 0 = 1 / 2 - s / 2 - √3 * t / 2 := by linarith
    have hx1 : x 1 = √3 * (1 - s) / 2 + t / 2 := by linarith
    have hps : 0 ≤ √3 * (1 - s) := mul_nonneg p3.le (by linarith)
    refine ⟨by linarith, by linarith, ?_⟩
    intro h
    have ht : t = 0 := by linarith
    have : √3 * (1 - s) = 0 := by linarith
    have hs := (mul_eq_zero.1 this).resolve_left p3.ne'
    funext k
    fin_cases k
    · show x 0 = 0
      rw [hx0, ht]
      linarith
    · exact h

theorem onSide_fst (e : V2 × V2) : OnSide e.1 e := ⟨0, le_rfl, zero_le_one, fun k => by ring⟩

theorem triangle_ne : triangleCorners 0 ≠ triangleCorners 1 ∧ triangleCorners 1 ≠ triangleCorners 2 ∧
    triangleCorners 2 ≠ triangleCorners 0 := by
  refine ⟨?_, ?_, ?_⟩ <;> intro h <;> have := congrFun h 0
  · have h' : (0 : ℝ) = 1 := this
    norm_num at h'
  · have h' : (1 : ℝ) = 1 / 2 := this
    norm_num at h'
  · have h' : (1 / 2 : ℝ) = 0 := this
    norm_num at h'

theorem koch_apart (n : ℕ) :
    (∀ f ∈ sides (kochPolygon n), f.1 ≠ f.2) ∧
    (sides (kochPolygon n)).Pairwise fun e f => ∀ x, OnSide x e → OnSide x f →
      (x = e.2 ∧ x = f.1) ∨ (x = f.2 ∧ x = e.1) := by
  have hs : sides (kochPolygon n) = kochIter n [(triangleCorners 0, triangleCorners 1)] ++
      (kochIter n [(triangleCorners 1, triangleCorners 2)] ++
        kochIter n [(triangleCorners 2, triangleCorners 0)]) := by
    rw [sides_kochPolygon, ← kochIter_append, ← kochIter_append]
    rfl
  obtain ⟨n1, n2, n3⟩ := triangle_ne
  have g1 := good_iter n (e := (triangleCorners 0, triangleCorners 1)) n1
  have g2 := good_iter n (e := (triangleCorners 1, triangleCorners 2)) n2
  have g3 := good_iter n (e := (triangleCorners 2, triangleCorners 0)) n3
  rw [hs]
  constructor
  · intro f hf
    simp only [List.mem_append] at hf
    rcases hf with h | h | h
    · exact g1.proper f h
    · exact g2.proper f h
    · exact g3.proper f h
  · have w : ∀ {l : List (V2 × V2)} {e}, Good l e → l.Pairwise fun e f => ∀ x, OnSide x e → OnSide x f →
        (x = e.2 ∧ x = f.1) ∨ (x = f.2 ∧ x = e.1) :=
      fun g => g.apart.imp fun h x hx hx' => Or.inl (h x hx hx')
    refine List.pairwise_append.2 ⟨w g1, List.pairwise_append.2 ⟨w g2, w g3, ?_⟩, ?_⟩
    · intro f hf g hg x hx hx'
      obtain ⟨a1, a2, -⟩ := (flat_base (x := x)).2.1 (g2.inside f hf x hx)
      obtain ⟨b1, -⟩ := (flat_base (x := x)).2.2 (g3.inside g hg x hx')
      have hx0 := a2 (le_antisymm b1 a1)
      subst hx0
      exact Or.inl ⟨(g2.finish f hf hx).symm, (g3.start g hg hx').symm⟩
    · intro f hf g hg x hx hx'
      have a := (flat_base (x := x)).1 (g1.inside f hf x hx)
      rcases List.mem_append.1 hg with hg | hg
      · obtain ⟨-, -, b1, b2⟩ := (flat_base (x := x)).2.1 (g2.inside g hg x hx')
        have hx0 := b2 (le_antisymm a b1)
        subst hx0
        exact Or.inl ⟨(g1.finish f hf hx).symm, (g2.start g hg hx').symm⟩
      · obtain ⟨-, b1, b2⟩ := (flat_base (x := x)).2.2 (g3.inside g hg x hx')
        have hx0 := b2 (le_antisymm a b1)
        subst hx0
        exact Or.inr ⟨(g3.finish g hg hx').symm, (g1.start f hf hx).symm⟩

theorem koch_simple (n : ℕ) : SimplePolygon (kochPolygon n) := by
  obtain ⟨hp, ha⟩ := koch_apart n
  refine ⟨?_, ha⟩
  rw [← sides_map_fst (kochPolygon n)]
  unfold List.Nodup
  rw [List.pairwise_map]
  refine List.Pairwise.imp_of_mem ?_ ha
  intro e f he hf h heq
  rcases h e.1 (onSide_fst e) (heq ▸ onSide_fst f) with ⟨h1, -⟩ | ⟨h1, -⟩
  · exact hp e he h1
  · exact hp f hf (heq.symm.trans h1)

end Verif.Shapes
