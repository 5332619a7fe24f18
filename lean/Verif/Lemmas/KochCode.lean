import Verif.Lemmas.Koch
import Mathlib.Data.List.Perm.Lattice
import Mathlib.Data.List.Flatten

/-! # What the loops of `koch_snowflake` produce -/

noncomputable section

namespace Verif.Shapes

theorem kochPoints_eq (p q : V2) : kochPoints p q = [third p q, tip p q, third q p] := by
  unfold kochPoints third tip
  dsimp only
  congr 1
  congr 1
  · funext k
    fin_cases k
    · show p 0 + (q 0 - p 0) / 2 - √3 / 6 * (-(q 1 - p 1)) = (p 0 + q 0) / 2 + √3 / 6 * (q 1 - p 1)
      ring
    · show p 1 + (q 1 - p 1) / 2 - √3 / 6 * (q 0 - p 0) = (p 1 + q 1) / 2 - √3 / 6 * (q 0 - p 0)
      ring
  · congr 1
    funext k
    ring

theorem sides_map {α β : Type*} (f : α → β) (s : List α) :
    sides (s.map f) = (sides s).map fun e => (f e.1, f e.2) := by
  unfold sides
  rw [← List.map_rotate, List.zip_map]
  rfl

theorem mem_sides {α : Type*} {s : List α} {e : α × α} (h : e ∈ sides s) : e.1 ∈ s ∧ e.2 ∈ s := by
  have h1 := List.of_mem_zip (a := e.1) (b := e.2) h
  exact ⟨h1.1, List.mem_rotate.1 h1.2⟩

theorem sides_ne {α : Type*} {s : List α} (hn : s.Nodup) (hl : 2 ≤ s.length) {e : α × α}
    (h : e ∈ sides s) : e.1 ≠ e.2 := by
  obtain ⟨i, hi, rfl⟩ := List.mem_iff_getElem.1 h
  unfold sides at hi ⊢
  rw [List.getElem_zip]
  dsimp only
  rw [List.getElem_rotate]
  have hi' : i < s.length := by
    rw [List.length_zip, List.length_rotate, min_self] at hi
    exact hi
  intro heq
  have := (List.Nodup.getElem_inj_iff hn).1 heq
  rcases Nat.lt_or_ge (i + 1) s.length with h1 | h1
  · rw [Nat.mod_eq_of_lt h1] at this
    omega
  · have h2 : i + 1 = s.length := by omega
    rw [h2, Nat.mod_self] at this
    omega

theorem length_sides {α : Type*} (s : List α) : (sides s).length = s.length := by
  unfold sides
  rw [List.length_zip, List.length_rotate, min_self]

theorem blocks3 {α γ : Type*} (l : List γ) (A B C : γ → α) (i : ℕ) (c : γ) (h : l[i]? = some c) :
    (l.flatMap fun c => [A c, B c, C c])[3 * i]? = some (A c) ∧
    (l.flatMap fun c => [A c, B c, C c])[3 * i + 1]? = some (B c) ∧
    (l.flatMap fun c => [A c, B c, C c])[3 * i + 2]? = some (C c) := by
  induction l generalizing i with
  | nil => simp at h
  | cons d l ih =>
    cases i with
    | zero =>
      rw [List.getElem?_cons_zero] at h
      injection h with h
      subst h
      exact ⟨rfl, rfl, rfl⟩
    | succ i =>
      rw [List.getElem?_cons_succ] at h
      obtain ⟨h0, h1, h2⟩ := ih i h
      rw [List.flatMap_cons]
      refine ⟨?_, ?_, ?_⟩
      · rw [List.getElem?_append_right (by rw [show [A d, B d, C d].length = 3 from rfl]; omega)]
        rw [show 3 * (i + 1) - [A d, B d, C d].length = 3 * i by
          rw [show [A d, B d, C d].length = 3 from rfl]; omega]
        exact h0
      · rw [List.getElem?_append_right (by rw [show [A d, B d, C d].length = 3 from rfl]; omega)]
        rw [show 3 * (i + 1) + 1 - [A d, B d, C d].length = 3 * i + 1 by
          rw [show [A d, B d, C d].length = 3 from rfl]; omega]
        exact h1
      · rw [List.getElem?_append_right (by rw [show [A d, B d, C d].length = 3 from rfl]; omega)]
        rw [show 3 * (i + 1) + 2 - [A d, B d, C d].length = 3 * i + 2 by
          rw [show [A d, B d, C d].length = 3 from rfl]; omega]
        exact h2

/-- the position of a point -/
def posOf (ps : List V2) (i : ℕ) : V2 := ps.getD i 0

theorem pget_posOf {ps : List V2} {i : ℕ} (more : List V2) (h : i < ps.length) :
    pget (ps ++ more) i = .ok (posOf ps i) := by
  unfold pget posOf
  rw [List.getElem?_append_left h, List.getElem?_eq_getElem h]
  dsimp only
  rw [List.getD_eq_getElem?_getD, List.getElem?_eq_getElem h]
  rfl

theorem kochAll_spec (ps : List V2) (rest : List (ℕ × ℕ)) (done : List V2) (k : ℕ)
    (hk : done.length = 3 * k) (hr : ∀ l ∈ rest, l.1 < ps.length ∧ l.2 < ps.length) :
    kochAll rest (ps ++ done) = .ok
      ((rest.zipIdx k).flatMap fun q => path q.1.1
          ((List.range 3).map fun j => ps.length + 3 * q.2 + j) q.1.2,
        ps ++ done ++ rest.flatMap fun l => [third (posOf ps l.1) (posOf ps l.2),
          tip (posOf ps l.1) (posOf ps l.2), third (posOf ps l.2) (posOf ps l.1)]) := by
  induction rest generalizing done k with
  | nil =>
    unfold kochAll
    simp
  | cons l rest ih =>
    obtain ⟨h1, h2⟩ := hr l (List.mem_cons_self ..)
    unfold kochAll
    dsimp only
    rw [pget_posOf done h1, pget_posOf done h2]
    simp only [Except.bind]
    rw [List.append_assoc, kochPoints_eq, ih _ (k + 1) (by rw [List.length_append, hk]; simp; omega)
      (fun l hl => hr l (List.mem_cons_of_mem _ hl))]
    dsimp only
    rw [List.zipIdx_cons, List.flatMap_cons, List.flatMap_cons, List.length_append, hk]
    simp only [List.append_assoc]
    rfl

/-- The state after `n` rounds. -/
structure KochLevel (n : ℕ) (ps : List V2) (ls : List (ℕ × ℕ)) (s : List ℕ) : Prop where
  lines : ls = sides s
  perm : s.Perm (List.range ps.length)
  length : ps.length = 3 * 4 ^ n
  pos : s.map (posOf ps) = kochPolygon n

theorem kochLevel_zero : KochLevel 0 triangleBase [(0, 1), (1, 2), (2, 0)] [0, 1, 2] := by
  refine ⟨rfl, List.Perm.refl _, rfl, ?_⟩
  rw [triangleBase_eq]
  rfl

theorem KochLevel.next {n : ℕ} {ps : List V2} {ls : List (ℕ × ℕ)} {s : List ℕ}
    (L : KochLevel n ps ls s) :
    ∃ ps' ls' s', kochAll ls ps = .ok (ls', ps') ∧ KochLevel (n + 1) ps' ls' s' := by
  have hmem : ∀ i ∈ s, i < ps.length := fun i hi => List.mem_range.1 (L.perm.mem_iff.1 hi)
  have hlt : ∀ l ∈ ls, l.1 < ps.length ∧ l.2 < ps.length := by
    intro l hl
    rw [L.lines] at hl
    obtain ⟨h1, h2⟩ := mem_sides hl
    exact ⟨hmem _ h1, hmem _ h2⟩
  have hslen : s.length = ps.length := by rw [L.perm.length_eq, List.length_range]
  have hllen : ls.length = ps.length := by rw [L.lines, length_sides, hslen]
  have hrun := kochAll_spec ps ls [] 0 rfl hlt
  rw [List.append_nil] at hrun
  set N : List V2 := ls.flatMap fun l => [third (posOf ps l.1) (posOf ps l.2),
          tip (posOf ps l.1) (posOf ps l.2), third (posOf ps l.2) (posOf ps l.1)] with hN
  have hNlen : N.length = 3 * ls.length := by
    rw [hN, List.length_flatMap]
    simp only [List.length_cons, List.length_nil]
    rw [List.map_const', List.sum_replicate, smul_eq_mul, mul_comm]
  set new : (ℕ × ℕ) × ℕ → List ℕ := fun q => (List.range 3).map fun j => ps.length + 3 * q.2 + j with hnew
  refine ⟨ps ++ N, _, ls.zipIdx.flatMap fun q => q.1.1 :: new q, hrun, ?_, ?_, ?_, ?_⟩
  · exact (sides_expand new s ls.zipIdx (by rw [List.zipIdx_map_fst, L.lines])).symm
  · refine (List.map_append_flatMap_perm ls.zipIdx (fun q => q.1.1) new).symm.trans ?_
    have h1 : ls.zipIdx.map (fun q => q.1.1) = s := by
      have : ls.zipIdx.map (fun q => q.1.1) = (ls.zipIdx.map Prod.fst).map Prod.fst := by
        rw [List.map_map]
        rfl
      rw [this, List.zipIdx_map_fst, L.lines, sides_map_fst]
    have h2 : ls.zipIdx.flatMap new = List.range' ps.length (3 * ps.length) := by
      have := block_numbers ls 3 ps.length 0
      rw [hllen] at this
      exact this
    rw [h1, h2, List.length_append, hNlen, hllen]
    refine (L.perm.append_right _).trans ?_
    rw [List.range_eq_range', List.range_eq_range']
    have := List.range'_append_1 (s := 0) (m := ps.length) (n := 3 * ps.length)
    rw [Nat.zero_add] at this
    rw [this]
  · rw [List.length_append, hNlen, hllen, L.length, pow_succ]
    ring
  · have hpoly : kochPolygon (n + 1) = ls.flatMap fun l => [posOf ps l.1,
        third (posOf ps l.1) (posOf ps l.2), tip (posOf ps l.1) (posOf ps l.2),
        third (posOf ps l.2) (posOf ps l.1)] := by
      show (sides (kochPolygon n)).flatMap _ = _
      rw [← L.pos, sides_map, List.flatMap_map, L.lines]
    rw [hpoly, ← zipIdx_flatMap_fst ls 0, List.map_flatMap]
    refine List.flatMap_congr fun q hq => ?_
    obtain ⟨l, i⟩ := q
    have hi : ls[i]? = some l := (List.mk_mem_zipIdx_iff_getElem?).1 hq
    have hl : l ∈ ls := List.mem_of_getElem? hi
    obtain ⟨b0, b1, b2⟩ := blocks3 ls (fun l => third (posOf ps l.1) (posOf ps l.2))
      (fun l => tip (posOf ps l.1) (posOf ps l.2)) (fun l => third (posOf ps l.2) (posOf ps l.1)) i l hi
    have old : posOf (ps ++ N) l.1 = posOf ps l.1 := by
      unfold posOf
      rw [List.getD_eq_getElem?_getD, List.getElem?_append_left (hlt l hl).1, ← List.getD_eq_getElem?_getD]
    have nw : ∀ j v, N[3 * i + j]? = some v → posOf (ps ++ N) (ps.length + 3 * i + j) = v := by
      intro j v hv
      unfold posOf
      rw [List.getD_eq_getElem?_getD, List.getElem?_append_right (by omega),
        show ps.length + 3 * i + j - ps.length = 3 * i + j by omega, hv]
      rfl
    show [posOf (ps ++ N) l.1, posOf (ps ++ N) (ps.length + 3 * i + 0),
      posOf (ps ++ N) (ps.length + 3 * i + 1), posOf (ps ++ N) (ps.length + 3 * i + 2)] = _
    rw [old, nw 0 _ b0, nw 1 _ b1, nw 2 _ b2]

theorem kochLevels_spec (k : ℕ) {n : ℕ} {ps : List V2} {ls : List (ℕ × ℕ)} {s : List ℕ}
    (L : KochLevel n ps ls s) :
    ∃ ps' ls' s', kochLevels k (ps, ls) = .ok (ps', ls') ∧ KochLevel (n + k) ps' ls' s' := by
  induction k generalizing n ps ls s with
  | zero => exact ⟨ps, ls, s, rfl, L⟩
  | succ k ih =>
    obtain ⟨ps1, ls1, s1, h1, L1⟩ := L.next
    obtain ⟨ps2, ls2, s2, h2, L2⟩ := ih L1
    refine ⟨ps2, ls2, s2, ?_, ?_⟩
    · unfold kochLevels
      rw [h1]
      exact h2
    · rw [show n + (k + 1) = n + 1 + k by omega]
      exact L2

/-! ### area and lengths -/

theorem koch_lengths (n : ℕ) : ∀ e ∈ sides (kochPolygon n), dist2 e.1 e.2 = (1 / 9) ^ n := by
  obtain ⟨h3, p3, -, -, -, -⟩ := sqrt_facts
  induction n with
  | zero =>
    intro e he
    have : sides (kochPolygon 0) = [(triangleCorners 0, triangleCorners 1),
      (triangleCorners 1, triangleCorners 2), (triangleCorners 2, triangleCorners 0)] := rfl
    rw [this] at he
    simp only [List.mem_cons, List.not_mem_nil, or_false] at he
    unfold dist2
    rcases he with rfl | rfl | rfl
    · show ((0 : ℝ) - 1) ^ 2 + (0 - 0) ^ 2 = _
      norm_num
    · show ((1 : ℝ) - 1 / 2) ^ 2 + (0 - √3 / 2) ^ 2 = _
      rw [pow_zero]
      linear_combination h3 / 4
    · show ((1 / 2 : ℝ) - 0) ^ 2 + (√3 / 2 - 0) ^ 2 = _
      rw [pow_zero]
      linear_combination h3 / 4
  | succ n ih =>
    intro e he
    rw [sides_koch] at he
    obtain ⟨f, hf, he⟩ := List.mem_flatMap.1 he
    have hd := ih f hf
    unfold dist2 at *
    rw [show ((1 : ℝ) / 9) ^ (n + 1) = (1 / 9) ^ n * (1 / 9) from pow_succ _ _, ← hd]
    simp only [koch4, List.mem_cons, List.not_mem_nil, or_false] at he
    rcases he with rfl | rfl | rfl | rfl <;>
      simp only [third, tip, Matrix.cons_val_zero, Matrix.cons_val_one]
    · ring
    · linear_combination ((f.1 0 - f.2 0) ^ 2 + (f.1 1 - f.2 1) ^ 2) / 36 * h3
    · linear_combination ((f.1 0 - f.2 0) ^ 2 + (f.1 1 - f.2 1) ^ 2) / 36 * h3
    · ring

theorem koch_length (n : ℕ) : (kochPolygon n).length = 3 * 4 ^ n := by
  induction n with
  | zero => rfl
  | succ n ih =>
    unfold kochPolygon
    rw [List.length_flatMap]
    simp only [List.length_cons, List.length_nil]
    rw [List.map_const', List.sum_replicate, length_sides, ih, smul_eq_mul, pow_succ]
    ring

theorem koch_area (n : ℕ) : signedArea (kochPolygon n) = √3 / 20 * (8 - 3 * (4 / 9) ^ n) := by
  obtain ⟨h3, p3, -, -, -, -⟩ := sqrt_facts
  induction n with
  | zero =>
    show (((0 : ℝ) * 0 - 0 * 1) / 2) + ((1 * (√3 / 2) - 0 * (1 / 2)) / 2 + ((1 / 2 * 0 - √3 / 2 * 0) / 2 + 0)) = _
    ring
  | succ n ih =>
    have step : ∀ l : List (V2 × V2), (∀ e ∈ l, dist2 e.1 e.2 = (1 / 9) ^ n) →
        ((l.flatMap koch4).map fun e => (e.1 0 * e.2 1 - e.1 1 * e.2 0) / 2).sum
        = (l.map fun e => (e.1 0 * e.2 1 - e.1 1 * e.2 0) / 2).sum
          + l.length * (√3 / 36 * (1 / 9) ^ n) := by
      intro l
      induction l with
      | nil => intro _; simp
      | cons e l ihl =>
        intro h
        rw [List.flatMap_cons, List.map_append, List.sum_append, ihl (fun e he => h e (List.mem_cons_of_mem _ he)),
          List.map_cons, List.sum_cons, List.length_cons, ← h e (List.mem_cons_self ..)]
        unfold dist2 koch4
        simp only [List.map_cons, List.map_nil, List.sum_cons, List.sum_nil, third, tip,
          Matrix.cons_val_zero, Matrix.cons_val_one]
        push_cast
        ring
    unfold signedArea at *
    rw [sides_koch, step _ (koch_lengths n), ih, length_sides, koch_length]
    push_cast
    have : ((4 : ℝ) ^ n) * (1 / 9) ^ n = (4 / 9) ^ n := by
      rw [← mul_pow]
      norm_num
    rw [pow_succ]
    linear_combination (3 * √3 / 36) * this

end Verif.Shapes
