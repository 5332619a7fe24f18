import Verif.Lemmas.KochCode

/-!
# C101: Koch's snowflake
-/

noncomputable section

namespace Verif.Shapes

/-- `koch_snowflake(h, level)` refuses levels below 1.  For every other level the geometry is well
formed and has a single surface, bounded by the polygon that replacing sides `level` times gives;
each of the `3·4^level` points is a corner of it. -/
theorem C101_koch (h : ℝ) (level : ℤ) :
    (level < 1 → kochSnowflake h level = .error .ValueError) ∧
    (1 ≤ level → ∃ g ns, kochSnowflake h level = .ok ⟨min ((1 / 2) ^ (level + 1)) h, g⟩ ∧
      WellNumbered g ∧ InOrder [] g ∧
      Draws g [ns] ∧ At g ns ((kochPolygon level.toNat).map lift2) ∧
      ns.Perm (pointNumbers g) ∧ ns.length = 3 * 4 ^ level.toNat ∧ SharesPoints g) := by
  refine ⟨fun hl => by unfold kochSnowflake; rw [if_pos hl], fun hl => ?_⟩
  obtain ⟨ps, ls, s, hrun, L⟩ := kochLevels_spec level.toNat kochLevel_zero
  rw [Nat.zero_add] at L
  generalize hn : level.toNat = n at *
  have hslen : s.length = ps.length := by rw [L.perm.length_eq, List.length_range]
  have hllen : ls.length = ps.length := by rw [L.lines, length_sides, hslen]
  have h4 : 1 ≤ 4 ^ n := Nat.one_le_pow _ _ (by norm_num)
  have hmem : ∀ i ∈ s, i < ps.length := fun i hi => List.mem_range.1 (L.perm.mem_iff.1 hi)
  set lineS : List (Stmt V3) := ls.zipIdx.map fun l => Stmt.line (1 + l.2) (l.1.1 + 1) (l.1.2 + 1) with hlineS
  set loop : List ℤ := (List.range ls.length).map fun i => ((i + 1 : ℕ) : ℤ) with hloop
  set g : List (Stmt V3) := pointStmts lift2 ps ++ lineS ++ [.loop 1 loop, .surface 1 1] with hg
  have nl' : lineNumbers lineS = List.range' 1 ls.length := by
    rw [hlineS]
    have : ∀ (l : List (ℕ × ℕ)) k, lineNumbers ((l.zipIdx k).map fun l =>
        (Stmt.line (1 + l.2) (l.1.1 + 1) (l.1.2 + 1) : Stmt V3)) = List.range' (1 + k) l.length := by
      intro l
      induction l with
      | nil => intro k; rfl
      | cons a l ih =>
        intro k
        rw [List.zipIdx_cons, List.map_cons, List.length_cons, List.range'_succ,
          show 1 + k + 1 = 1 + (k + 1) by omega, ← ih (k + 1)]
        rfl
    exact this ls 0
  have noPt : ∀ k p, Stmt.point k p ∉ lineS := by
    intro k p h
    obtain ⟨q, -, hq⟩ := List.mem_map.1 h
    cases hq
  have np' : pointNumbers lineS = [] := by
    rw [hlineS]
    unfold pointNumbers
    rw [List.filterMap_map]
    exact List.filterMap_eq_nil_iff.2 fun _ _ => rfl
  have nloop' : loopNumbers lineS = [] := by
    rw [hlineS]
    unfold loopNumbers
    rw [List.filterMap_map]
    exact List.filterMap_eq_nil_iff.2 fun _ _ => rfl
  have ns' : surfaceNumbers lineS = [] := by
    rw [hlineS]
    unfold surfaceNumbers
    rw [List.filterMap_map]
    exact List.filterMap_eq_nil_iff.2 fun _ _ => rfl
  have np : pointNumbers g = List.range' 1 ps.length := by
    rw [hg, pointNumbers_append, pointNumbers_append, pointNumbers_pointStmts, np', List.append_nil]
    exact List.append_nil _
  have nl : lineNumbers g = List.range' 1 ls.length := by
    rw [hg, lineNumbers_append, lineNumbers_append, lineNumbers_pointStmts, nl', List.nil_append]
    exact List.append_nil _
  have nloop : loopNumbers g = [1] := by
    rw [hg, loopNumbers_append, loopNumbers_append, loopNumbers_pointStmts, nloop', List.nil_append]
    rfl
  have nsurf : surfaceNumbers g = [1] := by
    rw [hg, surfaceNumbers_append, surfaceNumbers_append, surfaceNumbers_pointStmts, ns', List.nil_append]
    rfl
  have snd : s.Nodup := L.perm.nodup_iff.2 List.nodup_range
  have hpos : ∀ i, i < ps.length → Stmt.point (i + 1) (lift2 (posOf ps i)) ∈ g := by
    intro i hi
    refine List.mem_append_left _ (List.mem_append_left _ ((mem_pointStmts lift2 ps _ _).2
      ⟨i, posOf ps i, ?_, Nat.add_comm _ _, rfl⟩))
    unfold posOf
    rw [List.getD_eq_getElem?_getD, List.getElem?_eq_getElem hi]
    rfl
  refine ⟨g, s.map (· + 1), ?_, ?_, ?_, ?_, ?_, ?_, ?_, ?_⟩
  · unfold kochSnowflake
    rw [if_neg (by omega), hn, hrun]
    simp only [Except.bind]
    unfold fineSize
    rw [show (0.5 : ℝ) = 1 / 2 by norm_num]
  · refine ⟨?_, ?_, ?_, ?_, ?_⟩
    · rw [np]; exact List.nodup_range'
    · rw [nl]; exact List.nodup_range'
    · rw [nloop]; exact List.nodup_singleton _
    · rw [nsurf]; exact List.nodup_singleton _
    · intro k hk
      rw [nl, List.mem_range'_1] at hk
      omega
  · rw [hg, List.append_assoc, inOrder_append, inOrder_append]
    refine ⟨inOrder_pointStmts .., ?_, ?_⟩
    · -- lines
      have : ∀ (l : List ((ℕ × ℕ) × ℕ)) (b : List (Stmt V3)), (∀ q ∈ l, q.1 ∈ ls) →
          (∀ i, i < ps.length → i + 1 ∈ pointNumbers b) →
          InOrder b (l.map fun l => (Stmt.line (1 + l.2) (l.1.1 + 1) (l.1.2 + 1) : Stmt V3)) := by
        intro l
        induction l with
        | nil => intro b _ _; trivial
        | cons q l ih =>
          intro b hq hb
          have hq0 := hq q (List.mem_cons_self ..)
          rw [L.lines] at hq0
          have hm := mem_sides hq0
          have hne := sides_ne snd (by rw [hslen, L.length]; omega) hq0
          refine ⟨⟨hb _ (hmem _ hm.1), hb _ (hmem _ hm.2), by omega⟩,
            ih _ (fun q hq' => hq q (List.mem_cons_of_mem _ hq')) fun i hi => ?_⟩
          rw [pointNumbers_append]
          exact List.mem_append_left _ (hb i hi)
      refine this _ _ (fun q hq => ?_) ?_
      · exact (List.mem_zipIdx' hq).2 ▸ List.getElem_mem ..
      · intro i hi
        rw [List.nil_append, pointNumbers_pointStmts, List.mem_range'_1]
        omega
    · refine ⟨?_, ?_, trivial⟩
      · intro l hl
        obtain ⟨i, hi, rfl⟩ := List.mem_map.1 hl
        rw [lineNumbers_append, lineNumbers_append, nl', Int.natAbs_natCast]
        refine List.mem_append_right _ ?_
        rw [List.mem_range'_1]
        have := List.mem_range.1 hi
        omega
      · show 1 ∈ loopNumbers _
        rw [loopNumbers_append]
        exact List.mem_append_right _ (List.mem_singleton.2 rfl)
  · unfold Draws
    rw [nsurf]
    refine .cons ⟨1, loop, ?_, ?_, ?_⟩ .nil
    · exact List.mem_append_right _ (by simp)
    · exact List.mem_append_right _ (by simp)
    · unfold Around
      rw [show (s.map (· + 1)).zip ((s.map (· + 1)).rotate 1) = sides (s.map (· + 1)) from rfl, sides_map,
        ← L.lines]
      refine List.forall₂_iff_get.2 ⟨by simp [hloop], fun i h1 h2 => ?_⟩
      have hi : i < ls.length := by simpa [hloop] using h1
      refine .inl ⟨1 + i, ?_, ?_⟩
      · simp [hloop, add_comm]
      · refine List.mem_append_left _ (List.mem_append_right _ (List.mem_map.2 ⟨(ls[i], i), ?_, ?_⟩))
        · rw [List.mk_mem_zipIdx_iff_getElem?, List.getElem?_eq_getElem hi]
        · simp
  · unfold At
    rw [← L.pos, List.map_map]
    refine List.forall₂_map_left_iff.2 (List.forall₂_map_right_iff.2 ?_)
    rw [List.forall₂_same]
    intro i hi
    exact hpos i (hmem i hi)
  · rw [np]
    refine (L.perm.map (· + 1)).trans ?_
    rw [List.range_eq_range', show (fun x : ℕ => x + 1) = (fun x => 1 + x) from funext fun x => Nat.add_comm x 1,
      List.map_add_range']
  · rw [List.length_map, hslen, L.length]
  · intro k l p hk hl
    have key : ∀ k p, Stmt.point k p ∈ g → ∃ i ∈ s, k = i + 1 ∧ p = lift2 (posOf ps i) := by
      intro k p hk
      rcases List.mem_append.1 hk with hk | hk
      · rcases List.mem_append.1 hk with hk | hk
        · obtain ⟨i, q, hi, rfl, rfl⟩ := (mem_pointStmts lift2 ps k p).1 hk
          obtain ⟨hi', rfl⟩ := List.getElem?_eq_some_iff.1 hi
          refine ⟨i, L.perm.mem_iff.2 (List.mem_range.2 hi'), Nat.add_comm _ _, ?_⟩
          unfold posOf
          rw [List.getD_eq_getElem?_getD, hi]
          rfl
        · exact absurd hk (noPt k p)
      · simp at hk
    obtain ⟨i, hi, rfl, rfl⟩ := key k p hk
    obtain ⟨j, hj, rfl, he⟩ := key l _ hl
    have hnd := (koch_simple n).corners
    rw [← L.pos] at hnd
    have := List.inj_on_of_nodup_map hnd hi hj (lift2_injective he)
    rw [this]

/-- The snowflake does not meet itself, at any level. -/
theorem C101_simple (n : ℕ) : SimplePolygon (kochPolygon n) := koch_simple n

/-- All sides have length `3^-n`; there are `3·4^n` of them; the polygon is passed counterclockwise
and its area is `√3/20·(8 - 3·(4/9)^n)`, which grows to 8/5 of the area of the triangle. -/
theorem C101_measures (n : ℕ) :
    (∀ e ∈ sides (kochPolygon n), dist2 e.1 e.2 = ((1 / 3) ^ n) ^ 2) ∧
    (kochPolygon n).length = 3 * 4 ^ n ∧
    signedArea (kochPolygon n) = √3 / 20 * (8 - 3 * (4 / 9) ^ n) ∧
    0 < signedArea (kochPolygon n) := by
  obtain ⟨h3, p3, -, -, -, -⟩ := sqrt_facts
  refine ⟨fun e he => ?_, koch_length n, koch_area n, ?_⟩
  · rw [koch_lengths n e he, ← pow_mul, mul_comm, pow_mul]
    norm_num
  · rw [koch_area]
    have : ((4 : ℝ) / 9) ^ n ≤ 1 := pow_le_one₀ (by norm_num) (by norm_num)
    refine mul_pos (by positivity) (by linarith)

/-- The triangle put on a side is equilateral and lies on the right of the side, outside. -/
theorem C101_tip (p q : V2) :
    dist2 (third p q) (tip p q) = dist2 p q / 9 ∧ dist2 (third q p) (tip p q) = dist2 p q / 9 ∧
    dist2 (third p q) (third q p) = dist2 p q / 9 ∧
    (p ≠ q → (q 0 - p 0) * (tip p q 1 - p 1) - (q 1 - p 1) * (tip p q 0 - p 0) < 0) := by
  obtain ⟨h3, p3, -, -, -, -⟩ := sqrt_facts
  unfold dist2 third tip
  simp only [Matrix.cons_val_zero, Matrix.cons_val_one]
  refine ⟨?_, ?_, ?_, ?_⟩
  · linear_combination ((p 0 - q 0) ^ 2 + (p 1 - q 1) ^ 2) / 36 * h3
  · linear_combination ((p 0 - q 0) ^ 2 + (p 1 - q 1) ^ 2) / 36 * h3
  · ring
  · intro hne
    have hd : 0 < (q 0 - p 0) ^ 2 + (q 1 - p 1) ^ 2 := by
      by_contra hcon
      have h0 : (q 0 - p 0) ^ 2 = 0 := by nlinarith [sq_nonneg (q 0 - p 0), sq_nonneg (q 1 - p 1)]
      have h1 : (q 1 - p 1) ^ 2 = 0 := by nlinarith [sq_nonneg (q 0 - p 0), sq_nonneg (q 1 - p 1)]
      apply hne
      funext k
      fin_cases k
      · have := pow_eq_zero_iff (two_ne_zero) |>.1 h0
        show p 0 = q 0
        linarith
      · have := pow_eq_zero_iff (two_ne_zero) |>.1 h1
        show p 1 = q 1
        linarith
    have : (q 0 - p 0) * ((p 1 + q 1) / 2 - √3 / 6 * (q 0 - p 0) - p 1)
        - (q 1 - p 1) * ((p 0 + q 0) / 2 + √3 / 6 * (q 1 - p 1) - p 0)
        = -(√3 / 6 * ((q 0 - p 0) ^ 2 + (q 1 - p 1) ^ 2)) := by ring
    rw [this]
    have : 0 < √3 / 6 * ((q 0 - p 0) ^ 2 + (q 1 - p 1) ^ 2) := mul_pos (by positivity) hd
    linarith

/-- A concrete level: 12 points at level 1. -/
example : ∃ g ns, kochSnowflake 0.1 1 = .ok ⟨0.1, g⟩ ∧ Draws g [ns] ∧ ns.length = 12 := by
  obtain ⟨g, ns, h1, -, -, h2, -, -, h3, -⟩ := (C101_koch 0.1 1).2 le_rfl
  refine ⟨g, ns, ?_, h2, h3⟩
  rw [h1]
  congr 2
  rw [min_eq_right]
  rw [show (1 : ℤ) + 1 = (2 : ℕ) by norm_num, zpow_natCast]
  norm_num

end Verif.Shapes
