import Verif.Lemmas.Carpet
import Verif.Lemmas.Sierpinski

/-!
# C103: the Sierpinski carpet
-/

noncomputable section

namespace Verif.Shapes

theorem lat_ne {n : ℕ} {x y x' y' : ℝ} (h : x ≠ x' ∨ y ≠ y') : lat n x y ≠ lat n x' y' := by
  have hN : (3 : ℝ) ^ n ≠ 0 := by positivity
  intro he
  have h0 : x / 3 ^ n = x' / 3 ^ n := congrFun he 0
  have h1 : y / 3 ^ n = y' / 3 ^ n := congrFun he 1
  rw [div_left_inj' hN] at h0 h1
  rcases h with h | h
  · exact h h0
  · exact h h1

theorem Sq.nodup {ps : List V2} {n : ℕ} {t : ℕ × ℕ × ℕ × ℕ} {c : ℕ × ℕ} (h : Sq ps n t c) :
    (corners4 t).Nodup := by
  obtain ⟨h0, h1, h2, h3⟩ := h
  have key : ∀ {i j : ℕ} {x y x' y' : ℝ}, ps[i]? = some (lat n x y) → ps[j]? = some (lat n x' y') →
      (x ≠ x' ∨ y ≠ y') → ¬1 + i = 1 + j := by
    intro i j x y x' y' hi hj hne he
    obtain rfl : i = j := by omega
    rw [hi] at hj
    exact lat_ne hne (Option.some.inj hj)
  unfold corners4
  simp only [List.nodup_cons, List.mem_cons, List.not_mem_nil, or_false, not_or, not_false_eq_true, List.nodup_nil,
    and_true]
  refine ⟨⟨?_, ?_, ?_⟩, ⟨?_, ?_⟩, ?_⟩
  · exact key h0 h1 (.inl (by simp))
  · exact key h0 h2 (.inl (by simp))
  · exact key h0 h3 (.inr (by simp))
  · exact key h1 h2 (.inr (by simp))
  · exact key h1 h3 (.inl (by simp))
  · exact key h2 h3 (.inl (by simp))

/-- What the geometry consists of, for every level. -/
theorem carpet_run (h : ℝ) (level : ℤ) (hl : 1 ≤ level) : ∃ ps sq, CarpetInv level.toNat ps sq ∧
    sierpinskiCarpet h level = .ok ⟨h, pointStmts lift2 ps ++ carpetStmts 0 sq ⟨1, fun _ _ => none⟩⟩ := by
  obtain ⟨ps, sq, hrun, I⟩ := carpetLevels_spec level.toNat 0 carpetInv_zero
  rw [Nat.zero_add] at I
  refine ⟨ps, sq, I, ?_⟩
  unfold sierpinskiCarpet
  rw [if_neg (by omega), hrun]
  rfl

/-- `sierpinski_carpet(h, level)` refuses levels below 1.  For every other level the geometry is well
formed and its surfaces are exactly the squares of the carpet, passed counterclockwise; lines between
the same points are the same line.

The English property also asks that squares that touch share the points in which they touch: this
only holds at level 1. -/
theorem C103_carpet_partial (h : ℝ) (level : ℤ) :
    (level < 1 → sierpinskiCarpet h level = .error .ValueError) ∧
    (1 ≤ level → ∃ (g : List (Stmt V3)) (cells : List (ℕ × ℕ)) (faces : List (List ℕ)), sierpinskiCarpet h level = .ok ⟨h, g⟩ ∧
      WellNumbered g ∧ InOrder [] g ∧
      cells.Nodup ∧ cells.length = 8 ^ level.toNat ∧ (∀ x y, (x, y) ∈ cells ↔ Carpet level.toNat (x, y)) ∧
      Draws g faces ∧ Places g faces (cells.map (cellSquare level.toNat)) ∧ SharesLines g ∧
      (level = 1 → SharesPoints g)) := by
  refine ⟨fun hl => by unfold sierpinskiCarpet; rw [if_pos hl], fun hl => ?_⟩
  obtain ⟨ps, sq, I, hrun⟩ := carpet_run h level hl
  generalize hn : level.toNat = n at *
  set acc : List (Stmt V3) := pointStmts lift2 ps with hacc
  set out := carpetStmts 0 sq ⟨1, fun _ _ => none⟩ with hout
  have hpn : pointNumbers acc = List.range' 1 ps.length := pointNumbers_pointStmts ..
  have hln : lineNumbers acc = [] := lineNumbers_pointStmts ..
  have nol : ∀ l a b, Stmt.line l a b ∉ acc := by
    intro l a b hm
    have := mem_lineNumbers.2 ⟨a, b, hm⟩
    rw [hln] at this
    exact absurd this List.not_mem_nil
  have hsq : ∀ t ∈ sq, ∃ c, Sq ps n t c := by
    intro t ht
    obtain ⟨i, hi, rfl⟩ := List.getElem_of_mem ht
    exact ⟨_, (List.forall₂_iff_get.1 I.squares).2 i hi (by rw [← I.squares.length_eq]; exact hi)⟩
  have hlt : ∀ {i : ℕ} {p : V2}, ps[i]? = some p → 1 + i ∈ pointNumbers acc := by
    intro i p hp
    rw [hpn, List.mem_range'_1]
    have := (List.getElem?_eq_some_iff.1 hp).1
    omega
  have I0 : LinesInv acc ⟨1, fun _ _ => none⟩ :=
    ⟨by rw [hln]; rfl, by rw [hln]; rfl, fun _ _ _ h => (by cases h), fun l a b hm => absurd hm (nol l a b)⟩
  obtain ⟨⟨s', I1⟩, hO, hP, hL, hS, hB⟩ := carpetStmts_spec sq 0 acc ⟨1, fun _ _ => none⟩ I0
    (fun t ht k hk => by
      obtain ⟨c, h0, h1, h2, h3⟩ := hsq t ht
      unfold corners4 at hk
      simp only [List.mem_cons, List.not_mem_nil, or_false] at hk
      rcases hk with rfl | rfl | rfl | rfl
      · exact hlt h0
      · exact hlt h1
      · exact hlt h2
      · exact hlt h3)
    (fun t ht => (hsq t ht).choose_spec.nodup)
  have hpo : pointNumbers out = [] := by
    refine List.filterMap_eq_nil_iff.2 fun t ht => ?_
    cases t with
    | point k p => exact absurd rfl (hP _ ht k p)
    | line => rfl
    | loop => rfl
    | surface => rfl
  have hsurf : surfaceNumbers (acc ++ out) = List.range' 0 sq.length := by
    rw [surfaceNumbers_append, surfaceNumbers_pointStmts, hS, List.nil_append]
  have pointIn : ∀ {k : ℕ} {p : V3}, Stmt.point k p ∈ acc ++ out → Stmt.point k p ∈ acc := by
    intro k p hm
    rcases List.mem_append.1 hm with hm | hm
    · exact hm
    · exact absurd rfl (hP _ hm k p)
  refine ⟨acc ++ out, carpetCells n, sq.map corners4, hrun, ⟨?_, ?_, ?_, ?_, ?_⟩, ?_, nodup_carpetCells n,
    length_carpetCells n, mem_carpetCells n, ?_, ?_, ?_, ?_⟩
  · rw [pointNumbers_append, hpo, List.append_nil, hpn]; exact List.nodup_range'
  · rw [I1.nums]; exact List.nodup_range'
  · rw [loopNumbers_append, loopNumbers_pointStmts, hL, List.nil_append]; exact List.nodup_range'
  · rw [hsurf]; exact List.nodup_range'
  · intro k hk
    rw [I1.nums, List.mem_range'_1] at hk
    omega
  · rw [inOrder_append, List.nil_append]
    exact ⟨inOrder_pointStmts .., hO⟩
  · unfold Draws
    rw [hsurf]
    exact hB
  · unfold Places
    rw [List.forall₂_map_left_iff, List.forall₂_map_right_iff]
    refine I.squares.imp ?_
    rintro t c ⟨h0, h1, h2, h3⟩
    have key : ∀ {i : ℕ} {x y : ℝ}, ps[i]? = some (lat n x y) →
        Stmt.point (1 + i) (![x / 3 ^ n, y / 3 ^ n, 0] : V3) ∈ acc ++ out := by
      intro i x y hi
      refine List.mem_append_left _ ((mem_pointStmts lift2 ps _ _).2 ⟨i, _, hi, rfl, rfl⟩)
    exact .cons (key h0) <| .cons (key h1) <| .cons (key h2) <| .cons (key h3) .nil
  · intro k m a b hk hm
    obtain ⟨e1, e2⟩ := I1.kept _ _ _ hk
    rcases hm with hm | hm
    · have e3 := (I1.kept _ _ _ hm).1
      rw [e1] at e3
      exact Option.some.inj e3
    · have e3 := (I1.kept _ _ _ hm).1
      rw [e2] at e3
      cases e3
  · intro h1
    have hps := I.one (by omega)
    intro k m p hk hm
    obtain ⟨i, q, hi, rfl, rfl⟩ := (mem_pointStmts lift2 ps _ _).1 (pointIn hk)
    obtain ⟨j, q', hj, rfl, he⟩ := (mem_pointStmts lift2 ps _ _).1 (pointIn hm)
    have hqq := lift2_injective he
    subst hqq
    have hnd : ps.Nodup := by
      rw [hps]
      have hz : ∀ x y : ℝ, lat 0 x y = ![x, y] := by intro x y; simp [lat]
      have : ([![0, 0], ![1, 0], ![1, 1], ![0, 1]] ++ newPts 0 (0, 0) : List V2) =
          ([(0, 0), (3, 0), (3, 3), (0, 3), (0, 1), (0, 2), (1, 0), (1, 1), (1, 2), (1, 3), (2, 0), (2, 1), (2, 2),
            (2, 3), (3, 1), (3, 2)] : List (ℕ × ℕ)).map fun c => ![(c.1 : ℝ) / 3, (c.2 : ℝ) / 3] := by
        simp [newPts, carpetGrid, hz]
      rw [this]
      refine List.Nodup.map ?_ (by decide)
      rintro ⟨a, b⟩ ⟨a', b'⟩ he
      have e0 : (a : ℝ) / 3 = a' / 3 := congrFun he 0
      have e1 : (b : ℝ) / 3 = b' / 3 := congrFun he 1
      rw [div_left_inj' (by norm_num), Nat.cast_inj] at e0 e1
      rw [e0, e1]
    have := (List.nodup_iff_getElem?_ne_getElem?.1 hnd)
    by_contra hne
    rcases lt_trichotomy i j with hij | hij | hij
    · exact this i j hij (List.getElem?_eq_some_iff.1 hj).1 (by rw [hi, hj])
    · exact hne (by rw [hij])
    · exact this j i hij (List.getElem?_eq_some_iff.1 hi).1 (by rw [hi, hj])

/-- From level 2 on, two points are declared at the same position: they belong to neighbouring
squares, which are therefore not connected in the mesh. -/
theorem C103_counterexample_points (h : ℝ) (level : ℤ) (hl : 2 ≤ level) :
    ∃ g, sierpinskiCarpet h level = .ok ⟨h, g⟩ ∧ ¬SharesPoints g ∧
      .point 51 (![1 / 3, 1 / 9, 0] : V3) ∈ g ∧ .point 53 (![1 / 3, 1 / 9, 0] : V3) ∈ g := by
  obtain ⟨ps, sq, I, hrun⟩ := carpet_run h level (by omega)
  obtain ⟨h1, h2⟩ := I.two (by omega)
  have k1 : Stmt.point 51 (![1 / 3, 1 / 9, 0] : V3) ∈ pointStmts lift2 ps :=
    (mem_pointStmts lift2 ps _ _).2 ⟨50, _, h1, rfl, rfl⟩
  have k2 : Stmt.point 53 (![1 / 3, 1 / 9, 0] : V3) ∈ pointStmts lift2 ps :=
    (mem_pointStmts lift2 ps _ _).2 ⟨52, _, h2, rfl, rfl⟩
  refine ⟨_, hrun, fun hs => ?_, List.mem_append_left _ k1, List.mem_append_left _ k2⟩
  have := hs 51 53 _ (List.mem_append_left _ k1) (List.mem_append_left _ k2)
  omega

/-- Two concrete squares of level 2 with a common side, one on either side of the line `x = 1/3`. -/
example : Carpet 2 (2, 0) ∧ Carpet 2 (3, 0) ∧ ¬Carpet 2 (4, 1) := by
  refine ⟨⟨⟨rfl, by norm_num⟩, by norm_num⟩, ⟨⟨rfl, by norm_num⟩, by norm_num⟩, fun h => ?_⟩
  exact h.2 ⟨rfl, rfl⟩

end Verif.Shapes
