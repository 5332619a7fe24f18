import Verif.Spec.Carpet
import Verif.Lemmas.MengerCode
import Mathlib.Tactic.FieldSimp
import Mathlib.Tactic.IntervalCases

/-!
# The squares of the Sierpinski carpet and the statements written for them
-/

noncomputable section

namespace Verif.Shapes

/-- The eight subsquares, in the order of the code. -/
def subs (c : ℕ × ℕ) : List (ℕ × ℕ) :=
  [(3 * c.1 + 0, 3 * c.2 + 2), (3 * c.1 + 0, 3 * c.2 + 1), (3 * c.1 + 0, 3 * c.2 + 0), (3 * c.1 + 1, 3 * c.2 + 0),
   (3 * c.1 + 2, 3 * c.2 + 0), (3 * c.1 + 2, 3 * c.2 + 1), (3 * c.1 + 2, 3 * c.2 + 2), (3 * c.1 + 1, 3 * c.2 + 2)]

/-- The squares of level `n`, in the order of the code. -/
def carpetCells : ℕ → List (ℕ × ℕ)
  | 0 => [(0, 0)]
  | n + 1 => (carpetCells n).flatMap subs

theorem mem_subs (c : ℕ × ℕ) (x y : ℕ) : (x, y) ∈ subs c ↔ (x / 3, y / 3) = c ∧ ¬(x % 3 = 1 ∧ y % 3 = 1) := by
  obtain ⟨a, b⟩ := c
  unfold subs
  simp only [List.mem_cons, Prod.mk.injEq, List.not_mem_nil, or_false]
  constructor
  · rintro (h | h | h | h | h | h | h | h) <;> omega
  · rintro ⟨⟨rfl, rfl⟩, h⟩
    have hx : x % 3 = 0 ∨ x % 3 = 1 ∨ x % 3 = 2 := by omega
    have hy : y % 3 = 0 ∨ y % 3 = 1 ∨ y % 3 = 2 := by omega
    rcases hx with hx | hx | hx <;> rcases hy with hy | hy | hy <;> omega

theorem mem_carpetCells (n : ℕ) : ∀ x y, (x, y) ∈ carpetCells n ↔ Carpet n (x, y) := by
  induction n with
  | zero => intro x y; exact List.mem_singleton
  | succ n ih =>
    intro x y
    show (x, y) ∈ (carpetCells n).flatMap subs ↔ Carpet n (x / 3, y / 3) ∧ ¬(x % 3 = 1 ∧ y % 3 = 1)
    rw [List.mem_flatMap, ← ih]
    constructor
    · rintro ⟨c, hc, h⟩
      obtain ⟨rfl, h2⟩ := (mem_subs _ _ _).1 h
      exact ⟨hc, h2⟩
    · rintro ⟨h1, h2⟩
      exact ⟨_, h1, (mem_subs _ _ _).2 ⟨rfl, h2⟩⟩

theorem length_carpetCells (n : ℕ) : (carpetCells n).length = 8 ^ n := by
  induction n with
  | zero => rfl
  | succ n ih =>
    show ((carpetCells n).flatMap subs).length = _
    rw [List.length_flatMap]
    have : (fun c => (subs c).length) = fun _ => 8 := funext fun c => rfl
    rw [this, List.map_const', List.sum_replicate, smul_eq_mul, ih, pow_succ]

theorem nodup_carpetCells (n : ℕ) : (carpetCells n).Nodup := by
  induction n with
  | zero => exact List.nodup_singleton _
  | succ n ih =>
    show ((carpetCells n).flatMap subs).Nodup
    rw [List.nodup_flatMap]
    refine ⟨fun c _ => ?_, ih.imp ?_⟩
    · unfold subs
      simp only [List.nodup_cons, List.mem_cons, Prod.mk.injEq, List.not_mem_nil, or_false, List.nodup_nil,
        and_true, not_false_eq_true]
      omega
    · rintro a b hab ⟨x, y⟩ hp hq
      obtain ⟨rfl, -⟩ := (mem_subs _ _ _).1 hp
      obtain ⟨rfl, -⟩ := (mem_subs _ _ _).1 hq
      exact hab rfl

/-! ## Points -/

/-- A lattice point of level `n`. -/
def lat (n : ℕ) (x y : ℝ) : V2 := ![x / 3 ^ n, y / 3 ^ n]

/-- The corners of the square `t` (four indices of points) are those of the cell `c`. -/
def Sq (ps : List V2) (n : ℕ) (t : ℕ × ℕ × ℕ × ℕ) (c : ℕ × ℕ) : Prop :=
  ps[t.1]? = some (lat n c.1 c.2) ∧ ps[t.2.1]? = some (lat n (c.1 + 1) c.2) ∧
    ps[t.2.2.1]? = some (lat n (c.1 + 1) (c.2 + 1)) ∧ ps[t.2.2.2]? = some (lat n c.1 (c.2 + 1))

theorem getElem?_more {α : Type*} {l : List α} {i : ℕ} {a : α} (h : l[i]? = some a) (more : List α) :
    (l ++ more)[i]? = some a := by
  rw [List.getElem?_append_left (List.getElem?_eq_some_iff.1 h).1, h]

theorem Sq.mono {ps : List V2} {n : ℕ} {t : ℕ × ℕ × ℕ × ℕ} {c : ℕ × ℕ} (h : Sq ps n t c) (more : List V2) :
    Sq (ps ++ more) n t c :=
  ⟨getElem?_more h.1 _, getElem?_more h.2.1 _, getElem?_more h.2.2.1 _, getElem?_more h.2.2.2 _⟩

/-- The points put into the cell `c` of level `n`. -/
def newPts (n : ℕ) (c : ℕ × ℕ) : List V2 := carpetGrid.map fun xy => lat n (c.1 + xy.1) (c.2 + xy.2)

theorem lat_succ (n : ℕ) (x y : ℝ) : lat (n + 1) (3 * x) (3 * y) = lat n x y := by
  unfold lat
  rw [pow_succ, mul_comm ((3 : ℝ) ^ n) 3, mul_div_mul_left _ _ (by norm_num), mul_div_mul_left _ _ (by norm_num)]

theorem carpetSplit_spec {ps : List V2} {n : ℕ} {t : ℕ × ℕ × ℕ × ℕ} {c : ℕ × ℕ} (h : Sq ps n t c) :
    ∃ ts, carpetSplit ps t = .ok (ts, ps ++ newPts n c) ∧
      List.Forall₂ (Sq (ps ++ newPts n c) (n + 1)) ts (subs c) := by
  have g : ∀ {i : ℕ} {p : V2}, ps[i]? = some p → pget ps i = .ok p := by
    intro i p hp
    unfold pget
    rw [hp]
  have hpts : (carpetGrid.map fun xy => fun k => lat n c.1 c.2 k + xy.1 * (lat n (c.1 + 1) c.2 k - lat n c.1 c.2 k)
      + xy.2 * (lat n c.1 (c.2 + 1) k - lat n c.1 c.2 k)) = newPts n c := by
    unfold newPts
    refine List.map_congr_left fun xy _ => ?_
    funext k
    have hN : (3 : ℝ) ^ n ≠ 0 := by positivity
    unfold lat
    fin_cases k
    · show (c.1 : ℝ) / 3 ^ n + xy.1 * ((c.1 + 1) / 3 ^ n - c.1 / 3 ^ n) + xy.2 * (c.1 / 3 ^ n - c.1 / 3 ^ n)
        = (c.1 + xy.1) / 3 ^ n
      field_simp
      ring
    · show (c.2 : ℝ) / 3 ^ n + xy.1 * (c.2 / 3 ^ n - c.2 / 3 ^ n) + xy.2 * ((c.2 + 1) / 3 ^ n - c.2 / 3 ^ n)
        = (c.2 + xy.2) / 3 ^ n
      field_simp
      ring
  have hnew : ∀ k xy, carpetGrid[k]? = some xy →
      (ps ++ newPts n c)[ps.length + k]? = some (lat (n + 1) (3 * (c.1 + xy.1)) (3 * (c.2 + xy.2))) := by
    intro k xy hk
    rw [List.getElem?_append_right (Nat.le_add_right _ _), Nat.add_sub_cancel_left]
    unfold newPts
    rw [List.getElem?_map, hk, lat_succ]
    rfl
  have hold : ∀ {i : ℕ} {x y : ℝ}, ps[i]? = some (lat n x y) →
      (ps ++ newPts n c)[i]? = some (lat (n + 1) (3 * x) (3 * y)) := by
    intro i x y hi
    rw [lat_succ]
    exact getElem?_more hi _
  refine ⟨[(ps.length + 1, ps.length + 4, ps.length + 5, t.2.2.2),
    (ps.length + 0, ps.length + 3, ps.length + 4, ps.length + 1), (t.1, ps.length + 2, ps.length + 3, ps.length + 0),
    (ps.length + 2, ps.length + 6, ps.length + 7, ps.length + 3),
    (ps.length + 6, t.2.1, ps.length + 10, ps.length + 7),
    (ps.length + 7, ps.length + 10, ps.length + 11, ps.length + 8),
    (ps.length + 8, ps.length + 11, t.2.2.1, ps.length + 9),
    (ps.length + 4, ps.length + 8, ps.length + 9, ps.length + 5)], ?_, ?_⟩
  · unfold carpetSplit
    rw [g h.1, g h.2.1, g h.2.2.2]
    simp only [Except.bind]
    rw [hpts]
  · have e0 := hnew 0 _ rfl
    have e1 := hnew 1 _ rfl
    have e2 := hnew 2 _ rfl
    have e3 := hnew 3 _ rfl
    have e4 := hnew 4 _ rfl
    have e5 := hnew 5 _ rfl
    have e6 := hnew 6 _ rfl
    have e7 := hnew 7 _ rfl
    have e8 := hnew 8 _ rfl
    have e9 := hnew 9 _ rfl
    have e10 := hnew 10 _ rfl
    have e11 := hnew 11 _ rfl
    have f0 := hold h.1
    have f1 := hold h.2.1
    have f2 := hold h.2.2.1
    have f3 := hold h.2.2.2
    have cc : ∀ {i : ℕ} {x y x' y' : ℝ}, (ps ++ newPts n c)[i]? = some (lat (n + 1) x y) → x = x' → y = y' →
        (ps ++ newPts n c)[i]? = some (lat (n + 1) x' y') := by
      rintro i x y _ _ h rfl rfl
      exact h
    unfold subs
    refine .cons ⟨cc e1 ?_ ?_, cc e4 ?_ ?_, cc e5 ?_ ?_, cc f3 ?_ ?_⟩ <| .cons ⟨cc e0 ?_ ?_, cc e3 ?_ ?_, cc e4 ?_ ?_, cc e1 ?_ ?_⟩ <|
      .cons ⟨cc f0 ?_ ?_, cc e2 ?_ ?_, cc e3 ?_ ?_, cc e0 ?_ ?_⟩ <| .cons ⟨cc e2 ?_ ?_, cc e6 ?_ ?_, cc e7 ?_ ?_, cc e3 ?_ ?_⟩ <|
      .cons ⟨cc e6 ?_ ?_, cc f1 ?_ ?_, cc e10 ?_ ?_, cc e7 ?_ ?_⟩ <| .cons ⟨cc e7 ?_ ?_, cc e10 ?_ ?_, cc e11 ?_ ?_, cc e8 ?_ ?_⟩ <|
      .cons ⟨cc e8 ?_ ?_, cc e11 ?_ ?_, cc f2 ?_ ?_, cc e9 ?_ ?_⟩ <| .cons ⟨cc e4 ?_ ?_, cc e8 ?_ ?_, cc e9 ?_ ?_, cc e5 ?_ ?_⟩ .nil <;>
      (push_cast; ring)

theorem carpetAll_spec {n : ℕ} : ∀ (sq : List (ℕ × ℕ × ℕ × ℕ)) (cells : List (ℕ × ℕ)) (ps : List V2),
    List.Forall₂ (Sq ps n) sq cells → ∃ ts, carpetAll sq ps = .ok (ts, ps ++ cells.flatMap (newPts n)) ∧
      List.Forall₂ (Sq (ps ++ cells.flatMap (newPts n)) (n + 1)) ts (cells.flatMap subs) := by
  intro sq
  induction sq with
  | nil =>
    intro cells ps h
    cases h
    exact ⟨[], by simp [carpetAll], .nil⟩
  | cons t sq ih =>
    intro cells ps h
    cases h with
    | @cons _ c _ cells h1 h2 =>
      obtain ⟨ts, e1, s1⟩ := carpetSplit_spec h1
      obtain ⟨us, e2, s2⟩ := ih cells (ps ++ newPts n c) (h2.imp fun _ _ h => h.mono _)
      refine ⟨ts ++ us, ?_, ?_⟩
      · unfold carpetAll
        rw [e1]
        simp only [Except.bind]
        rw [e2, List.flatMap_cons, List.append_assoc]
      · rw [List.flatMap_cons, List.flatMap_cons, ← List.append_assoc]
        exact List.rel_append (s1.imp fun _ _ h => h.mono _) s2

/-- What holds after `n` rounds. -/
structure CarpetInv (n : ℕ) (ps : List V2) (sq : List (ℕ × ℕ × ℕ × ℕ)) : Prop where
  squares : List.Forall₂ (Sq ps n) sq (carpetCells n)
  zero : n = 0 → ps = [![0, 0], ![1, 0], ![1, 1], ![0, 1]]
  one : n = 1 → ps = [![0, 0], ![1, 0], ![1, 1], ![0, 1]] ++ newPts 0 (0, 0)
  two : 2 ≤ n → ps[50]? = some ![1 / 3, 1 / 9] ∧ ps[52]? = some ![1 / 3, 1 / 9]

theorem carpetInv_zero : CarpetInv 0 [![0, 0], ![1, 0], ![1, 1], ![0, 1]] [(0, 1, 2, 3)] where
  squares := by
    refine .cons ⟨?_, ?_, ?_, ?_⟩ .nil <;> simp [lat]
  zero := fun _ => rfl
  one := fun h => by omega
  two := fun h => by omega

theorem carpetInv_succ {n : ℕ} {ps : List V2} {sq : List (ℕ × ℕ × ℕ × ℕ)} (I : CarpetInv n ps sq) :
    ∃ ts, carpetAll sq ps = .ok (ts, ps ++ (carpetCells n).flatMap (newPts n)) ∧
      CarpetInv (n + 1) (ps ++ (carpetCells n).flatMap (newPts n)) ts := by
  obtain ⟨ts, h1, h2⟩ := carpetAll_spec sq _ ps I.squares
  refine ⟨ts, h1, h2, fun h => by omega, fun h => ?_, fun h => ?_⟩
  · obtain rfl : n = 0 := by omega
    rw [I.zero rfl]
    rfl
  · by_cases hn : n = 1
    · subst hn
      rw [I.one rfl]
      have e : ∀ x y : ℝ, lat 1 x y = ![x / 3, y / 3] := by intro x y; simp [lat]
      constructor
      · show some (lat 1 ((0 : ℕ) + 1) ((0 : ℕ) + 1 / 3)) = _
        rw [e]
        norm_num
      · show some (lat 1 ((1 : ℕ) + 0) ((0 : ℕ) + 1 / 3)) = _
        rw [e]
        norm_num
    · obtain ⟨k1, k2⟩ := I.two (by omega)
      exact ⟨getElem?_more k1 _, getElem?_more k2 _⟩

theorem carpetLevels_spec : ∀ (m n : ℕ) {ps : List V2} {sq : List (ℕ × ℕ × ℕ × ℕ)}, CarpetInv n ps sq →
    ∃ ps' sq', carpetLevels m (ps, sq) = .ok (ps', sq') ∧ CarpetInv (n + m) ps' sq' := by
  intro m
  induction m with
  | zero => intro n ps sq I; exact ⟨ps, sq, rfl, I⟩
  | succ m ih =>
    intro n ps sq I
    obtain ⟨ts, h1, I1⟩ := carpetInv_succ I
    obtain ⟨ps', sq', h2, I2⟩ := ih (n + 1) I1
    refine ⟨ps', sq', ?_, ?_⟩
    · show (carpetAll sq ps).bind _ = _
      rw [h1]
      exact h2
    · rwa [show n + (m + 1) = n + 1 + m by omega]

/-! ## Lines -/

/-- What holds of the dictionary `all_edges` and `line_n` when `acc` has been written. -/
structure LinesInv (acc : List (Stmt V3)) (s : CarpetLines) : Prop where
  count : s.lineN = (lineNumbers acc).length + 1
  nums : lineNumbers acc = List.range' 1 (lineNumbers acc).length
  found : ∀ a b l, s.allEdges a b = some l → .line l a b ∈ acc
  kept : ∀ l a b, .line l a b ∈ acc → s.allEdges a b = some l ∧ s.allEdges b a = none

/-- Only lines between the points `a` and `b`. -/
def OnlyLines (new : List (Stmt V3)) : Prop := ∀ t ∈ new, ∃ l a b, t = .line l a b

theorem carpetSide_spec {acc : List (Stmt V3)} {s : CarpetLines} (I : LinesInv acc s) {a b : ℕ} (hne : a ≠ b)
    (ha : a ∈ pointNumbers acc) (hb : b ∈ pointNumbers acc) :
    LinesInv (acc ++ (carpetSide s a b).2.1) (carpetSide s a b).2.2 ∧
    Joins (acc ++ (carpetSide s a b).2.1) (carpetSide s a b).1 a b ∧
    InOrder acc (carpetSide s a b).2.1 ∧ OnlyLines (carpetSide s a b).2.1 := by
  cases h1 : s.allEdges a b with
  | some l =>
    have hr : carpetSide s a b = ((l : ℤ), [], s) := by unfold carpetSide; simp only [h1]
    rw [hr, List.append_nil]
    exact ⟨I, .inl ⟨l, rfl, I.found _ _ _ h1⟩, trivial, fun t ht => absurd ht List.not_mem_nil⟩
  | none =>
    cases h2 : s.allEdges b a with
    | some l =>
      have hr : carpetSide s a b = (-(l : ℤ), [], s) := by unfold carpetSide; simp only [h1, h2]
      rw [hr, List.append_nil]
      exact ⟨I, .inr ⟨l, rfl, I.found _ _ _ h2⟩, trivial, fun t ht => absurd ht List.not_mem_nil⟩
    | none =>
      have hr : carpetSide s a b = ((s.lineN : ℤ), [.line s.lineN a b],
        { lineN := s.lineN + 1
          allEdges := fun a' b' => if a' = a ∧ b' = b then some s.lineN else s.allEdges a' b' }) := by
        unfold carpetSide; simp only [h1, h2]
      rw [hr]
      have hlast : Stmt.line s.lineN a b ∈ acc ++ [(.line s.lineN a b : Stmt V3)] :=
        List.mem_append_right _ (List.mem_singleton.2 rfl)
      have hln : lineNumbers (acc ++ [(.line s.lineN a b : Stmt V3)]) = lineNumbers acc ++ [s.lineN] := by
        rw [lineNumbers_append]
        rfl
      refine ⟨⟨?_, ?_, ?_, ?_⟩, .inl ⟨_, rfl, hlast⟩, ⟨⟨ha, hb, hne⟩, trivial⟩,
        fun t ht => ⟨_, _, _, List.mem_singleton.1 ht⟩⟩
      · rw [hln, List.length_append, List.length_singleton, ← I.count]
      · simp only [hln, List.length_append, List.length_singleton]
        rw [List.range'_concat, ← I.nums, I.count]
        congr 2
        omega
      · intro a' b' l hab
        simp only at hab
        split at hab
        · rename_i h'
          obtain ⟨rfl, rfl⟩ := h'
          cases hab
          exact hlast
        · exact List.mem_append_left _ (I.found _ _ _ hab)
      · intro l a' b' hl
        simp only
        rcases List.mem_append.1 hl with hl | hl
        · obtain ⟨k1, k2⟩ := I.kept _ _ _ hl
          have n1 : ¬(a' = a ∧ b' = b) := by
            rintro ⟨rfl, rfl⟩
            rw [h1] at k1
            cases k1
          have n2 : ¬(b' = a ∧ a' = b) := by
            rintro ⟨rfl, rfl⟩
            rw [h2] at k1
            cases k1
          rw [if_neg n1, if_neg n2]
          exact ⟨k1, k2⟩
        · cases List.mem_singleton.1 hl
          rw [if_pos ⟨rfl, rfl⟩, if_neg (fun h => hne h.2)]
          exact ⟨rfl, h2⟩

theorem LinesInv.other {acc : List (Stmt V3)} {s : CarpetLines} (I : LinesInv acc s) (new : List (Stmt V3))
    (h : ∀ l a b, .line l a b ∉ new) (hn : lineNumbers new = []) : LinesInv (acc ++ new) s := by
  have e : lineNumbers (acc ++ new) = lineNumbers acc := by rw [lineNumbers_append, hn, List.append_nil]
  refine ⟨by rw [e]; exact I.count, by rw [e]; exact I.nums, fun a b l hl => List.mem_append_left _ (I.found _ _ _ hl), ?_⟩
  intro l a b hl
  rcases List.mem_append.1 hl with hl | hl
  · exact I.kept _ _ _ hl
  · exact absurd hl (h _ _ _)

theorem OnlyLines.numbers {new : List (Stmt V3)} (h : OnlyLines new) :
    pointNumbers new = [] ∧ loopNumbers new = [] ∧ surfaceNumbers new = [] := by
  refine ⟨List.filterMap_eq_nil_iff.2 fun t ht => ?_, List.filterMap_eq_nil_iff.2 fun t ht => ?_,
    List.filterMap_eq_nil_iff.2 fun t ht => ?_⟩ <;> obtain ⟨_, _, _, rfl⟩ := h t ht <;> rfl

/-- The corners of a square, as numbers of points. -/
def corners4 (t : ℕ × ℕ × ℕ × ℕ) : List ℕ := [1 + t.1, 1 + t.2.1, 1 + t.2.2.1, 1 + t.2.2.2]

theorem carpetStmts_spec : ∀ (ts : List (ℕ × ℕ × ℕ × ℕ)) (n : ℕ) (acc : List (Stmt V3)) (s : CarpetLines),
    LinesInv acc s → (∀ t ∈ ts, ∀ k ∈ corners4 t, k ∈ pointNumbers acc) →
    (∀ t ∈ ts, (corners4 t).Nodup) →
    (∃ s', LinesInv (acc ++ carpetStmts n ts s) s') ∧ InOrder acc (carpetStmts n ts s) ∧
    (∀ t ∈ carpetStmts n ts s, ∀ k p, t ≠ .point k p) ∧
    loopNumbers (carpetStmts n ts s) = List.range' n ts.length ∧
    surfaceNumbers (carpetStmts n ts s) = List.range' n ts.length ∧
    List.Forall₂ (Bounds (acc ++ carpetStmts n ts s)) (List.range' n ts.length) (ts.map corners4) := by
  intro ts
  induction ts with
  | nil =>
    intro n acc s I _ _
    refine ⟨⟨s, ?_⟩, trivial, fun t ht => absurd ht List.not_mem_nil, rfl, rfl, .nil⟩
    show LinesInv (acc ++ []) s
    rwa [List.append_nil]
  | cons t ts ih =>
    intro n acc s I hp hn
    have hp0 := hp t (List.mem_cons_self ..)
    have hn0 := hn t (List.mem_cons_self ..)
    unfold corners4 at hp0 hn0
    simp only [List.forall_mem_cons] at hp0
    obtain ⟨q0, q1, q2, q3, -⟩ := hp0
    simp only [List.nodup_cons, List.mem_cons, List.not_mem_nil, or_false, not_or] at hn0
    obtain ⟨⟨d01, -, d03⟩, ⟨d12, -⟩, d23, -⟩ := hn0
    obtain ⟨I0, j0, o0, l0⟩ := carpetSide_spec I d01 q0 q1
    have r0e := (rfl : carpetSide s (1 + t.1) (1 + t.2.1) = _)
    generalize hr0 : carpetSide s (1 + t.1) (1 + t.2.1) = r0 at *
    have up : ∀ {k : ℕ} {acc new : List (Stmt V3)}, k ∈ pointNumbers acc → k ∈ pointNumbers (acc ++ new) := by
      intro k acc new h
      rw [pointNumbers_append]
      exact List.mem_append_left _ h
    obtain ⟨I1, j1, o1, l1⟩ := carpetSide_spec I0 d12 (up q1) (up q2)
    generalize hr1 : carpetSide r0.2.2 (1 + t.2.1) (1 + t.2.2.1) = r1 at *
    obtain ⟨I2, j2, o2, l2⟩ := carpetSide_spec I1 d23 (up (up q2)) (up (up q3))
    generalize hr2 : carpetSide r1.2.2 (1 + t.2.2.1) (1 + t.2.2.2) = r2 at *
    obtain ⟨I3, j3, o3, l3⟩ := carpetSide_spec I2 (Ne.symm d03) (up (up (up q3))) (up (up (up q0)))
    generalize hr3 : carpetSide r2.2.2 (1 + t.2.2.2) (1 + t.1) = r3 at *
    set tail : List (Stmt V3) := [.loop n [r0.1, r1.1, r2.1, r3.1], .surface n n] with htail
    have hbody : carpetStmts n (t :: ts) s =
        r0.2.1 ++ r1.2.1 ++ r2.2.1 ++ r3.2.1 ++ tail ++ carpetStmts (n + 1) ts r3.2.2 := by
      show (carpetSide s (1 + t.1) (1 + t.2.1)).2.1 ++ _ ++ _ ++ _ ++ _ ++ _ = _
      simp only [hr0, hr1, hr2, hr3]
      rfl
    set body : List (Stmt V3) := r0.2.1 ++ r1.2.1 ++ r2.2.1 ++ r3.2.1 with hb
    have hassoc : acc ++ r0.2.1 ++ r1.2.1 ++ r2.2.1 ++ r3.2.1 = acc ++ body := by
      rw [hb]; simp only [List.append_assoc]
    rw [hassoc] at I3 j3
    have I4 : LinesInv (acc ++ body ++ tail) r3.2.2 := I3.other tail (by simp [htail]) rfl
    obtain ⟨hI, hO, hP, hL, hS, hB⟩ := ih (n + 1) (acc ++ body ++ tail) r3.2.2 I4
      (fun t' ht' k hk => up (up (hp t' (List.mem_cons_of_mem _ ht') k hk)))
      (fun t' ht' => hn t' (List.mem_cons_of_mem _ ht'))
    rw [hbody]
    have hall : acc ++ (body ++ tail ++ carpetStmts (n + 1) ts r3.2.2)
        = acc ++ body ++ tail ++ carpetStmts (n + 1) ts r3.2.2 := by simp only [List.append_assoc]
    have m0 : ∀ u ∈ acc ++ r0.2.1, u ∈ acc ++ body := by
      intro u hu; rw [hb]; simp only [List.mem_append] at hu ⊢; tauto
    have m1 : ∀ u ∈ acc ++ r0.2.1 ++ r1.2.1, u ∈ acc ++ body := by
      intro u hu; rw [hb]; simp only [List.mem_append] at hu ⊢; tauto
    have m2 : ∀ u ∈ acc ++ r0.2.1 ++ r1.2.1 ++ r2.2.1, u ∈ acc ++ body := by
      intro u hu; rw [hb]; simp only [List.mem_append] at hu ⊢; tauto
    have ob : OnlyLines body := by
      intro u hu
      rw [hb] at hu
      simp only [List.mem_append] at hu
      rcases hu with ((hu | hu) | hu) | hu
      · exact l0 u hu
      · exact l1 u hu
      · exact l2 u hu
      · exact l3 u hu
    refine ⟨?_, ?_, ?_, ?_, ?_, ?_⟩
    · rw [hall]; exact hI
    · rw [inOrder_append, inOrder_append]
      refine ⟨⟨?_, ?_⟩, ?_⟩
      · rw [hb, inOrder_append, inOrder_append, inOrder_append]
        refine ⟨⟨⟨o0, o1⟩, ?_⟩, ?_⟩
        · rw [← List.append_assoc]; exact o2
        · rw [← List.append_assoc, ← List.append_assoc]; exact o3
      · refine ⟨?_, ?_, trivial⟩
        · intro l hl
          simp only [List.mem_cons, List.not_mem_nil, or_false] at hl
          rcases hl with rfl | rfl | rfl | rfl
          · exact (j0.mono m0).natAbs_mem
          · exact (j1.mono m1).natAbs_mem
          · exact (j2.mono m2).natAbs_mem
          · exact j3.natAbs_mem
        · show n ∈ loopNumbers _
          rw [loopNumbers_append]
          exact List.mem_append_right _ (List.mem_singleton.2 rfl)
      · rw [← List.append_assoc]; exact hO
    · intro u hu k p he
      subst he
      rcases List.mem_append.1 hu with hu | hu
      · rcases List.mem_append.1 hu with hu | hu
        · obtain ⟨_, _, _, h⟩ := ob _ hu
          cases h
        · simp [htail] at hu
      · exact hP _ hu k p rfl
    · rw [loopNumbers_append, loopNumbers_append, ob.numbers.2.1, hL, List.length_cons, List.range'_succ]
      rfl
    · rw [surfaceNumbers_append, surfaceNumbers_append, ob.numbers.2.2, hS, List.length_cons, List.range'_succ]
      rfl
    · rw [hall, List.length_cons, List.range'_succ, List.map_cons]
      refine .cons ?_ hB
      have mm : ∀ u ∈ acc ++ body, u ∈ acc ++ body ++ tail ++ carpetStmts (n + 1) ts r3.2.2 :=
        fun u hu => List.mem_append_left _ (List.mem_append_left _ hu)
      refine ⟨n, [r0.1, r1.1, r2.1, r3.1], ?_, ?_, ?_⟩
      · exact List.mem_append_left _ (List.mem_append_right _ (by simp [htail]))
      · exact List.mem_append_left _ (List.mem_append_right _ (by simp [htail]))
      · unfold Around corners4
        show List.Forall₂ _ _ [(1 + t.1, 1 + t.2.1), (1 + t.2.1, 1 + t.2.2.1), (1 + t.2.2.1, 1 + t.2.2.2),
          (1 + t.2.2.2, 1 + t.1)]
        exact .cons ((j0.mono m0).mono mm) <| .cons ((j1.mono m1).mono mm) <| .cons ((j2.mono m2).mono mm) <|
          .cons (j3.mono mm) .nil

end Verif.Shapes
