import Verif.Lemmas.Menger
import Verif.Lemmas.KochCode

/-!
# The statements written for the Menger sponge
-/

noncomputable section

namespace Verif.Shapes

variable {P : Type*}

theorem mem_lineNumbers {g : List (Stmt P)} {n : ℕ} : n ∈ lineNumbers g ↔ ∃ a b, .line n a b ∈ g := by
  unfold lineNumbers
  rw [List.mem_filterMap]
  constructor
  · rintro ⟨s, hs, h⟩
    cases s <;> simp at h
    subst h
    exact ⟨_, _, hs⟩
  · rintro ⟨a, b, h⟩
    exact ⟨_, h, rfl⟩

theorem mem_pointNumbers {g : List (Stmt P)} {n : ℕ} : n ∈ pointNumbers g ↔ ∃ p, .point n p ∈ g := by
  unfold pointNumbers
  rw [List.mem_filterMap]
  constructor
  · rintro ⟨s, hs, h⟩
    cases s <;> simp at h
    subst h
    exact ⟨_, hs⟩
  · rintro ⟨a, h⟩
    exact ⟨_, h, rfl⟩

theorem mem_loopNumbers {g : List (Stmt P)} {n : ℕ} : n ∈ loopNumbers g ↔ ∃ p, .loop n p ∈ g := by
  unfold loopNumbers
  rw [List.mem_filterMap]
  constructor
  · rintro ⟨s, hs, h⟩
    cases s <;> simp at h
    subst h
    exact ⟨_, hs⟩
  · rintro ⟨a, h⟩
    exact ⟨_, h, rfl⟩

theorem Joins.natAbs_mem {g : List (Stmt P)} {l : ℤ} {a b : ℕ} (h : Joins g l a b) :
    l.natAbs ∈ lineNumbers g := by
  rcases h with ⟨n, rfl, hn⟩ | ⟨n, rfl, hn⟩
  · rw [Int.natAbs_natCast]
    exact mem_lineNumbers.2 ⟨_, _, hn⟩
  · rw [Int.natAbs_neg, Int.natAbs_natCast]
    exact mem_lineNumbers.2 ⟨_, _, hn⟩

theorem Refers.mono {g h : List (Stmt P)} (H : ∀ s ∈ g, s ∈ h) {s : Stmt P} (r : Refers g s) :
    Refers h s := by
  have hp : ∀ n, n ∈ pointNumbers g → n ∈ pointNumbers h := fun n hn => by
    obtain ⟨p, hp⟩ := mem_pointNumbers.1 hn
    exact mem_pointNumbers.2 ⟨p, H _ hp⟩
  cases s with
  | point => trivial
  | line n a b => exact ⟨hp _ r.1, hp _ r.2.1, r.2.2⟩
  | loop n ls =>
    intro l hl
    obtain ⟨a, b, hab⟩ := mem_lineNumbers.1 (r l hl)
    exact mem_lineNumbers.2 ⟨a, b, H _ hab⟩
  | surface n l =>
    obtain ⟨p, hp⟩ := mem_loopNumbers.1 r
    exact mem_loopNumbers.2 ⟨p, H _ hp⟩

theorem inOrder_of_refers {b g : List (Stmt P)} (h : ∀ s ∈ g, Refers b s) : InOrder b g := by
  induction g generalizing b with
  | nil => trivial
  | cons s g ih =>
    refine ⟨h s (List.mem_cons_self ..), ih fun t ht => ?_⟩
    exact (h t (List.mem_cons_of_mem _ ht)).mono fun _ hs => List.mem_append_left _ hs

/-! ## The edge generator -/

/-- What holds of an edge generator between calls. -/
structure EdgeInv (good : ℕ → Prop) (eg : EdgeGen) : Prop where
  count : eg.edgeN = eg.lines.length + 1
  nums : lineNumbers eg.lines = List.range' 1 eg.lines.length
  only : ∀ s ∈ eg.lines, ∃ n a b, s = .line n a b ∧ 1 ≤ n ∧ a ≠ b ∧ good a ∧ good b
  found : ∀ a b l, eg.edges a b = some l → Joins eg.lines l a b
  kept : ∀ (n a b : ℕ), .line n a b ∈ eg.lines →
    eg.edges a b = some (n : ℤ) ∧ eg.edges b a = some (-(n : ℤ))
  node : ∀ k, eg.nodes k = true ↔ ∃ n a b, .line n a b ∈ eg.lines ∧ (k = a ∨ k = b)

theorem edgeInv_init (good : ℕ → Prop) : EdgeInv good EdgeGen.init where
  count := rfl
  nums := rfl
  only := fun s hs => absurd hs List.not_mem_nil
  found := fun _ _ _ h => by cases h
  kept := fun _ _ _ h => absurd h List.not_mem_nil
  node := fun k => by
    constructor
    · intro h; cases h
    · rintro ⟨_, _, _, h, _⟩; exact absurd h List.not_mem_nil

theorem edge_spec {good : ℕ → Prop} {eg : EdgeGen} (I : EdgeInv good eg) {s e : ℕ} (hne : s ≠ e)
    (hs : good s) (he : good e) :
    EdgeInv good (eg.edge s e).2 ∧ Joins (eg.edge s e).2.lines (eg.edge s e).1 s e ∧
      ∀ t ∈ eg.lines, t ∈ (eg.edge s e).2.lines := by
  cases h : eg.edges s e with
  | some l =>
    have hr : eg.edge s e = (l, { eg with nodes := fun k => if k = s ∨ k = e then true else eg.nodes k }) := by
      unfold EdgeGen.edge
      simp only [h]
    rw [hr]
    have hj := I.found s e l h
    refine ⟨⟨I.count, I.nums, I.only, I.found, I.kept, fun k => ?_⟩, hj, fun t ht => ht⟩
    simp only
    have hl : ∀ k, (k = s ∨ k = e) → ∃ n a b, .line n a b ∈ eg.lines ∧ (k = a ∨ k = b) := by
      intro k hk
      rcases hj with ⟨n, -, hn⟩ | ⟨n, -, hn⟩
      · exact ⟨n, s, e, hn, hk⟩
      · exact ⟨n, e, s, hn, hk.symm⟩
    by_cases hk : k = s ∨ k = e
    · rw [if_pos hk]
      exact ⟨fun _ => hl k hk, fun _ => rfl⟩
    · rw [if_neg hk]
      exact I.node k
  | none =>
    have hr : eg.edge s e = ((eg.edgeN : ℤ),
      { nodes := fun k => if k = s ∨ k = e then true else eg.nodes k
        edges := fun a b =>
          if a = e ∧ b = s then some (-(eg.edgeN : ℤ))
          else if a = s ∧ b = e then some (eg.edgeN : ℤ) else eg.edges a b
        lines := eg.lines ++ [.line eg.edgeN s e]
        edgeN := eg.edgeN + 1 }) := by
      unfold EdgeGen.edge
      simp only [h]
    rw [hr]
    have hlast : Stmt.line eg.edgeN s e ∈ eg.lines ++ [(.line eg.edgeN s e : Stmt V3)] :=
      List.mem_append_right _ (List.mem_singleton.2 rfl)
    refine ⟨⟨?_, ?_, ?_, ?_, ?_, ?_⟩, .inl ⟨_, rfl, hlast⟩, fun t ht => List.mem_append_left _ ht⟩
    · simp only [List.length_append, List.length_singleton, I.count]
    · simp only [lineNumbers_append, List.length_append, List.length_singleton, I.nums]
      rw [List.range'_concat]
      simp [lineNumbers, I.count, add_comm]
    · intro t ht
      rcases List.mem_append.1 ht with ht | ht
      · exact I.only t ht
      · exact ⟨_, s, e, List.mem_singleton.1 ht, by rw [I.count]; omega, hne, hs, he⟩
    · intro a b l hab
      simp only at hab
      split at hab
      · rename_i h'
        obtain ⟨rfl, rfl⟩ := h'
        cases hab
        exact .inr ⟨_, rfl, hlast⟩
      · split at hab
        · rename_i h'
          obtain ⟨rfl, rfl⟩ := h'
          cases hab
          exact .inl ⟨_, rfl, hlast⟩
        · exact (I.found a b l hab).mono fun t ht => List.mem_append_left _ ht
    · intro n a b hn
      simp only
      rcases List.mem_append.1 hn with hn | hn
      · obtain ⟨k1, k2⟩ := I.kept n a b hn
        have n1 : ¬(a = s ∧ b = e) := by
          rintro ⟨rfl, rfl⟩
          rw [h] at k1
          cases k1
        have n2 : ¬(b = s ∧ a = e) := by
          rintro ⟨rfl, rfl⟩
          rw [h] at k2
          cases k2
        rw [if_neg (fun h => n2 h.symm), if_neg n1, if_neg (fun h => n1 h.symm), if_neg n2]
        exact ⟨k1, k2⟩
      · have := List.mem_singleton.1 hn
        cases this
        rw [if_neg (fun h => hne h.1), if_pos ⟨rfl, rfl⟩, if_pos ⟨rfl, rfl⟩]
        exact ⟨rfl, rfl⟩
    · intro k
      simp only
      by_cases hk : k = s ∨ k = e
      · rw [if_pos hk]
        exact ⟨fun _ => ⟨_, s, e, hlast, hk⟩, fun _ => rfl⟩
      · rw [if_neg hk, I.node]
        constructor
        · rintro ⟨n, a, b, h1, h2⟩
          exact ⟨n, a, b, List.mem_append_left _ h1, h2⟩
        · rintro ⟨n, a, b, h1, h2⟩
          rcases List.mem_append.1 h1 with h1 | h1
          · exact ⟨n, a, b, h1, h2⟩
          · have := List.mem_singleton.1 h1
            cases this
            exact absurd h2 hk

theorem edgeCalls_spec {good : ℕ → Prop} (N : ℕ) : ∀ (es : List (N3 × N3)) {eg : EdgeGen},
    EdgeInv good eg →
    (∀ e ∈ es, getPoint N e.1 ≠ getPoint N e.2 ∧ good (getPoint N e.1) ∧ good (getPoint N e.2)) →
    EdgeInv good (edgeCalls N es eg).2 ∧
    List.Forall₂ (fun l e => Joins (edgeCalls N es eg).2.lines l (getPoint N e.1) (getPoint N e.2))
      (edgeCalls N es eg).1 es ∧
    ∀ t ∈ eg.lines, t ∈ (edgeCalls N es eg).2.lines := by
  intro es
  induction es with
  | nil => intro eg I _; exact ⟨I, .nil, fun t ht => ht⟩
  | cons e es ih =>
    intro eg I h
    obtain ⟨h1, h2, h3⟩ := h e (List.mem_cons_self ..)
    obtain ⟨I1, j1, m1⟩ := edge_spec I h1 h2 h3
    obtain ⟨I2, j2, m2⟩ := ih I1 fun e he => h e (List.mem_cons_of_mem _ he)
    exact ⟨I2, .cons (j1.mono m2) j2, fun t ht => m2 t (m1 t ht)⟩

theorem faceStmts_spec {good : ℕ → Prop} (N : ℕ) : ∀ (fs : List (List (N3 × N3))) (n : ℕ) {eg : EdgeGen},
    EdgeInv good eg →
    (∀ es ∈ fs, ∀ e ∈ es,
      getPoint N e.1 ≠ getPoint N e.2 ∧ good (getPoint N e.1) ∧ good (getPoint N e.2)) →
    EdgeInv good (faceStmts N n fs eg).2.2 ∧
    (∀ t ∈ eg.lines, t ∈ (faceStmts N n fs eg).2.2.lines) ∧
    loopNumbers (faceStmts N n fs eg).1 = List.range' n fs.length ∧
    surfaceNumbers (faceStmts N n fs eg).2.1 = List.range' n fs.length ∧
    (∀ t ∈ (faceStmts N n fs eg).1, ∃ k ls, t = .loop k ls ∧
      ∀ l ∈ ls, l.natAbs ∈ lineNumbers (faceStmts N n fs eg).2.2.lines) ∧
    (∀ t ∈ (faceStmts N n fs eg).2.1, ∃ k, t = .surface k k ∧
      k ∈ loopNumbers (faceStmts N n fs eg).1) ∧
    List.Forall₂ (fun k es => ∃ ls, .surface k k ∈ (faceStmts N n fs eg).2.1 ∧
      .loop k ls ∈ (faceStmts N n fs eg).1 ∧
      List.Forall₂ (fun l (e : N3 × N3) => Joins (faceStmts N n fs eg).2.2.lines l (getPoint N e.1)
        (getPoint N e.2)) ls es) (List.range' n fs.length) fs := by
  intro fs
  induction fs with
  | nil =>
    intro n eg I _
    exact ⟨I, fun t ht => ht, rfl, rfl, fun t ht => absurd ht List.not_mem_nil,
      fun t ht => absurd ht List.not_mem_nil, .nil⟩
  | cons f fs ih =>
    intro n eg I h
    obtain ⟨I1, j1, m1⟩ := edgeCalls_spec N f I (h f (List.mem_cons_self ..))
    obtain ⟨I2, m2, n1, n2, o1, o2, b2⟩ := ih (n + 1) I1 fun es hes => h es (List.mem_cons_of_mem _ hes)
    have hr : faceStmts N n (f :: fs) eg =
      (.loop n (edgeCalls N f eg).1 :: (faceStmts N (n + 1) fs (edgeCalls N f eg).2).1,
       .surface n n :: (faceStmts N (n + 1) fs (edgeCalls N f eg).2).2.1,
       (faceStmts N (n + 1) fs (edgeCalls N f eg).2).2.2) := rfl
    rw [hr]
    generalize faceStmts N (n + 1) fs (edgeCalls N f eg).2 = q at *
    have j1' := j1.imp fun (l : ℤ) (e : N3 × N3) hj => Joins.mono m2 hj
    refine ⟨I2, fun t ht => m2 t (m1 t ht), ?_, ?_, ?_, ?_, ?_⟩
    · show n :: loopNumbers q.1 = _
      rw [n1, List.length_cons, List.range'_succ]
    · show n :: surfaceNumbers q.2.1 = _
      rw [n2, List.length_cons, List.range'_succ]
    · intro t ht
      rcases List.mem_cons.1 ht with rfl | ht
      · refine ⟨n, _, rfl, fun l hl => ?_⟩
        obtain ⟨i, hi, rfl⟩ := List.getElem_of_mem hl
        have := List.forall₂_iff_get.1 j1' |>.2 i hi (by rw [← j1'.length_eq]; exact hi)
        exact Joins.natAbs_mem this
      · exact o1 t ht
    · intro t ht
      rcases List.mem_cons.1 ht with rfl | ht
      · exact ⟨n, rfl, List.mem_cons_self ..⟩
      · obtain ⟨k, hk, hk'⟩ := o2 t ht
        exact ⟨k, hk, List.mem_cons_of_mem _ hk'⟩
    · rw [List.length_cons, List.range'_succ]
      refine .cons ⟨_, List.mem_cons_self .., List.mem_cons_self .., j1'⟩ ?_
      refine b2.imp ?_
      rintro k es ⟨ls, h1, h2, h3⟩
      exact ⟨ls, List.mem_cons_of_mem _ h1, List.mem_cons_of_mem _ h2, h3⟩

/-! ## Numbers of points, and the sides of cells with natural coordinates -/

theorem getPoint_inj {N : ℕ} {p q : N3} (hp : p.1 ≤ N ∧ p.2.1 ≤ N ∧ p.2.2 ≤ N)
    (hq : q.1 ≤ N ∧ q.2.1 ≤ N ∧ q.2.2 ≤ N) (h : getPoint N p = getPoint N q) : p = q := by
  obtain ⟨x, y, z⟩ := p
  obtain ⟨x', y', z'⟩ := q
  unfold getPoint at h
  simp only at hp hq h
  have e : ∀ a b c : ℕ, a * (N + 1) ^ 2 + b * (N + 1) + c = c + (N + 1) * (b + (N + 1) * a) := by
    intro a b c; ring
  rw [e, e] at h
  have hz : z = z' := by
    have := congrArg (· % (N + 1)) h
    simp only [Nat.add_mul_mod_self_left] at this
    rwa [Nat.mod_eq_of_lt (by omega), Nat.mod_eq_of_lt (by omega)] at this
  subst hz
  have h2 : y + (N + 1) * x = y' + (N + 1) * x' := Nat.eq_of_mul_eq_mul_left (show 0 < N + 1 by omega) (by omega)
  have hy : y = y' := by
    have := congrArg (· % (N + 1)) h2
    simp only [Nat.add_mul_mod_self_left] at this
    rwa [Nat.mod_eq_of_lt (by omega), Nat.mod_eq_of_lt (by omega)] at this
  subst hy
  have hx : x = x' := Nat.eq_of_mul_eq_mul_left (show 0 < N + 1 by omega) (by omega)
  rw [hx]

/-- A lattice point with natural coordinates. -/
def toZ (p : N3) : Z3 := (p.1, p.2.1, p.2.2)

theorem toZ_inj {p q : N3} (h : toZ p = toZ q) : p = q := by
  obtain ⟨x, y, z⟩ := p
  obtain ⟨x', y', z'⟩ := q
  simp only [toZ, Prod.mk.injEq, Nat.cast_inj] at h
  rw [h.1, h.2.1, h.2.2]

/-- The side in direction `f` of the cell `p`. -/
def squareN (p : N3) : Fin 6 → List N3
  | 0 => [p, p + (0, 1, 0), p + (0, 1, 1), p + (0, 0, 1)]
  | 1 => [p + (1, 0, 0), p + (1, 0, 1), p + (1, 1, 1), p + (1, 1, 0)]
  | 2 => [p, p + (0, 0, 1), p + (1, 0, 1), p + (1, 0, 0)]
  | 3 => [p + (0, 1, 0), p + (1, 1, 0), p + (1, 1, 1), p + (0, 1, 1)]
  | 4 => [p, p + (1, 0, 0), p + (1, 1, 0), p + (0, 1, 0)]
  | 5 => [p + (0, 0, 1), p + (0, 1, 1), p + (1, 1, 1), p + (1, 0, 1)]

theorem squareN_toZ (p : N3) (f : Fin 6) : (squareN p f).map toZ = square (toZ p) f := by
  have h : ∀ q : N3, toZ (p + q) = toZ p + toZ q := by
    intro q
    unfold toZ
    simp
  have h0 : toZ p = toZ p + (0, 0, 0) := (add_zero _).symm
  fin_cases f <;> simp only [squareN, List.map_cons, List.map_nil, h] <;> unfold square <;>
    first
    | rfl
    | (conv_lhs => rw [h0])
      rfl

/-- The test for a side to be drawn. -/
def surf (n : ℕ) (p : N3) (f : Fin 6) : Bool :=
  isSolid n p.1 p.2.1 p.2.2 &&
    !isSolid n (p.1 + (dir f).1) (p.2.1 + (dir f).2.1) (p.2.2 + (dir f).2.2)

theorem surf_iff (n : ℕ) (p : N3) (f : Fin 6) : surf n p f = true ↔ OnSurface n (toZ p, f) := by
  unfold surf OnSurface
  rw [Bool.and_eq_true, Bool.not_eq_true', isSolid_iff, ← Bool.not_eq_true, isSolid_iff]
  rfl

theorem voxelFaces_eq (n : ℕ) (p : N3) : voxelFaces n p.1 p.2.1 p.2.2 =
    ((List.finRange 6).filter (surf n p)).map fun f => sides (squareN p f) := by
  obtain ⟨x, y, z⟩ := p
  have hf : List.finRange 6 = [0, 1, 2, 3, 4, 5] := rfl
  have hs : ∀ f : Fin 6, surf n (x, y, z) f = (isSolid n x y z &&
    !isSolid n (x + (dir f).1) (y + (dir f).2.1) (z + (dir f).2.2)) := fun f => rfl
  rw [hf]
  unfold voxelFaces
  simp only [List.filter_cons, List.filter_nil, hs, show dir 0 = (-1, 0, 0) from rfl,
    show dir 1 = (1, 0, 0) from rfl, show dir 2 = (0, -1, 0) from rfl, show dir 3 = (0, 1, 0) from rfl,
    show dir 4 = (0, 0, -1) from rfl, show dir 5 = (0, 0, 1) from rfl, add_zero, sub_eq_add_neg]
  cases isSolid n x y z with
  | false => rfl
  | true =>
    simp only [Bool.true_and, if_true]
    cases isSolid n (x + -1) y z <;> cases isSolid n (x + 1) y z <;> cases isSolid n x (y + -1) z <;>
      cases isSolid n x (y + 1) z <;> cases isSolid n x y (z + -1) <;> cases isSolid n x y (z + 1) <;> rfl

theorem mem_cubeRange (N : ℕ) (p : N3) : p ∈ cubeRange N ↔ p.1 < N ∧ p.2.1 < N ∧ p.2.2 < N := by
  obtain ⟨x, y, z⟩ := p
  unfold cubeRange
  simp only [List.mem_flatMap, List.mem_map, List.mem_range, Prod.mk.injEq]
  constructor
  · rintro ⟨a, ha, b, hb, c, hc, rfl, rfl, rfl⟩
    exact ⟨ha, hb, hc⟩
  · rintro ⟨ha, hb, hc⟩
    exact ⟨x, ha, y, hb, z, hc, rfl, rfl, rfl⟩

theorem nodup_cubeRange (N : ℕ) : (cubeRange N).Nodup := by
  unfold cubeRange
  rw [List.nodup_flatMap]
  refine ⟨fun x _ => ?_, List.nodup_range.imp ?_⟩
  · rw [List.nodup_flatMap]
    refine ⟨fun y _ => ?_, List.nodup_range.imp ?_⟩
    · exact List.nodup_range.map fun a b h => by simpa using h
    · intro a b hab p hp hq
      simp only [List.mem_map] at hp hq
      obtain ⟨_, _, rfl⟩ := hp
      obtain ⟨_, _, h⟩ := hq
      simp only [Prod.mk.injEq] at h
      exact hab h.2.1.symm
  · intro a b hab p hp hq
    simp only [List.mem_flatMap, List.mem_map] at hp hq
    obtain ⟨_, _, _, _, rfl⟩ := hp
    obtain ⟨_, _, _, _, h⟩ := hq
    simp only [Prod.mk.injEq] at h
    exact hab h.1.symm

/-- The sides drawn, in the order of the code. -/
def drawn (n : ℕ) : List (N3 × Fin 6) :=
  (cubeRange (3 ^ n)).flatMap fun p => ((List.finRange 6).filter (surf n p)).map fun f => (p, f)

theorem faces_eq (n : ℕ) : ((cubeRange (3 ^ n)).flatMap fun p => voxelFaces n p.1 p.2.1 p.2.2) =
    (drawn n).map fun b => sides (squareN b.1 b.2) := by
  unfold drawn
  rw [List.map_flatMap]
  refine List.flatMap_congr fun p _ => ?_
  rw [voxelFaces_eq, List.map_map]
  rfl

theorem nodup_drawn (n : ℕ) : (drawn n).Nodup := by
  unfold drawn
  rw [List.nodup_flatMap]
  refine ⟨fun p _ => ?_, (nodup_cubeRange _).imp ?_⟩
  · exact ((List.nodup_finRange 6).filter _).map fun a b h => by simpa using h
  · intro a b hab p hp hq
    simp only [List.mem_map] at hp hq
    obtain ⟨_, _, rfl⟩ := hp
    obtain ⟨_, _, h⟩ := hq
    simp only [Prod.mk.injEq] at h
    exact hab h.1.symm

theorem mem_drawn (n : ℕ) (p : N3) (f : Fin 6) : (p, f) ∈ drawn n ↔ OnSurface n (toZ p, f) := by
  unfold drawn
  simp only [List.mem_flatMap, List.mem_map, List.mem_filter, mem_cubeRange, Prod.mk.injEq, surf_iff]
  constructor
  · rintro ⟨q, _, g, ⟨-, hg⟩, rfl, rfl⟩
    exact hg
  · intro h
    refine ⟨p, ?_, f, ⟨List.mem_finRange f, h⟩, rfl, rfl⟩
    have := sponge_bounds n _ _ _ h.1
    have hN : (3 : ℤ) ^ n = ((3 ^ n : ℕ) : ℤ) := by push_cast; rfl
    rw [hN] at this
    generalize 3 ^ n = N at *
    omega

end Verif.Shapes
