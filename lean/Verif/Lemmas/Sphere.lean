import Verif.Lemmas.SphereRefine
import Mathlib.Algebra.BigOperators.Intervals

/-!
# The regular sphere stays a triangulation of the sphere when it is refined
-/

noncomputable section

namespace Verif.Shapes.Sphere

/-- nonnegative coefficients on the corners of an element -/
structure Cone (t : Tri) (c : ℕ → ℝ) : Prop where
  nonneg : ∀ k, 0 ≤ c k
  zero : ∀ k, k ∉ cornersOf t → c k = 0

/-- the combination of the corners with these coefficients -/
def value (P : List V3) (t : Tri) (c : ℕ → ℝ) : V3 := fun i =>
  c t.1 * nodeAt P t.1 i + c t.2.1 * nodeAt P t.2.1 i + c t.2.2 * nodeAt P t.2.2 i

/-- the squared length -/
def sq (p : V3) : ℝ := p 0 * p 0 + p 1 * p 1 + p 2 * p 2

/-- what holds at every level -/
structure Good (P : List V3) (els : List Tri) : Prop where
  inRange : ∀ t ∈ els, ∀ k ∈ cornersOf t, k < P.length
  unit : ∀ k < P.length, sq (nodeAt P k) = 1
  closed : ClosedSurface (els.map cornersOf)
  pos : ∀ t ∈ els, 0 < det3 (nodeAt P t.1) (nodeAt P t.2.1) (nodeAt P t.2.2)
  used : ∀ k < P.length, ∃ t ∈ els, k ∈ cornersOf t
  unique : ∀ t ∈ els, ∀ t' ∈ els, ∀ c c', Cone t c → Cone t' c' → value P t c = value P t' c' → c = c'
  exist : ∀ x, ∃ t ∈ els, ∃ c, Cone t c ∧ value P t c = x

theorem det3_eq_left (u v : V3) : det3 u u v = 0 := by unfold det3; ring
theorem det3_eq_right (u v : V3) : det3 v u u = 0 := by unfold det3; ring
theorem det3_eq_outer (u v : V3) : det3 u v u = 0 := by unfold det3; ring
theorem det3_rotate (u v w : V3) : det3 v w u = det3 u v w := by unfold det3; ring
theorem det3_reverse (u v w : V3) : det3 w v u = -det3 u v w := by unfold det3; ring

variable {P : List V3} {els : List Tri}

theorem Good.ne (G : Good P els) {t : Tri} (ht : t ∈ els) : t.1 ≠ t.2.1 ∧ t.2.1 ≠ t.2.2 ∧ t.2.2 ≠ t.1 := by
  have h := G.pos t ht
  refine ⟨fun e => ?_, fun e => ?_, fun e => ?_⟩ <;> rw [e] at h
  · rw [det3_eq_left] at h; exact lt_irrefl _ h
  · rw [det3_eq_right] at h; exact lt_irrefl _ h
  · rw [det3_eq_outer] at h; exact lt_irrefl _ h

theorem Good.ne_side (G : Good P els) {e : ℕ × ℕ} (he : e ∈ allSides els) : e.1 ≠ e.2 := by
  obtain ⟨t, ht, h⟩ := mem_allSides.1 he
  obtain ⟨h1, h2, h3⟩ := G.ne ht
  rw [sides_corners] at h
  simp only [List.mem_cons, List.not_mem_nil, or_false] at h
  rcases h with rfl | rfl | rfl <;> assumption

theorem Good.lt_side (G : Good P els) {e : ℕ × ℕ} (he : e ∈ allSides els) : e.1 < P.length ∧ e.2 < P.length := by
  obtain ⟨t, ht, h⟩ := mem_allSides.1 he
  obtain ⟨h1, h2⟩ := mem_sides h
  exact ⟨G.inRange t ht _ h1, G.inRange t ht _ h2⟩

/-- the factor by which the end points of an edge are multiplied -/
def rho (P : List V3) (a b : ℕ) : ℝ := 0.5 / √(sq (midNode P a b))

theorem rho_comm (a b : ℕ) : rho P a b = rho P b a := by unfold rho; rw [midNode_comm]

theorem normalise_midNode (a b : ℕ) (i : Fin 3) :
    normalise (midNode P a b) i = rho P a b * (nodeAt P a i + nodeAt P b i) := by
  show midNode P a b i / √(sq (midNode P a b)) = _
  unfold rho
  rw [show midNode P a b i = 0.5 * (nodeAt P a i + nodeAt P b i) from rfl]
  ring

theorem sq_pos_of {p : V3} (h : p ≠ 0) : 0 < sq p := by
  by_contra hc
  apply h
  unfold sq at hc
  have h0 := mul_self_nonneg (p 0)
  have h1 := mul_self_nonneg (p 1)
  have h2 := mul_self_nonneg (p 2)
  funext i
  fin_cases i
  · exact mul_self_eq_zero.1 (show p 0 * p 0 = 0 by linarith)
  · exact mul_self_eq_zero.1 (show p 1 * p 1 = 0 by linarith)
  · exact mul_self_eq_zero.1 (show p 2 * p 2 = 0 by linarith)

theorem det3_opposite {u v w : V3} {m : V3} (hm : m = fun i => 0.5 * (u i + v i)) (h : det3 u v w ≠ 0) : m ≠ 0 := by
  intro h0
  apply h
  have e : ∀ i, v i = -u i := by
    intro i
    have : m i = 0 := by rw [h0]; rfl
    rw [hm] at this
    dsimp only at this
    linarith
  unfold det3
  rw [e 0, e 1, e 2]
  ring

theorem Good.mid_ne (G : Good P els) {e : ℕ × ℕ} (he : e ∈ allSides els) : midNode P e.1 e.2 ≠ 0 := by
  obtain ⟨t, ht, h⟩ := mem_allSides.1 he
  have hp := (G.pos t ht).ne'
  rw [sides_corners] at h
  simp only [List.mem_cons, List.not_mem_nil, or_false] at h
  rcases h with rfl | rfl | rfl
  · exact det3_opposite rfl hp
  · rw [← det3_rotate] at hp
    exact det3_opposite rfl hp
  · rw [← det3_rotate, ← det3_rotate] at hp
    exact det3_opposite rfl hp

theorem Good.rho_pos (G : Good P els) {e : ℕ × ℕ} (he : e ∈ allSides els) : 0 < rho P e.1 e.2 := by
  unfold rho
  have := Real.sqrt_pos.2 (sq_pos_of (G.mid_ne he))
  positivity

theorem sq_normalise {p : V3} (h : p ≠ 0) : sq (normalise p) = 1 := by
  have hp := sq_pos_of h
  have hs := Real.sqrt_pos.2 hp
  have hm := Real.mul_self_sqrt hp.le
  have : sq (normalise p) = sq p / (√(sq p) * √(sq p)) := by
    show p 0 / √(sq p) * (p 0 / √(sq p)) + p 1 / √(sq p) * (p 1 / √(sq p)) + p 2 / √(sq p) * (p 2 / √(sq p))
      = (p 0 * p 0 + p 1 * p 1 + p 2 * p 2) / (√(sq p) * √(sq p))
    generalize √(sq p) = s at *
    field_simp
  rw [this, hm, div_self hp.ne']

theorem normalise_unit {p : V3} (h : sq p = 1) : normalise p = p := by
  funext i
  show p i / √(sq p) = p i
  rw [h, Real.sqrt_one, div_one]

/-! ## The nodes of the refined surface -/

variable {P' : List V3} {els' : List Tri} {m : ℕ → ℕ → ℕ}

theorem Good.old (G : Good P els) (R : Refined P els P' els' m) {k : ℕ} (hk : k < P.length) :
    nodeAt P' k = nodeAt P k := by
  rw [R.old k hk, normalise_unit (G.unit k hk)]

theorem new_node (R : Refined P els P' els' m) {e : ℕ × ℕ} (he : e ∈ allSides els) (i : Fin 3) :
    nodeAt P' (m e.1 e.2) i = rho P e.1 e.2 * (nodeAt P e.1 i + nodeAt P e.2 i) := by
  rw [R.new e he, normalise_midNode]

theorem side1 {t : Tri} (ht : t ∈ els) : (t.1, t.2.1) ∈ allSides els :=
  mem_allSides.2 ⟨t, ht, by rw [sides_corners]; simp⟩
theorem side2 {t : Tri} (ht : t ∈ els) : (t.2.1, t.2.2) ∈ allSides els :=
  mem_allSides.2 ⟨t, ht, by rw [sides_corners]; simp⟩
theorem side3 {t : Tri} (ht : t ∈ els) : (t.2.2, t.1) ∈ allSides els :=
  mem_allSides.2 ⟨t, ht, by rw [sides_corners]; simp⟩

/-- everything about the six nodes of a refined element -/
structure Six (P P' : List V3) (m : ℕ → ℕ → ℕ) (t : Tri) : Prop where
  l0 : t.1 < P.length
  l1 : t.2.1 < P.length
  l2 : t.2.2 < P.length
  n01 : t.1 ≠ t.2.1
  n12 : t.2.1 ≠ t.2.2
  n20 : t.2.2 ≠ t.1
  g0 : P.length ≤ m t.1 t.2.1
  g1 : P.length ≤ m t.2.1 t.2.2
  g2 : P.length ≤ m t.2.2 t.1
  g0' : m t.1 t.2.1 < P'.length
  g1' : m t.2.1 t.2.2 < P'.length
  g2' : m t.2.2 t.1 < P'.length
  m01 : m t.1 t.2.1 ≠ m t.2.1 t.2.2
  m12 : m t.2.1 t.2.2 ≠ m t.2.2 t.1
  m20 : m t.2.2 t.1 ≠ m t.1 t.2.1
  r0 : 0 < rho P t.1 t.2.1
  r1 : 0 < rho P t.2.1 t.2.2
  r2 : 0 < rho P t.2.2 t.1
  p0 : nodeAt P' t.1 = nodeAt P t.1
  p1 : nodeAt P' t.2.1 = nodeAt P t.2.1
  p2 : nodeAt P' t.2.2 = nodeAt P t.2.2
  q0 : ∀ i, nodeAt P' (m t.1 t.2.1) i = rho P t.1 t.2.1 * (nodeAt P t.1 i + nodeAt P t.2.1 i)
  q1 : ∀ i, nodeAt P' (m t.2.1 t.2.2) i = rho P t.2.1 t.2.2 * (nodeAt P t.2.1 i + nodeAt P t.2.2 i)
  q2 : ∀ i, nodeAt P' (m t.2.2 t.1) i = rho P t.2.2 t.1 * (nodeAt P t.2.2 i + nodeAt P t.1 i)

theorem Good.six (G : Good P els) (R : Refined P els P' els' m) {t : Tri} (ht : t ∈ els) : Six P P' m t := by
  obtain ⟨h1, h2, h3⟩ := G.ne ht
  have l0 := G.inRange t ht t.1 (by simp [cornersOf])
  have l1 := G.inRange t ht t.2.1 (by simp [cornersOf])
  have l2 := G.inRange t ht t.2.2 (by simp [cornersOf])
  refine ⟨l0, l1, l2, h1, h2, h3, (R.range _ (side1 ht)).1, (R.range _ (side2 ht)).1, (R.range _ (side3 ht)).1,
    (R.range _ (side1 ht)).2, (R.range _ (side2 ht)).2, (R.range _ (side3 ht)).2, ?_, ?_, ?_,
    G.rho_pos (side1 ht), G.rho_pos (side2 ht), G.rho_pos (side3 ht), G.old R l0, G.old R l1, G.old R l2,
    new_node R (side1 ht), new_node R (side2 ht), new_node R (side3 ht)⟩
  · intro h
    rcases R.inj _ (side1 ht) _ (side2 ht) h with h | h <;> simp only [Prod.swap, Prod.mk.injEq] at h
    · exact h1 h.1
    · exact h3 h.1.symm
  · intro h
    rcases R.inj _ (side2 ht) _ (side3 ht) h with h | h <;> simp only [Prod.swap, Prod.mk.injEq] at h
    · exact h2 h.1
    · exact h1 h.1.symm
  · intro h
    rcases R.inj _ (side3 ht) _ (side1 ht) h with h | h <;> simp only [Prod.swap, Prod.mk.injEq] at h
    · exact h3 h.1
    · exact h2 h.1.symm

theorem mem_els' (R : Refined P els P' els' m) {T : Tri} : T ∈ els' ↔ ∃ t ∈ els, T ∈ sub m t := by
  rw [R.els', List.mem_flatMap]

theorem mem_sub {t T : Tri} : T ∈ sub m t ↔
    T = (t.1, m t.1 t.2.1, m t.2.2 t.1) ∨ T = (m t.1 t.2.1, t.2.1, m t.2.1 t.2.2) ∨
    T = (m t.2.1 t.2.2, t.2.2, m t.2.2 t.1) ∨ T = (m t.1 t.2.1, m t.2.1 t.2.2, m t.2.2 t.1) := by
  unfold sub
  simp only [List.mem_cons, List.not_mem_nil, or_false]

theorem step_inRange (G : Good P els) (R : Refined P els P' els' m) :
    ∀ t ∈ els', ∀ k ∈ cornersOf t, k < P'.length := by
  intro T hT k hk
  obtain ⟨t, ht, h⟩ := (mem_els' R).1 hT
  have S := G.six R ht
  have := R.le
  have := S.l0; have := S.l1; have := S.l2; have := S.g0'; have := S.g1'; have := S.g2'
  rcases mem_sub.1 h with rfl | rfl | rfl | rfl <;>
    simp only [cornersOf, List.mem_cons, List.not_mem_nil, or_false] at hk <;>
    rcases hk with rfl | rfl | rfl <;> omega

theorem step_unit (G : Good P els) (R : Refined P els P' els' m) : ∀ k < P'.length, sq (nodeAt P' k) = 1 := by
  intro k hk
  by_cases h : k < P.length
  · rw [G.old R h, G.unit k h]
  · obtain ⟨e, he, rfl⟩ := R.surj k (by omega) hk
    rw [R.new e he, sq_normalise (G.mid_ne he)]

theorem step_pos (G : Good P els) (R : Refined P els P' els' m) :
    ∀ t ∈ els', 0 < det3 (nodeAt P' t.1) (nodeAt P' t.2.1) (nodeAt P' t.2.2) := by
  intro T hT
  obtain ⟨t, ht, h⟩ := (mem_els' R).1 hT
  have S := G.six R ht
  have hp := G.pos t ht
  have r0 := S.r0; have r1 := S.r1; have r2 := S.r2
  rcases mem_sub.1 h with rfl | rfl | rfl | rfl <;> dsimp only
  · have : det3 (nodeAt P' t.1) (nodeAt P' (m t.1 t.2.1)) (nodeAt P' (m t.2.2 t.1)) =
        rho P t.1 t.2.1 * rho P t.2.2 t.1 * det3 (nodeAt P t.1) (nodeAt P t.2.1) (nodeAt P t.2.2) := by
      unfold det3
      simp only [S.q0, S.q2, S.p0]
      ring
    rw [this]; positivity
  · have : det3 (nodeAt P' (m t.1 t.2.1)) (nodeAt P' t.2.1) (nodeAt P' (m t.2.1 t.2.2)) =
        rho P t.1 t.2.1 * rho P t.2.1 t.2.2 * det3 (nodeAt P t.1) (nodeAt P t.2.1) (nodeAt P t.2.2) := by
      unfold det3
      simp only [S.q0, S.q1, S.p1]
      ring
    rw [this]; positivity
  · have : det3 (nodeAt P' (m t.2.1 t.2.2)) (nodeAt P' t.2.2) (nodeAt P' (m t.2.2 t.1)) =
        rho P t.2.1 t.2.2 * rho P t.2.2 t.1 * det3 (nodeAt P t.1) (nodeAt P t.2.1) (nodeAt P t.2.2) := by
      unfold det3
      simp only [S.q1, S.q2, S.p2]
      ring
    rw [this]; positivity
  · have : det3 (nodeAt P' (m t.1 t.2.1)) (nodeAt P' (m t.2.1 t.2.2)) (nodeAt P' (m t.2.2 t.1)) =
        2 * (rho P t.1 t.2.1 * rho P t.2.1 t.2.2 * rho P t.2.2 t.1) *
          det3 (nodeAt P t.1) (nodeAt P t.2.1) (nodeAt P t.2.2) := by
      unfold det3
      simp only [S.q0, S.q1, S.q2]
      ring
    rw [this]; positivity

theorem step_used (G : Good P els) (R : Refined P els P' els' m) :
    ∀ k < P'.length, ∃ t ∈ els', k ∈ cornersOf t := by
  intro k hk
  by_cases h : k < P.length
  · obtain ⟨t, ht, h⟩ := G.used k h
    simp only [cornersOf, List.mem_cons, List.not_mem_nil, or_false] at h
    rcases h with rfl | rfl | rfl
    · exact ⟨_, (mem_els' R).2 ⟨t, ht, mem_sub.2 (Or.inl rfl)⟩, by simp [cornersOf]⟩
    · exact ⟨_, (mem_els' R).2 ⟨t, ht, mem_sub.2 (Or.inr (Or.inl rfl))⟩, by simp [cornersOf]⟩
    · exact ⟨_, (mem_els' R).2 ⟨t, ht, mem_sub.2 (Or.inr (Or.inr (Or.inl rfl)))⟩, by simp [cornersOf]⟩
  · obtain ⟨e, he, rfl⟩ := R.surj k (by omega) hk
    obtain ⟨t, ht, h⟩ := mem_allSides.1 he
    refine ⟨_, (mem_els' R).2 ⟨t, ht, mem_sub.2 (Or.inr (Or.inr (Or.inr rfl)))⟩, ?_⟩
    rw [sides_corners] at h
    simp only [List.mem_cons, List.not_mem_nil, or_false] at h
    rcases h with rfl | rfl | rfl <;> simp [cornersOf]

/-! ## The refined surface is closed -/

/-- the twelve sides of the four elements -/
theorem sides_sub (t : Tri) : allSides (sub m t) =
    [(t.1, m t.1 t.2.1), (m t.1 t.2.1, m t.2.2 t.1), (m t.2.2 t.1, t.1),
     (m t.1 t.2.1, t.2.1), (t.2.1, m t.2.1 t.2.2), (m t.2.1 t.2.2, m t.1 t.2.1),
     (m t.2.1 t.2.2, t.2.2), (t.2.2, m t.2.2 t.1), (m t.2.2 t.1, m t.2.1 t.2.2),
     (m t.1 t.2.1, m t.2.1 t.2.2), (m t.2.1 t.2.2, m t.2.2 t.1), (m t.2.2 t.1, m t.1 t.2.1)] := rfl

theorem allSides_flatMap (f : Tri → List Tri) : allSides (els.flatMap f) = els.flatMap fun t => allSides (f t) := by
  unfold allSides
  rw [List.map_flatMap, List.flatMap_assoc]

/-- two sides of an element that meet in `y` -/
def Turn (t : Tri) (x y z : ℕ) : Prop := t = (x, y, z) ∨ t = (z, x, y) ∨ t = (y, z, x)

theorem Turn.sides {t : Tri} {x y z : ℕ} (h : Turn t x y z) :
    (x, y) ∈ sides (cornersOf t) ∧ (y, z) ∈ sides (cornersOf t) ∧ (z, x) ∈ sides (cornersOf t) := by
  rw [sides_corners]
  rcases h with rfl | rfl | rfl <;> simp

theorem Turn.det {t : Tri} {x y z : ℕ} (h : Turn t x y z) (p : ℕ → V3) :
    det3 (p t.1) (p t.2.1) (p t.2.2) = det3 (p x) (p y) (p z) := by
  rcases h with rfl | rfl | rfl <;> dsimp only
  · rw [← det3_rotate]
  · rw [det3_rotate]

/-- the three kinds of sides of the refined element -/
theorem side_cases {t : Tri} {e : ℕ × ℕ} (h : e ∈ allSides (sub m t)) :
    (∃ d ∈ sides (cornersOf t), e = (d.1, m d.1 d.2) ∨ e = (m d.1 d.2, d.2)) ∨
    ∃ x y z, Turn t x y z ∧ (e = (m x y, m y z) ∨ e = (m y z, m x y)) := by
  rw [sides_sub] at h
  simp only [List.mem_cons, List.not_mem_nil, or_false] at h
  obtain ⟨a, b, c⟩ := t
  rw [sides_corners]
  dsimp only at h ⊢
  rcases h with h | h | h | h | h | h | h | h | h | h | h | h
  · exact Or.inl ⟨(a, b), by simp, Or.inl h⟩
  · exact Or.inr ⟨c, a, b, Or.inr (Or.inr rfl), Or.inr h⟩
  · exact Or.inl ⟨(c, a), by simp, Or.inr h⟩
  · exact Or.inl ⟨(a, b), by simp, Or.inr h⟩
  · exact Or.inl ⟨(b, c), by simp, Or.inl h⟩
  · exact Or.inr ⟨a, b, c, Or.inl rfl, Or.inr h⟩
  · exact Or.inl ⟨(b, c), by simp, Or.inr h⟩
  · exact Or.inl ⟨(c, a), by simp, Or.inl h⟩
  · exact Or.inr ⟨b, c, a, Or.inr (Or.inl rfl), Or.inr h⟩
  · exact Or.inr ⟨a, b, c, Or.inl rfl, Or.inl h⟩
  · exact Or.inr ⟨b, c, a, Or.inr (Or.inl rfl), Or.inl h⟩
  · exact Or.inr ⟨c, a, b, Or.inr (Or.inr rfl), Or.inl h⟩

theorem disjoint_sub (G : Good P els) (R : Refined P els P' els' m) {t t' : Tri} (ht : t ∈ els) (ht' : t' ∈ els)
    (hd : List.Disjoint (sides (cornersOf t)) (sides (cornersOf t'))) :
    List.Disjoint (allSides (sub m t)) (allSides (sub m t')) := by
  intro e h h'
  have hal : ∀ {t e}, t ∈ els → e ∈ sides (cornersOf t) → e ∈ allSides els :=
    fun h h' => mem_allSides.2 ⟨_, h, h'⟩
  rcases side_cases h with ⟨d, hds, h⟩ | ⟨x, y, z, hT, h⟩ <;>
    rcases side_cases h' with ⟨d', hds', h'⟩ | ⟨x', y', z', hT', h'⟩
  · have hl := G.lt_side (hal ht hds)
    have hl' := G.lt_side (hal ht' hds')
    have hn := G.ne_side (hal ht hds)
    have hg := R.range _ (hal ht hds)
    have hg' := R.range _ (hal ht' hds')
    rcases h with rfl | rfl <;> rcases h' with h' | h' <;> rw [Prod.mk.injEq] at h'
    · rcases R.inj _ (hal ht hds) _ (hal ht' hds') h'.2 with h | h
      · rw [h] at hds
        exact hd hds hds'
      · rw [h] at hn h'
        exact hn.symm h'.1.symm
    · omega
    · omega
    · rcases R.inj _ (hal ht hds) _ (hal ht' hds') h'.1 with h | h
      · rw [h] at hds
        exact hd hds hds'
      · rw [h] at hn h'
        exact hn h'.2.symm
  · have hl := G.lt_side (hal ht hds)
    have s' := hT'.sides
    have h1 := R.range _ (hal ht' s'.1)
    have h2 := R.range _ (hal ht' s'.2.1)
    dsimp only at h1 h2
    rcases h with rfl | rfl <;> rcases h' with h' | h' <;> rw [Prod.mk.injEq] at h' <;> omega
  · have hl := G.lt_side (hal ht' hds')
    have s' := hT.sides
    have h1 := R.range _ (hal ht s'.1)
    have h2 := R.range _ (hal ht s'.2.1)
    dsimp only at h1 h2
    rcases h with rfl | rfl <;> rcases h' with h' | h' <;> rw [Prod.mk.injEq] at h' <;> omega
  · have s := hT.sides
    have s' := hT'.sides
    have nxy := G.ne_side (hal ht s.1)
    have nyz := G.ne_side (hal ht s.2.1)
    have nzx := G.ne_side (hal ht s.2.2)
    have nxy' := G.ne_side (hal ht' s'.1)
    have nyz' := G.ne_side (hal ht' s'.2.1)
    dsimp only at nxy nyz nzx nxy' nyz'
    have hcases : (m x y = m x' y' ∧ m y z = m y' z') ∨ (m x y = m y' z' ∧ m y z = m x' y') := by
      rcases h with rfl | rfl <;> rcases h' with h' | h' <;> rw [Prod.mk.injEq] at h'
      · exact Or.inl h'
      · exact Or.inr h'
      · exact Or.inr ⟨h'.2, h'.1⟩
      · exact Or.inl ⟨h'.2, h'.1⟩
    rcases hcases with ⟨h1, h2⟩ | ⟨h1, h2⟩
    · rcases R.inj _ (hal ht s.1) _ (hal ht' s'.1) h1 with e1 | e1
      · exact hd s.1 (e1 ▸ s'.1)
      · rcases R.inj _ (hal ht s.2.1) _ (hal ht' s'.2.1) h2 with e2 | e2
        · exact hd s.2.1 (e2 ▸ s'.2.1)
        · simp only [Prod.swap, Prod.mk.injEq] at e1 e2
          omega
    · rcases R.inj _ (hal ht s.1) _ (hal ht' s'.2.1) h1 with e1 | e1
      · exact hd s.1 (e1 ▸ s'.2.1)
      · rcases R.inj _ (hal ht s.2.1) _ (hal ht' s'.1) h2 with e2 | e2
        · exact hd s.2.1 (e2 ▸ s'.1)
        · simp only [Prod.swap, Prod.mk.injEq] at e1 e2
          have p := G.pos t ht
          have p' := G.pos t' ht'
          rw [hT.det (nodeAt P)] at p
          rw [hT'.det (nodeAt P), ← e1.1, ← e1.2, ← e2.2, det3_reverse] at p'
          linarith

theorem step_closed (G : Good P els) (R : Refined P els P' els' m) : ClosedSurface (els'.map cornersOf) := by
  have hall : (els'.map cornersOf).flatMap sides = els.flatMap fun t => allSides (sub m t) := by
    rw [R.els', ← allSides_flatMap]
    rfl
  have honce : (els.flatMap fun t => sides (cornersOf t)).Nodup := by
    have := G.closed.once
    rw [List.flatMap_map] at this
    exact this
  constructor
  · rw [hall, List.nodup_flatMap]
    constructor
    · intro t ht
      have S := G.six R ht
      have := S.l0; have := S.l1; have := S.l2; have := S.g0; have := S.g1; have := S.g2
      have := S.n01; have := S.n12; have := S.n20; have := S.m01; have := S.m12; have := S.m20
      rw [sides_sub]
      simp only [List.nodup_cons, List.mem_cons, List.not_mem_nil, or_false, Prod.mk.injEq, not_false_eq_true,
        List.nodup_nil, and_true]
      refine ⟨?_, ?_, ?_, ?_, ?_, ?_, ?_, ?_, ?_, ?_, ?_⟩ <;> omega
    · have hp := (List.nodup_flatMap.1 honce).2
      refine List.Pairwise.imp_of_mem ?_ hp
      intro t t' ht ht' h
      exact disjoint_sub G R ht ht' h
  · rw [hall]
    intro e he
    rw [List.mem_flatMap] at he ⊢
    obtain ⟨t, ht, he⟩ := he
    have hback : ∀ d ∈ sides (cornersOf t), ∃ t' ∈ els, d.swap ∈ sides (cornersOf t') := by
      intro d hd
      exact mem_allSides.1 (G.closed.back d (mem_allSides.2 ⟨t, ht, hd⟩))
    rcases side_cases he with ⟨d, hd, h⟩ | ⟨x, y, z, hT, h⟩
    · obtain ⟨t', ht', hd'⟩ := hback d hd
      refine ⟨t', ht', ?_⟩
      have hc := R.comm d.1 d.2
      rw [sides_sub]
      rw [sides_corners] at hd'
      simp only [List.mem_cons, List.not_mem_nil, or_false, Prod.swap, Prod.mk.injEq] at hd'
      rcases h with rfl | rfl <;> rcases hd' with ⟨h1, h2⟩ | ⟨h1, h2⟩ | ⟨h1, h2⟩ <;>
        rw [hc, h1, h2] <;> simp
    · refine ⟨t, ht, ?_⟩
      rw [sides_sub]
      rcases hT with rfl | rfl | rfl <;> rcases h with rfl | rfl <;> simp

end Verif.Shapes.Sphere
