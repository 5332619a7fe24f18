import Verif.Spec.Inside
import Mathlib.Tactic.Ring
import Mathlib.Tactic.FieldSimp
import Mathlib.Tactic.LinearCombination
import Mathlib.Tactic.Linarith
import Mathlib.Tactic.NormNum
import Mathlib.Algebra.Order.Ring.Abs
import Mathlib.Algebra.Order.Field.Basic
import Mathlib.Data.Rat.Cast.Order
import Mathlib.Algebra.Ring.Parity
/-
Property C37: the point-inside test.
-/
namespace Verif.Grid

variable {K : Type} [Field K] [LinearOrder K] [IsStrictOrderedRing K]

/-- **C37 (the ray test)** The return value is positive iff the triangle is not (nearly) vertical and the
vertical ray from `p` meets the closed triangle at a height of at least `eps`. -/
theorem C37_ray_partial (eps : K) (he : 0 < eps) (p v0 v1 v2 : P3 K) :
    0 < (zRayIntersectsTriangle eps p v0 v1 v2).1 ↔
      eps ≤ |(areaVector v0 v1 v2).z| ∧ ∃ α, eps ≤ α ∧ InTriangle v0 v1 v2 ⟨p.x, p.y, p.z + α⟩ := by
  unfold zRayIntersectsTriangle
  simp only
  obtain ⟨a, ha⟩ : ∃ a, a = (v1.sub v0).dot ((⟨0, 0, 1⟩ : P3 K).cross (v2.sub v0)) := ⟨_, rfl⟩
  have haz : (areaVector v0 v1 v2).z = -a := by
    rw [ha]; simp only [areaVector, P3.sub, P3.cross, P3.dot]; ring
  rw [haz, abs_neg]
  by_cases h1 : -eps < a ∧ a < eps
  · rw [← ha, if_pos h1]
    have : ¬ eps ≤ |a| := by rw [not_le, abs_lt]; exact h1
    simp [this]
  · have hab : eps ≤ |a| := by
      by_contra hc
      rw [not_le, abs_lt] at hc
      exact h1 hc
    have ha0 : a ≠ 0 := by
      rintro h0; rw [h0, abs_zero] at hab; linarith
    rw [← ha, if_neg h1]
    obtain ⟨u, hu⟩ : ∃ u, u = 1 / a * (p.sub v0).dot ((⟨0, 0, 1⟩ : P3 K).cross (v2.sub v0)) := ⟨_, rfl⟩
    obtain ⟨v, hv⟩ : ∃ v, v = 1 / a * (⟨0, 0, 1⟩ : P3 K).dot ((p.sub v0).cross (v1.sub v0)) := ⟨_, rfl⟩
    obtain ⟨t, ht⟩ : ∃ t, t = 1 / a * (v2.sub v0).dot ((p.sub v0).cross (v1.sub v0)) := ⟨_, rfl⟩
    rw [← hu, ← hv, ← ht]
    -- the ray meets the plane of the triangle in the point with coordinates (1 - u - v, u, v) at height t
    have hsol : Comb v0 v1 v2 ⟨p.x, p.y, p.z + t⟩ (1 - u - v) u v := by
      have hu' : a * u = (p.sub v0).dot ((⟨0, 0, 1⟩ : P3 K).cross (v2.sub v0)) := by rw [hu]; field_simp
      have hv' : a * v = (⟨0, 0, 1⟩ : P3 K).dot ((p.sub v0).cross (v1.sub v0)) := by rw [hv]; field_simp
      have ht' : a * t = (v2.sub v0).dot ((p.sub v0).cross (v1.sub v0)) := by rw [ht]; field_simp
      simp only [P3.sub, P3.cross, P3.dot] at hu' hv' ht' ha
      refine ⟨by ring, ?_, ?_, ?_⟩ <;> apply mul_left_cancel₀ ha0 <;> simp only
      · linear_combination (p.x - v0.x) * ha - (v1.x - v0.x) * hu' - (v2.x - v0.x) * hv'
      · linear_combination (p.y - v0.y) * ha - (v1.y - v0.y) * hu' - (v2.y - v0.y) * hv'
      · linear_combination (p.z - v0.z) * ha - (v1.z - v0.z) * hu' - (v2.z - v0.z) * hv' + ht'
    have huniq : ∀ α u' v' w', Comb v0 v1 v2 ⟨p.x, p.y, p.z + α⟩ u' v' w' → v' = u ∧ w' = v ∧ α = t := by
      rintro α u' v' w' ⟨c1, c2, c3, c4⟩
      obtain ⟨-, d2, d3, d4⟩ := hsol
      simp only [P3.sub, P3.cross, P3.dot] at ha
      simp only at c2 c3 c4 d2 d3 d4
      have hu1 : u' = 1 - v' - w' := by linarith
      subst hu1
      have hv1 : v' = u := by
        apply mul_left_cancel₀ ha0
        linear_combination (v' - u) * ha - (v2.x - v0.x) * (c3 - d3) + (v2.y - v0.y) * (c2 - d2)
      have hw1 : w' = v := by
        apply mul_left_cancel₀ ha0
        linear_combination (w' - v) * ha + (v1.x - v0.x) * (c3 - d3) - (v1.y - v0.y) * (c2 - d2)
      refine ⟨hv1, hw1, ?_⟩
      subst hv1 hw1
      linarith
    have key : (eps ≤ |a| ∧ ∃ α, eps ≤ α ∧ InTriangle v0 v1 v2 ⟨p.x, p.y, p.z + α⟩) ↔
        0 ≤ u ∧ 0 ≤ v ∧ u + v ≤ 1 ∧ eps ≤ t := by
      constructor
      · rintro ⟨-, α, hα, u', v', w', g1, g2, g3, g⟩
        obtain ⟨rfl, rfl, rfl⟩ := huniq α u' v' w' g
        exact ⟨g2, g3, by linarith [g.1], hα⟩
      · rintro ⟨g1, g2, g3, g4⟩
        exact ⟨hab, t, g4, _, _, _, by linarith, g1, g2, hsol⟩
    rw [key]
    by_cases c1 : u < 0 ∨ 1 < u
    · rw [if_pos c1]
      constructor
      · intro h; simp at h
      · rintro ⟨g1, g2, g3, -⟩
        rcases c1 with c | c <;> exact absurd c (by linarith)
    · rw [if_neg c1]
      by_cases c2 : v < 0 ∨ 1 < u + v
      · rw [if_pos c2]
        constructor
        · intro h; simp at h
        · rintro ⟨g1, g2, g3, -⟩
          rcases c2 with c | c <;> exact absurd c (by linarith)
      · rw [if_neg c2]
        push Not at c1 c2
        by_cases c3 : t < eps
        · rw [if_pos c3]
          constructor
          · intro h; simp at h
          · rintro ⟨-, -, -, g⟩; exact absurd c3 (by linarith)
        · rw [if_neg c3]
          have hpos : ∀ (i : P3 K), 0 < (if (u = 0 ∧ v = 0) ∨ (u = 0 ∧ v = 1) ∨ (u = 1 ∧ v = 0) then
              ((1 : K) / 6, some i) else if u = 0 ∨ v = 0 ∨ u + v = 1 then (1 / 2, some i) else (1, some i)).1 := by
            intro i
            split
            · norm_num
            · split <;> norm_num
          constructor
          · intro _; exact ⟨c1.1, c2.1, c2.2, not_lt.mp c3⟩
          · intro _; exact hpos _

theorem zRay_some (eps : K) (p v0 v1 v2 : P3 K) (h : 0 < (zRayIntersectsTriangle eps p v0 v1 v2).1) :
    ∃ r i, zRayIntersectsTriangle eps p v0 v1 v2 = (r, some i) := by
  unfold zRayIntersectsTriangle at h ⊢
  simp only at h ⊢
  split_ifs at h ⊢ <;> first | exact ⟨_, _, rfl⟩ | (exfalso; simp at h)

/-- The ray enters the bounding interval of a triangle it meets. -/
theorem meets_bounds (t : Tri3 K) (p : P3 K) (α : K)
    (h : InTriangle t.1 t.2.1 t.2.2 ⟨p.x, p.y, p.z + α⟩) :
    lowOf P3.x t ≤ p.x ∧ p.x ≤ highOf P3.x t ∧ lowOf P3.y t ≤ p.y ∧ p.y ≤ highOf P3.y t := by
  obtain ⟨u, v, w, h1, h2, h3, hs, hx, hy, -⟩ := h
  simp only at hx hy
  have gen : ∀ a b c m : K, m = u * a + v * b + w * c → min a (min b c) ≤ m ∧ m ≤ max a (max b c) := by
    intro a b c m hm
    have hu : u = 1 - v - w := by linarith
    obtain ⟨l, hl⟩ : ∃ l, l = min a (min b c) := ⟨_, rfl⟩
    obtain ⟨g, hg⟩ : ∃ l, l = max a (max b c) := ⟨_, rfl⟩
    have la : l ≤ a := by rw [hl]; exact min_le_left _ _
    have lb : l ≤ b := by rw [hl]; exact (min_le_right _ _).trans (min_le_left _ _)
    have lc : l ≤ c := by rw [hl]; exact (min_le_right _ _).trans (min_le_right _ _)
    have ga : a ≤ g := by rw [hg]; exact le_max_left _ _
    have gb : b ≤ g := by rw [hg]; exact (le_max_left _ _).trans (le_max_right _ _)
    have gc : c ≤ g := by rw [hg]; exact (le_max_right _ _).trans (le_max_right _ _)
    rw [← hl, ← hg]
    have e1 := mul_le_mul_of_nonneg_left la h1
    have e2 := mul_le_mul_of_nonneg_left lb h2
    have e3 := mul_le_mul_of_nonneg_left lc h3
    have f1 := mul_le_mul_of_nonneg_left ga h1
    have f2 := mul_le_mul_of_nonneg_left gb h2
    have f3 := mul_le_mul_of_nonneg_left gc h3
    have el : u * l + v * l + w * l = l := by rw [← add_mul, ← add_mul, hs, one_mul]
    have eg : u * g + v * g + w * g = g := by rw [← add_mul, ← add_mul, hs, one_mul]
    exact ⟨by linarith, by linarith⟩
  obtain ⟨a, b⟩ := gen _ _ _ _ hx
  obtain ⟨c, d⟩ := gen _ _ _ _ hy
  exact ⟨a, b, c, d⟩

/-- The list of intersections is empty iff no triangle is hit. -/
theorem intersections_ne (eps : K) (he : 0 < eps) (p : P3 K) (ts : List (Tri3 K)) :
    (intersectionsOf eps p ts).length ≠ 0 ↔
      ∃ t ∈ ts, 0 < (zRayIntersectsTriangle eps p t.1 t.2.1 t.2.2).1 := by
  unfold intersectionsOf
  have gen : ∀ (l : List (P3 K)),
      (ts.foldl (fun l t =>
    if lowOf P3.x t ≤ p.x ∧ p.x ≤ highOf P3.x t ∧ lowOf P3.y t ≤ p.y ∧ p.y ≤ highOf P3.y t then
      match zRayIntersectsTriangle eps p t.1 t.2.1 t.2.2 with
      | (r, some i) => if 0 < r then (if isNew eps i l then l ++ [i] else l) else l
      | (_, none) => l
    else l) l).length ≠ 0 ↔ l.length ≠ 0 ∨
      ∃ t ∈ ts, 0 < (zRayIntersectsTriangle eps p t.1 t.2.1 t.2.2).1 := by
    induction ts with
    | nil => intro l; simp
    | cons t ts ih =>
      intro l
      rw [List.foldl_cons, ih]
      by_cases hhit : 0 < (zRayIntersectsTriangle eps p t.1 t.2.1 t.2.2).1
      · have hb := (C37_ray_partial eps he p t.1 t.2.1 t.2.2).mp hhit
        obtain ⟨-, α, -, hin⟩ := hb
        obtain ⟨r, i, hr⟩ := zRay_some eps p _ _ _ hhit
        rw [if_pos (meets_bounds t p α hin), hr]
        rw [hr] at hhit
        simp only at hhit ⊢
        rw [if_pos hhit]
        have hne : (if isNew eps i l = true then l ++ [i] else l).length ≠ 0 := by
          by_cases hn : isNew eps i l = true
          · rw [if_pos hn]; simp
          · rw [if_neg hn]
            intro h0
            have : l = [] := List.length_eq_zero_iff.mp h0
            subst this
            exact hn rfl
        constructor
        · intro _; right; exact ⟨t, List.mem_cons_self, by rw [hr]; exact hhit⟩
        · intro _; exact Or.inl hne
      · have hsame : (if lowOf P3.x t ≤ p.x ∧ p.x ≤ highOf P3.x t ∧ lowOf P3.y t ≤ p.y ∧ p.y ≤ highOf P3.y t then
            match zRayIntersectsTriangle eps p t.1 t.2.1 t.2.2 with
            | (r, some i) => if 0 < r then (if isNew eps i l then l ++ [i] else l) else l
            | (_, none) => l
          else l) = l := by
          split
          · rcases hz : zRayIntersectsTriangle eps p t.1 t.2.1 t.2.2 with ⟨r, _ | i⟩
            · rfl
            · rw [hz] at hhit
              simp only at hhit ⊢
              rw [if_neg hhit]
          · rfl
        rw [hsame]
        constructor
        · rintro (h | ⟨t', ht', h⟩)
          · exact Or.inl h
          · exact Or.inr ⟨t', List.mem_cons_of_mem _ ht', h⟩
        · rintro (h | ⟨t', ht', h⟩)
          · exact Or.inl h
          · rcases List.mem_cons.mp ht' with rfl | ht'
            · exact absurd h hhit
            · exact Or.inr ⟨t', ht', h⟩
  refine (gen []).trans ?_
  simp

theorem minCoeff_le (f : Tri3 K → K) (t : Tri3 K) (ts : List (Tri3 K)) (z : K) :
    (z < minCoeff f t ts ↔ ∀ s ∈ t :: ts, z < f s) ∧ (maxCoeff f t ts < z ↔ ∀ s ∈ t :: ts, f s < z) := by
  unfold minCoeff maxCoeff
  constructor
  · have : ∀ m, z < ts.foldl (fun m s => min m (f s)) m ↔ z < m ∧ ∀ s ∈ ts, z < f s := by
      induction ts with
      | nil => intro m; simp
      | cons a ts ih => intro m; rw [List.foldl_cons, ih]; simp [and_assoc]
    rw [this]; simp
  · have : ∀ m, ts.foldl (fun m s => max m (f s)) m < z ↔ m < z ∧ ∀ s ∈ ts, f s < z := by
      induction ts with
      | nil => intro m; simp
      | cons a ts ih => intro m; rw [List.foldl_cons, ih]; simp [and_assoc]
    rw [this]; simp

theorem inBox_iff (t : Tri3 K) (ts : List (Tri3 K)) (p : P3 K) :
    InBox p (t :: ts) ↔ ¬ (p.x < minCoeff (lowOf P3.x) t ts ∨ maxCoeff (highOf P3.x) t ts < p.x ∨
     p.y < minCoeff (lowOf P3.y) t ts ∨ maxCoeff (highOf P3.y) t ts < p.y ∨
     p.z < minCoeff (lowOf P3.z) t ts ∨ maxCoeff (highOf P3.z) t ts < p.z) := by
  have low : ∀ (c : P3 K → K), (¬ c p < minCoeff (lowOf c) t ts) ↔
      ∃ s ∈ t :: ts, ∃ q ∈ [s.1, s.2.1, s.2.2], c q ≤ c p := by
    intro c
    rw [(minCoeff_le (lowOf c) t ts (c p)).1]
    push Not
    apply exists_congr; intro s
    apply and_congr_right; intro _
    simp [lowOf, min3]
  have high : ∀ (c : P3 K → K), (¬ maxCoeff (highOf c) t ts < c p) ↔
      ∃ s ∈ t :: ts, ∃ q ∈ [s.1, s.2.1, s.2.2], c p ≤ c q := by
    intro c
    rw [(minCoeff_le (highOf c) t ts (c p)).2]
    push Not
    apply exists_congr; intro s
    apply and_congr_right; intro _
    simp [highOf, max3]
  unfold InBox
  simp only [not_or, low, high, List.mem_cons, List.not_mem_nil, or_false, forall_eq_or_imp, forall_eq,
    and_assoc]

/-- **C37 (partial)** What the code computes: a point is reported as inside iff it lies in the bounding box
of the grid and the upward ray meets at least one triangle (for points in general position). -/
theorem C37_hit_partial (eps : K) (he : 0 < eps) (t : Tri3 K) (ts : List (Tri3 K)) (p : P3 K)
    (hgen : Resolved eps p (t :: ts)) :
    isInside eps t ts p = true ↔ InBox p (t :: ts) ∧ ∃ s ∈ t :: ts, RayMeets p s := by
  unfold isInside
  rw [inBox_iff]
  have hits : (∃ s ∈ t :: ts, 0 < (zRayIntersectsTriangle eps p s.1 s.2.1 s.2.2).1) ↔
      ∃ s ∈ t :: ts, RayMeets p s := by
    apply exists_congr; intro s
    apply and_congr_right; intro hs
    rw [C37_ray_partial eps he]
    constructor
    · rintro ⟨-, α, hα, hin⟩; exact ⟨α, by linarith, hin⟩
    · rintro ⟨α, hα, hin⟩
      obtain ⟨h1, h2⟩ := hgen s hs
      exact ⟨h1, α, (h2 α hα hin).1, hin⟩
  by_cases hb : p.x < minCoeff (lowOf P3.x) t ts ∨ maxCoeff (highOf P3.x) t ts < p.x ∨
     p.y < minCoeff (lowOf P3.y) t ts ∨ maxCoeff (highOf P3.y) t ts < p.y ∨
     p.z < minCoeff (lowOf P3.z) t ts ∨ maxCoeff (highOf P3.z) t ts < p.z
  · rw [if_pos hb]; simp [hb]
  · rw [if_neg hb]
    simp only [hb, not_false_eq_true, true_and]
    rw [decide_eq_true_iff, intersections_ne eps he, hits]

/-- **C37 (partial)** The answer is the odd-parity answer whenever the point lies in the bounding box and the
ray crosses the surface at most once (for instance: every point inside the bounding box of a closed convex
surface that does not lie below it).  Missing: two or more crossings, see the counterexample. -/
theorem C37_parity_partial (eps : K) (he : 0 < eps) (t : Tri3 K) (ts : List (Tri3 K)) (p : P3 K)
    (hgen : Resolved eps p (t :: ts)) (hbox : InBox p (t :: ts)) (hone : crossings p (t :: ts) ≤ 1) :
    isInside eps t ts p = true ↔ Odd (crossings p (t :: ts)) := by
  classical
  rw [C37_hit_partial eps he t ts p hgen]
  have hpos : (∃ s ∈ t :: ts, RayMeets p s) ↔ 0 < crossings p (t :: ts) := by
    unfold crossings
    rw [List.length_pos_iff_exists_mem]
    simp only [List.mem_filter, decide_eq_true_eq]
  rw [hpos]
  constructor
  · rintro ⟨-, h⟩
    have : crossings p (t :: ts) = 1 := by omega
    rw [this]; exact odd_one
  · intro h; exact ⟨hbox, h.pos⟩

/-! The counterexample: a tetrahedron standing on its tip `D`, and a point beside the tip, inside the
bounding box and outside the tetrahedron. -/

def tetA : P3 ℚ := ⟨0, 0, 4⟩
def tetB : P3 ℚ := ⟨4, 0, 4⟩
def tetC : P3 ℚ := ⟨0, 4, 4⟩
def tetD : P3 ℚ := ⟨1, 1, 0⟩

/-- The faces of the tetrahedron: a closed surface. -/
def tetFaces : List (Tri3 ℚ) := [(tetA, tetB, tetC), (tetA, tetB, tetD), (tetA, tetC, tetD), (tetB, tetC, tetD)]

def besideTip : P3 ℚ := ⟨2, 1, 1/2⟩

theorem tet_ABC (α : ℚ) : InTriangle tetA tetB tetC ⟨2, 1, 1/2 + α⟩ → α = 7/2 := by
  rintro ⟨u, v, w, h1, h2, h3, c1, c2, c3, c4⟩
  simp only [tetA, tetB, tetC] at c2 c3 c4
  linarith

theorem tet_BCD (α : ℚ) : InTriangle tetB tetC tetD ⟨2, 1, 1/2 + α⟩ → α = 3/2 := by
  rintro ⟨u, v, w, h1, h2, h3, c1, c2, c3, c4⟩
  simp only [tetB, tetC, tetD] at c2 c3 c4
  linarith

theorem tet_ABD (α : ℚ) : ¬ InTriangle tetA tetB tetD ⟨2, 1, 1/2 + α⟩ := by
  rintro ⟨u, v, w, h1, h2, h3, c1, c2, c3, c4⟩
  simp only [tetA, tetB, tetD] at c2 c3 c4
  linarith

theorem tet_ACD (α : ℚ) : ¬ InTriangle tetA tetC tetD ⟨2, 1, 1/2 + α⟩ := by
  rintro ⟨u, v, w, h1, h2, h3, c1, c2, c3, c4⟩
  simp only [tetA, tetC, tetD] at c2 c3 c4
  linarith

theorem tet_hit1 : InsideTriangle tetA tetB tetC ⟨2, 1, 1/2 + 7/2⟩ :=
  ⟨1/4, 1/2, 1/4, by norm_num, by norm_num, by norm_num, by
    simp only [Comb, tetA, tetB, tetC]; norm_num⟩

theorem tet_hit2 : InsideTriangle tetB tetC tetD ⟨2, 1, 1/2 + 3/2⟩ :=
  ⟨3/8, 1/8, 1/2, by norm_num, by norm_num, by norm_num, by
    simp only [Comb, tetB, tetC, tetD]; norm_num⟩

theorem InsideTriangle.closed {a b c p : P3 K} (h : InsideTriangle a b c p) : InTriangle a b c p := by
  obtain ⟨u, v, w, h1, h2, h3, h4⟩ := h
  exact ⟨u, v, w, h1.le, h2.le, h3.le, h4⟩

theorem tet_resolved : Resolved (1 / 10 ^ 10) besideTip tetFaces := by
  intro t ht
  simp only [tetFaces, List.mem_cons, List.not_mem_nil, or_false] at ht
  rcases ht with rfl | rfl | rfl | rfl
  · refine ⟨by simp only [areaVector, tetA, tetB, tetC]; norm_num [abs_of_pos], ?_⟩
    intro α hα hin
    have := tet_ABC α hin
    subst this
    exact ⟨by norm_num, tet_hit1⟩
  · refine ⟨by simp only [areaVector, tetA, tetB, tetD]; norm_num [abs_of_pos], ?_⟩
    intro α hα hin
    exact absurd hin (tet_ABD α)
  · refine ⟨by simp only [areaVector, tetA, tetC, tetD]; norm_num [abs_of_neg], ?_⟩
    intro α hα hin
    exact absurd hin (tet_ACD α)
  · refine ⟨by simp only [areaVector, tetB, tetC, tetD]; norm_num [abs_of_pos], ?_⟩
    intro α hα hin
    have := tet_BCD α hin
    subst this
    exact ⟨by norm_num, tet_hit2⟩

theorem tet_inBox : InBox besideTip tetFaces := by
  intro c hc
  simp only [List.mem_cons, List.not_mem_nil, or_false] at hc
  rcases hc with rfl | rfl | rfl
  · exact ⟨⟨(tetA, tetB, tetC), by simp [tetFaces], tetA, by simp, by norm_num [tetA, besideTip]⟩,
      ⟨(tetA, tetB, tetC), by simp [tetFaces], tetB, by simp, by norm_num [tetB, besideTip]⟩⟩
  · exact ⟨⟨(tetA, tetB, tetC), by simp [tetFaces], tetA, by simp, by norm_num [tetA, besideTip]⟩,
      ⟨(tetA, tetB, tetC), by simp [tetFaces], tetC, by simp, by norm_num [tetC, besideTip]⟩⟩
  · exact ⟨⟨(tetA, tetB, tetD), by simp [tetFaces], tetD, by simp, by norm_num [tetD, besideTip]⟩,
      ⟨(tetA, tetB, tetC), by simp [tetFaces], tetA, by simp, by norm_num [tetA, besideTip]⟩⟩

/-- **C37 is false**: for the tetrahedron and the point beside its tip, in general position, the ray crosses the
surface an even number of times (twice), yet the point is reported as inside. -/
theorem C37_counterexample_parity :
    ∃ (t : Tri3 ℚ) (ts : List (Tri3 ℚ)) (p : P3 ℚ), t :: ts = tetFaces ∧
      Resolved (1 / 10 ^ 10) p (t :: ts) ∧ crossings p (t :: ts) = 2 ∧
      isInside (1 / 10 ^ 10) t ts p = true := by
  classical
  refine ⟨_, _, besideTip, rfl, tet_resolved, ?_, ?_⟩
  · have m1 : RayMeets besideTip (tetA, tetB, tetC) := ⟨7/2, by norm_num, tet_hit1.closed⟩
    have m2 : ¬ RayMeets besideTip (tetA, tetB, tetD) := by
      rintro ⟨α, -, h⟩; exact tet_ABD α h
    have m3 : ¬ RayMeets besideTip (tetA, tetC, tetD) := by
      rintro ⟨α, -, h⟩; exact tet_ACD α h
    have m4 : RayMeets besideTip (tetB, tetC, tetD) := ⟨3/2, by norm_num, tet_hit2.closed⟩
    unfold crossings
    simp [List.filter, m1, m2, m3, m4]
  · rw [C37_hit_partial _ (by norm_num) _ _ _ tet_resolved]
    exact ⟨tet_inBox, (tetA, tetB, tetC), by simp, 7/2, by norm_num, tet_hit1.closed⟩

/-- Non-vacuity of the partial C37: a point with exactly one crossing. -/
example : ∃ (t : Tri3 ℚ) (ts : List (Tri3 ℚ)) (p : P3 ℚ),
    Resolved (1 / 10 ^ 10) p (t :: ts) ∧ InBox p (t :: ts) ∧ crossings p (t :: ts) = 1 := by
  classical
  refine ⟨(tetA, tetB, tetC), [(tetA, tetB, tetD)], besideTip, ?_, ?_, ?_⟩
  · intro t ht
    apply tet_resolved t
    simp only [List.mem_cons, List.not_mem_nil, or_false] at ht
    rcases ht with rfl | rfl <;> simp [tetFaces]
  · intro c hc
    simp only [List.mem_cons, List.not_mem_nil, or_false] at hc
    rcases hc with rfl | rfl | rfl
    · exact ⟨⟨(tetA, tetB, tetC), by simp, tetA, by simp, by norm_num [tetA, besideTip]⟩,
        ⟨(tetA, tetB, tetC), by simp, tetB, by simp, by norm_num [tetB, besideTip]⟩⟩
    · exact ⟨⟨(tetA, tetB, tetC), by simp, tetA, by simp, by norm_num [tetA, besideTip]⟩,
        ⟨(tetA, tetB, tetC), by simp, tetC, by simp, by norm_num [tetC, besideTip]⟩⟩
    · exact ⟨⟨(tetA, tetB, tetD), by simp, tetD, by simp, by norm_num [tetD, besideTip]⟩,
        ⟨(tetA, tetB, tetC), by simp, tetA, by simp, by norm_num [tetA, besideTip]⟩⟩
  · have m1 : RayMeets besideTip (tetA, tetB, tetC) := ⟨7/2, by norm_num, tet_hit1.closed⟩
    have m2 : ¬ RayMeets besideTip (tetA, tetB, tetD) := by
      rintro ⟨α, -, h⟩; exact tet_ABD α h
    unfold crossings
    simp [List.filter, m1, m2]

end Verif.Grid
