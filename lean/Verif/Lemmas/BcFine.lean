import Verif.Lemmas.BcFan
/-
The sides of the refinement of an oriented surface.
-/
namespace Verif.Space
open Verif.Grid

variable {K : Type}

section
variable (g : GridData K) (hg : g.Valid) (hs : OrientedSurface g)
include hg hs

theorem fan_of (x : Nat) (hx : x < 3 * g.data.elements.length) :
    ∃ l, Fan g (cornerAt g x) l ∧ (FanClosed g l ∨ FanOpen g l) ∧ x ∈ l := by
  obtain ⟨l, -, hl, hco⟩ := hs (cornerAt g x) (corner_lt g hg x hx)
  exact ⟨l, hl, hco, (hl.mem x).mpr ⟨hx, rfl⟩⟩

/-- A corner is determined by its vertex and the next one. -/
theorem dir_inj (x y : Nat) (hx : x < 3 * g.data.elements.length) (hy : y < 3 * g.data.elements.length)
    (h1 : cornerAt g x = cornerAt g y) (h2 : cornerAt g (nextCorner x) = cornerAt g (nextCorner y)) : x = y := by
  obtain ⟨l, hl, -, hm⟩ := fan_of g hg hs x hx
  exact hl.after_inj hm ((hl.mem y).mpr ⟨hy, h1.symm⟩) h2

theorem dir_inj' (x y : Nat) (hx : x < 3 * g.data.elements.length) (hy : y < 3 * g.data.elements.length)
    (h1 : cornerAt g x = cornerAt g y) (h2 : cornerAt g (prevCorner x) = cornerAt g (prevCorner y)) : x = y := by
  obtain ⟨l, hl, hco, hm⟩ := fan_of g hg hs x hx
  exact hl.before_inj hco hm ((hl.mem y).mpr ⟨hy, h1.symm⟩) h2

/-- Two triangles run through their common side in opposite directions. -/
theorem opposite (x y : Nat) (hx : x < 3 * g.data.elements.length) (hy : y < 3 * g.data.elements.length)
    (h : outEdge g x = outEdge g y) (hne : x ≠ y) :
    cornerAt g x = cornerAt g (nextCorner y) ∧ cornerAt g (nextCorner x) = cornerAt g y := by
  rcases (outEdge_eq_iff g hg x y hx hy).mp h with ⟨h1, h2⟩ | h1
  · exact absurd (dir_inj g hg hs x y hx hy h1 h2) hne
  · exact h1

theorem at_most_two (x y z : Nat) (hx : x < 3 * g.data.elements.length) (hy : y < 3 * g.data.elements.length)
    (hz : z < 3 * g.data.elements.length) (h1 : outEdge g x = outEdge g y) (h2 : outEdge g x = outEdge g z) (hxy : x ≠ y) (hxz : x ≠ z) :
    y = z := by
  obtain ⟨a1, a2⟩ := opposite g hg hs x y hx hy h1 hxy
  obtain ⟨b1, b2⟩ := opposite g hg hs x z hx hz h2 hxz
  exact dir_inj g hg hs y z hy hz (a2.symm.trans b2) (a1.symm.trans b1)

end

/-- Triangle `F` of the refinement. -/
def fineTri (g : GridData K) (F : Nat) : Tri :=
  if F % 2 = 0 then ⟨cornerAt g (F / 2), g.data.nnodes + g.data.edges.length + F / 6, g.data.nnodes + outEdge g (prevCorner (F / 2))⟩
  else ⟨cornerAt g (F / 2), g.data.nnodes + outEdge g (F / 2), g.data.nnodes + g.data.edges.length + F / 6⟩

theorem fine_get (g : GridData K) (hg : g.Valid) (F : Nat) (hF : F < 6 * g.data.elements.length) :
    (baryElements g)[F]? = some (fineTri g F) := by
  have he : F / 6 < g.data.elements.length := by omega
  have ht := List.getElem?_eq_getElem he
  obtain ⟨f0, f1, f2, p0, p1, p2, hf, -⟩ := element_edges g hg (F / 6) _ ht
  have h := baryElements_get g hg (F / 6) _ ht f0 f1 f2 hf (F % 6) (Nat.mod_lt _ (by omega))
  rw [show 6 * (F / 6) + F % 6 = F by omega] at h
  rw [h]
  have hdiv : F / 2 / 3 = F / 6 := by omega
  have hc : cornerAt g (F / 2) = _ := cornerAt_eq g (F / 2) g.data.elements[F / 6] (by rw [hdiv]; exact ht)
  have ho : outEdge g (F / 2) = _ := outEdge_side g hg (F / 2)
  have hp : outEdge g (prevCorner (F / 2)) = _ := outEdge_side g hg (prevCorner (F / 2))
  rw [prev_div] at hp
  rw [hdiv] at ho hp
  unfold sideEdge at ho hp
  rw [hf] at ho hp
  have hpm : prevCorner (F / 2) % 3 = (F / 2 % 3 + 2) % 3 := by unfold prevCorner; omega
  rw [hpm] at hp
  unfold fineTri
  rw [hc, ho, hp]
  have h6 : F % 6 = 0 ∨ F % 6 = 1 ∨ F % 6 = 2 ∨ F % 6 = 3 ∨ F % 6 = 4 ∨ F % 6 = 5 := by omega
  rcases h6 with h | h | h | h | h | h
  · have a : F % 2 = 0 := by omega
    have b : F / 2 % 3 = 0 := by omega
    simp [h, a, b, sonList]
  · have a : F % 2 = 1 := by omega
    have b : F / 2 % 3 = 0 := by omega
    simp [h, a, b, sonList]
  · have a : F % 2 = 0 := by omega
    have b : F / 2 % 3 = 1 := by omega
    simp [h, a, b, sonList]
  · have a : F % 2 = 1 := by omega
    have b : F / 2 % 3 = 1 := by omega
    simp [h, a, b, sonList]
  · have a : F % 2 = 0 := by omega
    have b : F / 2 % 3 = 2 := by omega
    simp [h, a, b, sonList]
  · have a : F % 2 = 1 := by omega
    have b : F / 2 % 3 = 2 := by omega
    simp [h, a, b, sonList]

theorem fineTri_even (g : GridData K) (x : Nat) : fineTri g (2 * x) =
    ⟨cornerAt g x, g.data.nnodes + g.data.edges.length + x / 3, g.data.nnodes + outEdge g (prevCorner x)⟩ := by
  unfold fineTri
  rw [if_pos (by omega), show 2 * x / 2 = x by omega, show 2 * x / 6 = x / 3 by omega]

theorem fineTri_odd (g : GridData K) (x : Nat) : fineTri g (2 * x + 1) =
    ⟨cornerAt g x, g.data.nnodes + outEdge g x, g.data.nnodes + g.data.edges.length + x / 3⟩ := by
  unfold fineTri
  rw [if_neg (by omega), show (2 * x + 1) / 2 = x by omega, show (2 * x + 1) / 6 = x / 3 by omega]

/-- How triangles of the refinement touch: inside a triangle at a corner, across an edge, inside a triangle at an edge. -/
inductive Touch (g : GridData K) : Nat → Nat → Nat → Nat → Prop
  | corner (x : Nat) (hx : x < 3 * g.data.elements.length) : Touch g (2 * x + 1) 1 (2 * x) 0
  | across (x y : Nat) (hx : x < 3 * g.data.elements.length) (hy : y < 3 * g.data.elements.length) (h : cornerAt g x = cornerAt g y)
      (h' : cornerAt g (prevCorner x) = cornerAt g (nextCorner y)) : Touch g (2 * x) 1 (2 * y + 1) 0
  | edge (x : Nat) (hx : x < 3 * g.data.elements.length) : Touch g (2 * x + 1) 2 (2 * nextCorner x) 2

theorem Touch.inv {g : GridData K} {F s F' s' : Nat} (h : Touch g F s F' s') :
    (s = 1 ∧ s' = 0 ∧ ∃ x < 3 * g.data.elements.length, F = 2 * x + 1 ∧ F' = 2 * x) ∨
    (s = 1 ∧ s' = 0 ∧ ∃ x < 3 * g.data.elements.length, ∃ y < 3 * g.data.elements.length, F = 2 * x ∧ F' = 2 * y + 1 ∧
      cornerAt g x = cornerAt g y ∧ cornerAt g (prevCorner x) = cornerAt g (nextCorner y)) ∨
    (s = 2 ∧ s' = 2 ∧ ∃ x < 3 * g.data.elements.length, F = 2 * x + 1 ∧ F' = 2 * nextCorner x) := by
  cases h with
  | corner x hx => exact Or.inl ⟨rfl, rfl, x, hx, rfl, rfl⟩
  | across x y hx hy h1 h2 => exact Or.inr (Or.inl ⟨rfl, rfl, x, hx, y, hy, rfl, rfl, h1, h2⟩)
  | edge x hx => exact Or.inr (Or.inr ⟨rfl, rfl, x, hx, rfl, rfl⟩)

theorem Touch.not_zero {g : GridData K} {F F' s' : Nat} (h : Touch g F 0 F' s') : False := by
  rcases h.inv with ⟨h, -⟩ | ⟨h, -⟩ | ⟨h, -⟩ <;> omega

theorem touch_pair (g : GridData K) (hg : g.Valid) {F s F' s' : Nat} (h : Touch g F s F' s') :
    sidePair (fineTri g F) s = sidePair (fineTri g F') s' := by
  cases h with
  | corner x hx =>
    rw [fineTri_even, fineTri_odd]; rfl
  | across x y hx hy h1 h2 =>
    rw [fineTri_even, fineTri_odd]
    have : outEdge g (prevCorner x) = outEdge g y := by
      rw [outEdge_eq_iff g hg _ _ (prev_lt hx) hy, next_prev]
      exact Or.inr ⟨h2, h1⟩
    simp [sidePair, h1, this]
  | edge x hx =>
    rw [fineTri_even, fineTri_odd, prev_next, next_div]
    simp only [sidePair]
    exact Sym2.eq_swap

/-- All common sides. -/
theorem touch_cases (g : GridData K) (hg : g.Valid) (hs : OrientedSurface g) (F s F' s' : Nat) (hF : F < 6 * g.data.elements.length)
    (hF' : F' < 6 * g.data.elements.length) (h3 : s < 3) (h3' : s' < 3) (h : sidePair (fineTri g F) s = sidePair (fineTri g F') s') :
    (F = F' ∧ s = s') ∨ Touch g F s F' s' ∨ Touch g F' s' F s := by
  obtain ⟨x, hx, hFx⟩ : ∃ x, x < 3 * g.data.elements.length ∧ (F = 2 * x ∨ F = 2 * x + 1) := ⟨F / 2, by omega, by omega⟩
  obtain ⟨y, hy, hFy⟩ : ∃ y, y < 3 * g.data.elements.length ∧ (F' = 2 * y ∨ F' = 2 * y + 1) := ⟨F' / 2, by omega, by omega⟩
  have v1 := corner_lt g hg x hx
  have v2 := corner_lt g hg y hy
  have o1 := outEdge_lt g hg x hx
  have o2 := outEdge_lt g hg y hy
  have o3 := outEdge_lt g hg _ (prev_lt hx)
  have o4 := outEdge_lt g hg _ (prev_lt hy)
  have hs0 : s = 0 ∨ s = 1 ∨ s = 2 := by omega
  have hs0' : s' = 0 ∨ s' = 1 ∨ s' = 2 := by omega
  -- corners at the same vertex of the same triangle
  have same : ∀ x y : Nat, x < 3 * g.data.elements.length → cornerAt g x = cornerAt g y → x / 3 = y / 3 → x = y :=
    fun x y hx h1 h2 => corner_inj g hg x y hx h2 h1
  have oo : ∀ x y : Nat, x < 3 * g.data.elements.length → y < 3 * g.data.elements.length → cornerAt g x = cornerAt g y →
      outEdge g x = outEdge g y → x = y := by
    intro x y hx hy h1 h2
    rcases (outEdge_eq_iff g hg x y hx hy).mp h2 with ⟨-, h4⟩ | ⟨h4, -⟩
    · exact dir_inj g hg hs x y hx hy h1 h4
    · exact absurd (h4.symm.trans h1) (corner_next_ne g hg y hy)
  have pp : ∀ x y : Nat, x < 3 * g.data.elements.length → y < 3 * g.data.elements.length → cornerAt g x = cornerAt g y →
      outEdge g (prevCorner x) = outEdge g (prevCorner y) → x = y := by
    intro x y hx hy h1 h2
    rcases (outEdge_eq_iff g hg _ _ (prev_lt hx) (prev_lt hy)).mp h2 with ⟨h4, -⟩ | ⟨h4, -⟩
    · exact dir_inj' g hg hs x y hx hy h1 h4
    · rw [next_prev] at h4
      exact absurd (h4.trans h1.symm) (corner_prev_ne g hg x hx)
  have po : ∀ x y : Nat, x < 3 * g.data.elements.length → y < 3 * g.data.elements.length → cornerAt g x = cornerAt g y →
      outEdge g (prevCorner x) = outEdge g y → cornerAt g (prevCorner x) = cornerAt g (nextCorner y) := by
    intro x y hx hy h1 h2
    rcases (outEdge_eq_iff g hg _ _ (prev_lt hx) hy).mp h2 with ⟨h4, -⟩ | ⟨h4, -⟩
    · exact absurd (h4.trans h1.symm) (corner_prev_ne g hg x hx)
    · exact h4
  rcases hFx with rfl | rfl <;> rcases hFy with rfl | rfl <;> rcases hs0 with rfl | rfl | rfl <;> rcases hs0' with rfl | rfl | rfl <;>
    simp only [fineTri_even, fineTri_odd, sidePair, Nat.one_ne_zero, if_true, if_false, OfNat.ofNat_ne_zero, OfNat.ofNat_ne_one, Sym2.eq_iff] at h
  -- even, even
  · left; exact ⟨by rw [same x y hx (by omega) (by omega)], rfl⟩
  · omega
  · omega
  · omega
  · left; exact ⟨by rw [pp x y hx hy (by omega) (by omega)], rfl⟩
  · omega
  · omega
  · omega
  · left
    have e : prevCorner x = prevCorner y := outEdge_inj_elem g hg _ _ (prev_lt hx) (by rw [prev_div, prev_div]; omega) (by omega)
    refine ⟨?_, rfl⟩
    rw [← next_prev x, e, next_prev]
  -- even, odd
  · omega
  · have e := same x y hx (by omega) (by omega)
    subst e
    exact Or.inr (Or.inr (Touch.corner x hx))
  · omega
  · have e1 : cornerAt g x = cornerAt g y := by omega
    exact Or.inr (Or.inl (Touch.across x y hx hy e1 (po x y hx hy e1 (by omega))))
  · omega
  · omega
  · omega
  · omega
  · have e : prevCorner x = y := outEdge_inj_elem g hg _ _ (prev_lt hx) (by rw [prev_div]; omega) (by omega)
    subst e
    have := Touch.edge (g := g) (prevCorner x) hy
    rw [next_prev] at this
    exact Or.inr (Or.inr this)
  -- odd, even
  · omega
  · have e1 : cornerAt g y = cornerAt g x := by omega
    exact Or.inr (Or.inr (Touch.across y x hy hx e1 (po y x hy hx e1 (by omega))))
  · omega
  · have e := same x y hx (by omega) (by omega)
    subst e
    exact Or.inr (Or.inl (Touch.corner x hx))
  · omega
  · omega
  · omega
  · omega
  · have e : prevCorner y = x := outEdge_inj_elem g hg _ _ (prev_lt hy) (by rw [prev_div]; omega) (by omega)
    subst e
    have := Touch.edge (g := g) (prevCorner y) hx
    rw [next_prev] at this
    exact Or.inr (Or.inl this)
  -- odd, odd
  · left; exact ⟨by rw [oo x y hx hy (by omega) (by omega)], rfl⟩
  · omega
  · omega
  · omega
  · left; exact ⟨by rw [same x y hx (by omega) (by omega)], rfl⟩
  · omega
  · omega
  · omega
  · left
    have e : x = y := outEdge_inj_elem g hg _ _ hx (by omega) (by omega)
    exact ⟨by rw [e], rfl⟩

end Verif.Space
