import Verif.Lemmas.BcSpace
import Verif.Props.Conformity
/-
Fields of the Buffa-Christiansen spaces in terms of the coefficients.
-/
namespace Verif.Space
open Verif.Grid Verif.Shape

/-- The coefficient at side `s` of triangle `F`. -/
noncomputable def coefSum (l : List (Push ℝ)) (c : Nat → ℝ) (F s : Nat) : ℝ :=
  ((ofFace l F).map fun p => c p.dof * (p.w * p.col.get s)).sum

theorem coefSum_append (l l' : List (Push ℝ)) (c : Nat → ℝ) (F s : Nat) : coefSum (l ++ l') c F s = coefSum l c F s + coefSum l' c F s := by
  unfold coefSum ofFace
  rw [List.filter_append, List.map_append, List.sum_append]

theorem coefSum_flatMap (P : Nat → List (Push ℝ)) (c : Nat → ℝ) (F s n : Nat) :
    coefSum ((List.range n).flatMap P) c F s = ∑ f ∈ Finset.range n, coefSum (P f) c F s := by
  induction n with
  | zero => rfl
  | succ n ih => rw [List.range_succ, List.flatMap_append, coefSum_append, ih, Finset.sum_range_succ]; simp

theorem combine_values (c : Nat → ℝ) (f : Nat → BasisAt) : combine c f =
    ⟨c 0 * (f 0).v0 + c 1 * (f 1).v0 + c 2 * (f 2).v0, c 0 * (f 0).v1 + c 1 * (f 1).v1 + c 2 * (f 2).v1,
     c 0 * (f 0).d00 + c 1 * (f 1).d00 + c 2 * (f 2).d00, c 0 * (f 0).d01 + c 1 * (f 1).d01 + c 2 * (f 2).d01,
     c 0 * (f 0).d10 + c 1 * (f 1).d10 + c 2 * (f 2).d10, c 0 * (f 0).d11 + c 1 * (f 1).d11 + c 2 * (f 2).d11⟩ := by
  simp [combine, List.range_succ]

theorem hdiv_combine (c : Nat → ℝ) (f : Nat → BasisAt) (G : GeomData) (d : P3 ℝ) :
    (hdivValue (combine c f) G).dot d = c 0 * (hdivValue (f 0) G).dot d + c 1 * (hdivValue (f 1) G).dot d + c 2 * (hdivValue (f 2) G).dot d := by
  rw [combine_values]
  simp only [hdivValue, P3.dot]
  ring

theorem rbc_rotate (cols : List (Col ℝ)) (a : Nat) (q : ℝ × ℝ) : rbcShape cols a q = rotate (bcShape cols a q) := by
  unfold rbcShape bcShape ncShape
  rw [combine_values, combine_values]
  simp only [rotate, BasisAt.mk.injEq]
  refine ⟨?_, ?_, ?_, ?_, ?_, ?_⟩ <;> first | trivial | ring

section
variable {st : BcState ℝ} {l : List (Push ℝ)} {nf nd : Nat} (h : Rep st l nf nd)
include h

/-- A linear function of the shape functions. -/
theorem fill_expand (c : Nat → ℝ) (F : Nat) (hF : F < nf) (val : Nat → ℝ) (shape : Nat → ℝ)
    (hshape : ∀ (cols : List (Col ℝ)) (a : Nat) (col : Col ℝ), (bcFill st).coeffs.getD F [] = cols → cols[a]? = some col →
      shape a = col.get 0 * val 0 + col.get 1 * val 1 + col.get 2 * val 2) :
    expandW ((bcFill st).maps.getGlobalDofs F) ((bcFill st).weights.getD F []) c shape =
      coefSum l c F 0 * val 0 + coefSum l c F 1 * val 1 + coefSum l c F 2 * val 2 := by
  have e1 : (bcFill st).maps.getGlobalDofs F = if ofFace l F = [] then [-1] else (ofFace l F).map fun p => (p.dof : Int) := by
    show (bcFill st).local2global.getD F [] = _
    rw [List.getD_eq_getElem?_getD, fill_rows h F hF]; rfl
  have e2 : (bcFill st).weights.getD F [] = if ofFace l F = [] then [1] else (ofFace l F).map (·.w) := by
    rw [List.getD_eq_getElem?_getD, fill_weights h F hF]; rfl
  have e3 : (bcFill st).coeffs.getD F [] = if ofFace l F = [] then [⟨0, 0, 0⟩] else (ofFace l F).map (·.col) := by
    rw [List.getD_eq_getElem?_getD, fill_coeffs h F hF]; rfl
  rw [e1, e2]
  unfold coefSum
  by_cases he : ofFace l F = []
  · rw [if_pos he, if_pos he, he]
    simp [expandW]
  · rw [if_neg he] at *
    rw [if_neg he]
    rw [expandW_pushes (ofFace l F) c shape (fun p => p.col.get 0 * val 0 + p.col.get 1 * val 1 + p.col.get 2 * val 2) (by
      intro a p hp
      exact hshape _ a p.col e3 (by rw [List.getElem?_map, hp]; rfl))]
    generalize ofFace l F = L
    induction L with
    | nil => simp
    | cons p L ih =>
      simp only [List.map_cons, List.sum_cons]
      by_cases hL : L = []
      · subst hL; simp; ring
      · rw [ih]; ring

variable (b : GridData ℝ)

theorem bcField_eq (c : Nat → ℝ) (F : Nat) (hF : F < nf) (t : Tri) (q : ℝ × ℝ) (d : P3 ℝ) :
    bcField b (bcFill st) c F t q d = coefSum l c F 0 * (hdivValue (rtShape 0 q) (elementData b t)).dot d +
      coefSum l c F 1 * (hdivValue (rtShape 1 q) (elementData b t)).dot d + coefSum l c F 2 * (hdivValue (rtShape 2 q) (elementData b t)).dot d := by
  unfold bcField
  rw [fill_expand h c F hF (fun j => (hdivValue (rtShape j q) (elementData b t)).dot d)]
  intro cols a col hc ha
  show (hdivValue (bcShape _ a q) _).dot d = _
  rw [hc]
  unfold bcShape
  rw [hdiv_combine, ha]
  rfl

theorem bcDivergence_eq (c : Nat → ℝ) (F : Nat) (hF : F < nf) (t : Tri) (q : ℝ × ℝ) :
    bcDivergence b (bcFill st) c F t q * (elementData b t).integrationElement =
      2 * (coefSum l c F 0 + coefSum l c F 1 + coefSum l c F 2) * ((elementData b t).integrationElement / (elementData b t).integrationElement) := by
  unfold bcDivergence
  rw [fill_expand h c F hF (fun j => surfaceDiv (rtShape j q) (elementData b t))]
  · simp only [surfaceDiv, rtShape]
    norm_num
    ring
  · intro cols a col hc ha
    rw [hc]
    unfold bcShape
    rw [combine_values, ha]
    simp only [surfaceDiv, Option.map_some, Option.getD_some]
    ring

/-- The flux through a side. -/
theorem bcField_flux (hb : b.Valid) (c : Nat → ℝ) (F : Nat) (hF : F < nf) (t : Tri) (ht : b.data.elements[F]? = some t)
    (hn : areaVector (nodeAt b.nodes t.a) (nodeAt b.nodes t.b) (nodeAt b.nodes t.c) ≠ ⟨0, 0, 0⟩)
    (x y z : Nat) (hp : [x, y, z].Perm t.verts) (q : ℝ × ℝ) (hq : OnSide b t q x y) (ν : P3 ℝ)
    (hν : OutwardConormal (nodeAt b.nodes x) (nodeAt b.nodes y) (nodeAt b.nodes z) ν) :
    ∃ k < 3, sidePair t k = s(x, y) ∧
      0 < Real.sqrt (((nodeAt b.nodes y).sub (nodeAt b.nodes x)).dot ((nodeAt b.nodes y).sub (nodeAt b.nodes x))) ∧
      bcField b (bcFill st) c F t q ν = coefSum l c F k /
        Real.sqrt (((nodeAt b.nodes y).sub (nodeAt b.nodes x)).dot ((nodeAt b.nodes y).sub (nodeAt b.nodes x))) := by
  obtain ⟨f0, f1, f2, p0, p1, p2, hedges, hp0, hs0, hp1, hs1, hp2, hs2, -⟩ := element_edges b hb F t ht
  obtain ⟨k, hk, ⟨f, p, hf, hpf, hsp⟩, hsc, hloc⟩ := side_local b hb F t ht hn x y z hp f0 f1 f2 hedges
  obtain ⟨hν', hlen⟩ := hsc ν hν
  refine ⟨k, hk, ?_, ?_, ?_⟩
  · rw [← hsp]
    have : k = 0 ∨ k = 1 ∨ k = 2 := by omega
    rcases this with rfl | rfl | rfl
    · simp at hf; subst hf; rw [hp0] at hpf; cases hpf; rw [hs0]; rfl
    · simp at hf; subst hf; rw [hp1] at hpf; cases hpf; rw [hs1]; rfl
    · simp at hf; subst hf; rw [hp2] at hpf; cases hpf; rw [hs2]; rfl
  · rw [← hlen]
    exact Real.sqrt_pos.mpr (side_ne _ _ _ (area_side _ _ _ k hn).1)
  · rw [bcField_eq h b c F hF t q ν]
    have hfl : ∀ j < 3, (hdivValue (rtShape j q) (elementData b t)).dot ν = if j = k then
        1 / Real.sqrt (((nodeAt b.nodes y).sub (nodeAt b.nodes x)).dot ((nodeAt b.nodes y).sub (nodeAt b.nodes x))) else 0 := by
      intro j hj
      rw [← hlen]
      exact shape_flux _ _ _ hn k hk q (hloc q hq) ν hν' j hj
    rw [hfl 0 (by omega), hfl 1 (by omega), hfl 2 (by omega)]
    generalize Real.sqrt (((nodeAt b.nodes y).sub (nodeAt b.nodes x)).dot ((nodeAt b.nodes y).sub (nodeAt b.nodes x))) = r
    have : k = 0 ∨ k = 1 ∨ k = 2 := by omega
    rcases this with rfl | rfl | rfl <;> simp <;> ring

end

/-- Tangential components of the rotated functions are fluxes. -/
theorem rbc_tangential (g : GridData ℝ) (t : Tri)
    (hn : areaVector (nodeAt g.nodes t.a) (nodeAt g.nodes t.b) (nodeAt g.nodes t.c) ≠ ⟨0, 0, 0⟩) (x y : Nat) (ht : Traverses t x y) :
    ∃ z ν, [x, y, z].Perm t.verts ∧ OutwardConormal (nodeAt g.nodes x) (nodeAt g.nodes y) (nodeAt g.nodes z) ν ∧
      ∀ st c e q, rbcField g st c e t q ((nodeAt g.nodes y).sub (nodeAt g.nodes x)) =
        Real.sqrt (((nodeAt g.nodes y).sub (nodeAt g.nodes x)).dot ((nodeAt g.nodes y).sub (nodeAt g.nodes x))) * bcField g st c e t q ν := by
  have main : ∀ X Y Z : P3 ℝ, areaVector X Y Z = areaVector (nodeAt g.nodes t.a) (nodeAt g.nodes t.b) (nodeAt g.nodes t.c) →
      OutwardConormal X Y Z (P3.smul (1 / Real.sqrt ((Y.sub X).dot (Y.sub X))) ((Y.sub X).cross (elementData g t).normal)) ∧
      ∀ st c e q, rbcField g st c e t q (Y.sub X) = Real.sqrt ((Y.sub X).dot (Y.sub X)) *
        bcField g st c e t q (P3.smul (1 / Real.sqrt ((Y.sub X).dot (Y.sub X))) ((Y.sub X).cross (elementData g t).normal)) := by
    intro X Y Z hA
    have hX : areaVector X Y Z ≠ ⟨0, 0, 0⟩ := by rw [hA]; exact hn
    have hnor : (fullData X Y Z).normal = (elementData g t).normal := by
      have h1 := normal_eq X Y Z hX
      have h2 := normal_eq _ _ _ hn
      have h3 := (C71_integration_element X Y Z hX).2
      have h4 := (C71_integration_element _ _ _ hn).2
      rw [h3, hA] at h1
      rw [h4] at h2
      rw [h1]
      exact h2.symm
    have hco := conormal_exists X Y Z hX
    have hlp := Real.sqrt_pos.mpr (side_ne X Y Z hX)
    rw [hnor] at hco
    refine ⟨hco, ?_⟩
    intro st c e q
    unfold rbcField bcField
    rw [← expandW_smul]
    congr 1
    funext a
    rw [rbc_rotate]
    generalize bcShape (st.coeffs.getD e []) a q = B
    have hr := (C71_rotation _ _ _ hn B).1
    have e1 : hcurlValue (rotate B) (elementData g t) =
        (elementData g t).normal.cross (hdivValue B (elementData g t)) := hr
    rw [e1]
    generalize Real.sqrt ((Y.sub X).dot (Y.sub X)) = l at *
    generalize (elementData g t).normal = n
    generalize hdivValue B (elementData g t) = u
    generalize Y.sub X = d
    have : l * u.dot (P3.smul (1 / l) (d.cross n)) = (l * (1 / l)) * u.dot (d.cross n) := by
      simp only [P3.dot, P3.smul]; ring
    rw [this, mul_one_div_cancel hlp.ne', one_mul]
    simp only [P3.dot, P3.cross]; ring
  rcases ht with ⟨rfl, rfl⟩ | ⟨rfl, rfl⟩ | ⟨rfl, rfl⟩
  · obtain ⟨h1, h2⟩ := main (nodeAt g.nodes t.a) (nodeAt g.nodes t.b) (nodeAt g.nodes t.c) rfl
    exact ⟨t.c, _, List.Perm.refl _, h1, h2⟩
  · obtain ⟨h1, h2⟩ := main (nodeAt g.nodes t.b) (nodeAt g.nodes t.c) (nodeAt g.nodes t.a) (by
      simp only [areaVector, P3.mk.injEq]; refine ⟨?_, ?_, ?_⟩ <;> ring)
    refine ⟨t.a, _, ?_, h1, h2⟩
    exact (List.perm_append_comm : ([t.b, t.c] ++ [t.a]).Perm _)
  · obtain ⟨h1, h2⟩ := main (nodeAt g.nodes t.c) (nodeAt g.nodes t.a) (nodeAt g.nodes t.b) (by
      simp only [areaVector, P3.mk.injEq]; refine ⟨?_, ?_, ?_⟩ <;> ring)
    refine ⟨t.b, _, ?_, h1, h2⟩
    exact (List.perm_append_comm : ([t.c] ++ [t.a, t.b]).Perm _)

end Verif.Space
