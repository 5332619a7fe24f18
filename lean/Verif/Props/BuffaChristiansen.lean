import Verif.Lemmas.BcBasis
/-
Property C96: Buffa-Christiansen spaces on oriented surfaces, with or without boundary.
-/
namespace Verif.Space
open Verif.Grid Verif.Shape

section
variable (g : GridData ℝ) (hg : g.Valid) (hs : OrientedSurface g)
include hg hs

theorem inner_ordered (f : Nat) (hi : InnerEdge g f) : ∃ x < 3 * g.data.elements.length, ∃ y < 3 * g.data.elements.length,
    outEdge g x = outEdge g y ∧ x / 3 < y / 3 ∧ outEdge g x = f := by
  obtain ⟨x, hx, y, hy, hne, hxf, hyf⟩ := hi
  rcases Nat.lt_trichotomy (x / 3) (y / 3) with h | h | h
  · exact ⟨x, hx, y, hy, hxf.trans hyf.symm, h, hxf⟩
  · exact absurd (outEdge_inj_elem g hg x y hx h (hxf.trans hyf.symm)) hne
  · exact ⟨y, hy, x, hx, hyf.trans hxf.symm, h, hyf⟩

variable (l : List (Push ℝ)) (net : Nat → Nat → Nat → ℝ)
  (hsum : ∀ c F s, F < 6 * g.data.elements.length → coefSum l c F s =
        ∑ f ∈ Finset.range g.data.edges.length, c (countBelow (InnerEdge g) f) * net f F s)
  (hout : ∀ f, f < g.data.edges.length → ¬ InnerEdge g f → ∀ F s, net f F s = 0)
  (hnet : ∀ x < 3 * g.data.elements.length, ∀ y < 3 * g.data.elements.length, outEdge g x = outEdge g y → x / 3 < y / 3 →
        NetCols g x y (net (outEdge g x)))
include hsum hout hnet

theorem sum_touch (c : Nat → ℝ) (F s F' s' : Nat) (hF : F < 6 * g.data.elements.length) (hF' : F' < 6 * g.data.elements.length)
    (ht : Touch g F s F' s') : coefSum l c F s + coefSum l c F' s' = 0 := by
  rw [hsum c F s hF, hsum c F' s' hF', ← Finset.sum_add_distrib]
  refine Finset.sum_eq_zero fun f hf => ?_
  rw [← mul_add]
  by_cases hi : InnerEdge g f
  · obtain ⟨x, hx, y, hy, he, hlt, rfl⟩ := inner_ordered g hg hs f hi
    rw [(hnet x hx y hy he hlt).touch F s F' s' ht, mul_zero]
  · rw [hout f (Finset.mem_range.mp hf) hi, hout f (Finset.mem_range.mp hf) hi, add_zero, mul_zero]

omit hg hs hnet in
theorem sum_unit (f : Nat) (hf : f < g.data.edges.length) (hi : InnerEdge g f) (α : ℝ) (F s : Nat) (hF : F < 6 * g.data.elements.length) :
    coefSum l (unitAt (countBelow (InnerEdge g) f) α) F s = α * net f F s := by
  rw [hsum _ F s hF, Finset.sum_eq_single f]
  · simp [unitAt]
  · intro f' hf' hne
    by_cases hi' : InnerEdge g f'
    · have : countBelow (InnerEdge g) f' ≠ countBelow (InnerEdge g) f := fun h => hne (countBelow_inj _ hi' hi h)
      simp [unitAt, this]
    · rw [hout f' (Finset.mem_range.mp hf') hi', mul_zero]
  · intro h; exact absurd (Finset.mem_range.mpr hf) h

/-- The coefficients at the segments from midpoints to barycentres. -/
theorem sum_mid (c : Nat → ℝ) (x : Nat) (hx : x < 3 * g.data.elements.length) :
    (¬ InnerEdge g (outEdge g x) → coefSum l c (2 * x + 1) 2 = 0) ∧
    (∀ y < 3 * g.data.elements.length, outEdge g x = outEdge g y → x / 3 < y / 3 →
      coefSum l c (2 * x + 1) 2 = -(c (countBelow (InnerEdge g) (outEdge g x)) / 2) ∧
      coefSum l c (2 * y + 1) 2 = c (countBelow (InnerEdge g) (outEdge g x)) / 2) := by
  have hterm : ∀ x < 3 * g.data.elements.length, ∀ f ∈ Finset.range g.data.edges.length, f ≠ outEdge g x →
      c (countBelow (InnerEdge g) f) * net f (2 * x + 1) 2 = 0 := by
    intro x hx f hf hne
    by_cases hi : InnerEdge g f
    · obtain ⟨x', hx', y', hy', he, hlt, rfl⟩ := inner_ordered g hg hs f hi
      rw [(hnet x' hx' y' hy' he hlt).mid x hx, if_neg (fun h => hne (by rw [h, he])), if_neg (fun h => hne (by rw [h])), mul_zero]
    · rw [hout f (Finset.mem_range.mp hf) hi, mul_zero]
  have hone : ∀ x < 3 * g.data.elements.length, coefSum l c (2 * x + 1) 2 =
      c (countBelow (InnerEdge g) (outEdge g x)) * net (outEdge g x) (2 * x + 1) 2 := by
    intro x hx
    rw [hsum c _ _ (by omega), Finset.sum_eq_single (outEdge g x) (hterm x hx)]
    intro h; exact absurd (Finset.mem_range.mpr (outEdge_lt g hg x hx)) h
  refine ⟨fun hi => ?_, fun y hy he hlt => ⟨?_, ?_⟩⟩
  · rw [hone x hx, hout _ (outEdge_lt g hg x hx) hi, mul_zero]
  · have hne : x ≠ y := fun h => by rw [h] at hlt; omega
    rw [hone x hx, (hnet x hx y hy he hlt).mid x hx, if_neg hne, if_pos rfl]
    ring
  · rw [hone y hy, ← he, (hnet x hx y hy he hlt).mid y hy, if_pos rfl]
    ring

/-- The same on the other side of the segment. -/
theorem sum_mid_even (c : Nat → ℝ) (x : Nat) (hx : x < 3 * g.data.elements.length) :
    coefSum l c (2 * nextCorner x) 2 = -coefSum l c (2 * x + 1) 2 := by
  have := sum_touch g hg hs l net hsum hout hnet c _ _ _ _ (by omega) (by have := next_lt hx; omega) (Touch.edge x hx)
  linarith

end

section
variable (g : GridData ℝ) (hg : g.Valid)
include hg

/-- The vertices of a triangle of the refinement. -/
theorem fine_vertex (F : Nat) (hF : F < 6 * g.data.elements.length) (v : Nat) (hv : v < g.data.nnodes) :
    v ∈ (fineTri g F).verts ↔ cornerAt g (F / 2) = v := by
  have h1 := corner_lt g hg (F / 2) (by omega)
  unfold fineTri
  split_ifs
  · simp only [Tri.verts, List.mem_cons, List.not_mem_nil, or_false]; omega
  · simp only [Tri.verts, List.mem_cons, List.not_mem_nil, or_false]; omega

/-- A triangle of the refinement with the midpoint of side `f` and the barycentre of triangle `e`. -/
theorem fine_segment (F f e v : Nat) (hF : F < 6 * g.data.elements.length) (hf : f < g.data.edges.length)
    (hp : [g.data.nnodes + f, g.data.nnodes + g.data.edges.length + e, v].Perm (fineTri g F).verts) :
    F / 6 = e ∧ cornerAt g (F / 2) = v ∧ ((∃ x, F = 2 * x + 1 ∧ outEdge g x = f) ∨ ∃ x, F = 2 * nextCorner x ∧ outEdge g x = f) := by
  have hx : F / 2 < 3 * g.data.elements.length := by omega
  have h1 := corner_lt g hg (F / 2) hx
  have h2 := outEdge_lt g hg (F / 2) hx
  have h3 := outEdge_lt g hg (prevCorner (F / 2)) (prev_lt hx)
  have m1 : g.data.nnodes + f ∈ (fineTri g F).verts := hp.subset (by simp)
  have m2 : g.data.nnodes + g.data.edges.length + e ∈ (fineTri g F).verts := hp.subset (by simp)
  have m3 : cornerAt g (F / 2) ∈ [g.data.nnodes + f, g.data.nnodes + g.data.edges.length + e, v] :=
    hp.symm.subset ((fine_vertex g hg F hF _ h1).mpr rfl)
  have hv : cornerAt g (F / 2) = v := by
    simp only [List.mem_cons, List.not_mem_nil, or_false] at m3; omega
  unfold fineTri at m1 m2
  rcases Nat.mod_two_eq_zero_or_one F with hm | hm
  · rw [if_pos hm] at m1 m2
    simp only [Tri.verts, List.mem_cons, List.not_mem_nil, or_false] at m1 m2
    refine ⟨by omega, hv, Or.inr ⟨prevCorner (F / 2), ?_, by omega⟩⟩
    rw [next_prev]; omega
  · rw [if_neg (by omega)] at m1 m2
    simp only [Tri.verts, List.mem_cons, List.not_mem_nil, or_false] at m1 m2
    exact ⟨by omega, hv, Or.inl ⟨F / 2, by omega, by omega⟩⟩

end

/-- **C96 (sides)** On an oriented surface no side belongs to three triangles, and two triangles run through a common side in opposite
directions. -/
theorem C96_shared_sides (g : GridData ℝ) (hg : g.Valid) (hs : OrientedSurface g) (e e' : Nat) (t t' : Tri) (S : Sym2 Nat) (hlt : e < e')
    (ht : g.data.elements[e]? = some t) (ht' : g.data.elements[e']? = some t') (hS : S ∈ t.sides) (hS' : S ∈ t'.sides) :
    (∃ a z, S = s(a, z) ∧ SharedSide g a z e e') ∧
    ∀ e2 t2, g.data.elements[e2]? = some t2 → S ∈ t2.sides → e2 = e ∨ e2 = e' := by
  obtain ⟨x, hx, hxe, hxS⟩ := mem_sides_corner g e t ht S hS
  obtain ⟨y, hy, hye, hyS⟩ := mem_sides_corner g e' t' ht' S hS'
  have hedge : ∀ x < 3 * g.data.elements.length, ∀ y < 3 * g.data.elements.length, s(cornerAt g x, cornerAt g (nextCorner x)) = S →
      s(cornerAt g y, cornerAt g (nextCorner y)) = S → outEdge g x = outEdge g y := by
    intro x hx y hy h h'
    rw [outEdge_eq_iff g hg x y hx hy, ← Sym2.eq_iff, h, h']
  have he := hedge x hx y hy hxS hyS
  refine ⟨⟨cornerAt g x, cornerAt g (nextCorner x), hxS.symm, ?_⟩, ?_⟩
  · have := shared_of g hg hs x y hx hy he (by omega)
    rwa [hxe, hye] at this
  · intro e2 t2 ht2 hS2
    obtain ⟨w, hw, hwe, hwS⟩ := mem_sides_corner g e2 t2 ht2 S hS2
    by_cases h : x = w
    · left; rw [← hwe, ← h, hxe]
    · right
      have := at_most_two g hg hs x y w hx hy hw he (hedge x hx w hw hxS hwS) (fun h => by rw [h] at hxe; omega) h
      rw [← hwe, ← this, hye]

/-- **C96 (basis)** On an oriented surface, with or without boundary, the construction of a Buffa-Christiansen space (and of a rotated
one: `checked = false`) succeeds whatever the segment; its dof maps are consistent; its dofs belong to the sides with two neighbours,
and the functions are the dual basis functions of Buffa and Christiansen. -/
theorem C96_basis (g : GridData ℝ) (hg : g.Valid) (hs : OrientedSurface g) (b : GridData ℝ) (son : Nat → Nat → Nat)
    (h : barycentricGridSonPair g = .ok (b, son)) (dom dom' : Nat → Int) (checked : Bool) (seg : GridSegment) (mode : DofMode)
    (hmode : mode.edgeOnSegment = true ∨ mode.elementOnSegment = true) :
    ∃ st dof, assignBC ℝ checked (g.data.view dom) (b.data.view dom') son seg mode false = .ok st ∧ st.maps.Consistent ∧
      BcBasis g b st dof := by
  classical
  obtain ⟨hb, hbe, hson⟩ := bc_grid g hg b son h
  obtain ⟨st, l, net, hok, hrep, hsum, hout, hnet, hcount⟩ := bc_sums g hg hs b son h dom dom' checked seg mode hmode
  have hfc := fine_count g b hbe
  have hfine : ∀ F t, b.data.elements[F]? = some t → F < 6 * g.data.elements.length ∧ t = fineTri g F := by
    intro F t ht
    have hF : F < 6 * g.data.elements.length := by rw [← hfc]; exact (List.getElem?_eq_some_iff.mp ht).1
    have := fine_elem g hg b hb hbe F hF
    rw [ht] at this
    exact ⟨hF, Option.some.inj this⟩
  -- the coefficient at a segment
  have hseg : ∀ (c : Nat → ℝ) (f e : Nat), f < g.data.edges.length → ∀ F t v q ν,
      SidePoint b F t (g.data.nnodes + f) (g.data.nnodes + g.data.edges.length + e) v q ν →
      F < 6 * g.data.elements.length ∧ F / 6 = e ∧ cornerAt g (F / 2) = v ∧
      ((∃ x, F = 2 * x + 1 ∧ outEdge g x = f) ∨ ∃ x, F = 2 * nextCorner x ∧ outEdge g x = f) ∧
      0 < sideLength b (g.data.nnodes + f) (g.data.nnodes + g.data.edges.length + e) ∧
      bcField b (bcFill st) c F t q ν = coefSum l c F 2 / sideLength b (g.data.nnodes + f) (g.data.nnodes + g.data.edges.length + e) := by
    intro c f e hf F t v q ν hp
    obtain ⟨hF, rfl⟩ := hfine F t hp.elem
    obtain ⟨h1, h2, h3⟩ := fine_segment g hg F f e v hF hf hp.verts
    obtain ⟨k, hk, hpair, hpos, hval⟩ := bcField_flux hrep b hb c F hF _ hp.elem hp.area _ _ _ hp.verts q hp.on ν hp.conormal
    refine ⟨hF, h1, h2, h3, hpos, ?_⟩
    have hk2 : k = 2 := by
      have hc := corner_lt g hg (F / 2) (by omega)
      have ha : (fineTri g F).a = cornerAt g (F / 2) := by unfold fineTri; split_ifs <;> rfl
      have hno : ∀ w, s(cornerAt g (F / 2), w) ≠ s(g.data.nnodes + f, g.data.nnodes + g.data.edges.length + e) := by
        intro w hw
        rcases Sym2.eq_iff.mp hw with ⟨a1, -⟩ | ⟨a1, -⟩ <;> omega
      have : k = 0 ∨ k = 1 ∨ k = 2 := by omega
      rcases this with rfl | rfl | rfl
      · exact absurd hpair (by show s((fineTri g F).a, _) ≠ _; rw [ha]; exact hno _)
      · exact absurd hpair (by show s((fineTri g F).a, _) ≠ _; rw [ha]; exact hno _)
      · rfl
    rw [hval, hk2]; rfl
  have hcons := fill_consistent hrep
  have hgd : (bcFill st).maps.globalDofCount = countBelow (InnerEdge g) g.data.edges.length := hrep.dofs_length
  refine ⟨bcFill st, sideDof g, hok, hcons, ⟨?_, ?_, ?_, ?_, ?_, ?_, ?_⟩⟩
  · intro a z e0 e1 a' z' e0' e1' h1 h2 hd
    obtain ⟨x, hx, y, hy, -, -, rfl, rfl, -, -, -, hi, hdx⟩ := shared_corners g hg a z e0 e1 h1
    obtain ⟨x', hx', y', hy', -, -, rfl, rfl, -, -, -, hi', hdx'⟩ := shared_corners g hg a' z' e0' e1' h2
    rw [hdx, hdx'] at hd
    have := countBelow_inj _ hi hi' hd
    rw [outEdge_eq_iff g hg x x' hx hx', ← Sym2.eq_iff] at this
    exact this
  · intro d
    rw [hgd]
    constructor
    · intro hd
      obtain ⟨f, hf, hi, rfl⟩ := countBelow_surj _ _ _ hd
      obtain ⟨x, hx, y, hy, he, hlt, rfl⟩ := inner_ordered g hg hs f hi
      exact ⟨_, _, _, _, shared_of g hg hs x y hx hy he hlt, dof_corner g hg x hx⟩
    · rintro ⟨a, z, e0, e1, h1, rfl⟩
      obtain ⟨x, hx, y, hy, -, -, rfl, rfl, -, -, -, hi, hdx⟩ := shared_corners g hg a z e0 e1 h1
      rw [hdx]
      exact countBelow_lt _ (outEdge_lt g hg x hx) hi
  · intro a z e0 e1 h1 F t ht
    obtain ⟨hF, rfl⟩ := hfine F t ht
    have hlt := h1.lt
    obtain ⟨x, hx, y, hy, hxe, hye, rfl, rfl, hya, -, he, hi, hdx⟩ := shared_corners g hg a z e0 e1 h1
    have hc := hcount x hx y hy he (by omega) F hF
    rw [hya] at hc
    have hrow : (bcFill st).maps.getGlobalDofs F = if ofFace l F = [] then [-1] else (ofFace l F).map fun p => (p.dof : Int) := by
      show (bcFill st).local2global.getD F [] = _
      rw [List.getD_eq_getElem?_getD, fill_rows hrep F hF]; rfl
    rw [hdx, hrow]
    have hcast : (if ofFace l F = [] then [-1] else (ofFace l F).map fun p => (p.dof : Int)).count (countBelow (InnerEdge g) (outEdge g x) : Int) =
        ((ofFace l F).map (·.dof)).count (countBelow (InnerEdge g) (outEdge g x)) := by
      by_cases he : ofFace l F = []
      · rw [if_pos he, he]
        have : ((countBelow (InnerEdge g) (outEdge g x) : Nat) : Int) ≠ -1 := by omega
        simp [this.symm]
      · rw [if_neg he, show ((ofFace l F).map fun p => (p.dof : Int)) = ((ofFace l F).map (·.dof)).map (fun n : Nat => (n : Int)) by
          rw [List.map_map]; rfl, List.count_map_of_injective _ _ Nat.cast_injective]
    rw [hcast, hc]
    simp only [fine_vertex g hg F hF _ (corner_lt g hg x hx), fine_vertex g hg F hF _ (corner_lt g hg _ (next_lt hx))]
  · intro a z e0 e1 h1 α F t q v ht har hv hvn
    obtain ⟨hF, rfl⟩ := hfine F t ht
    have hlt := h1.lt
    obtain ⟨x, hx, y, hy, hxe, hye, rfl, rfl, hya, -, he, hi, hdx⟩ := shared_corners g hg a z e0 e1 h1
    rw [fine_vertex g hg F hF v hvn] at hv
    subst hv
    have hie := ie_pos _ _ _ har
    have hd := bcDivergence_eq hrep b (unitAt (sideDof g s(cornerAt g x, cornerAt g (nextCorner x))) α) F hF (fineTri g F) q
    rw [div_self (show (elementData b (fineTri g F)).integrationElement ≠ 0 from hie.ne'), mul_one] at hd
    rw [← mul_div_assoc, hd, hdx, sum_unit g l net hsum hout _ (outEdge_lt g hg x hx) hi α F 0 hF,
      sum_unit g l net hsum hout _ (outEdge_lt g hg x hx) hi α F 1 hF, sum_unit g l net hsum hout _ (outEdge_lt g hg x hx) hi α F 2 hF]
    have hdiv := (hnet x hx y hy he (by omega)).div F hF
    rw [hya] at hdiv
    have e1 : 2 * (α * net (outEdge g x) F 0 + α * net (outEdge g x) F 1 + α * net (outEdge g x) F 2) / 2 =
        α * (net (outEdge g x) F 0 + net (outEdge g x) F 1 + net (outEdge g x) F 2) := by ring
    rw [e1, hdiv]
    split_ifs <;> ring
  · intro a z e0 e1 h1 c f p e hfp hsp hee F t v q ν hp
    have hlt := h1.lt
    obtain ⟨x, hx, y, hy, hxe, hye, rfl, rfl, hya, hyz, he, hi, hdx⟩ := shared_corners g hg a z e0 e1 h1
    obtain rfl := edge_of_corner g hg x hx f p hfp hsp
    obtain ⟨hF, hFe, hFv, hxs, hpos, hval⟩ := hseg c _ e (outEdge_lt g hg x hx) F t v q ν hp
    rw [hval, div_mul_cancel₀ _ hpos.ne', hdx]
    obtain ⟨m1, m2⟩ := (sum_mid g hg hs l net hsum hout hnet c x hx).2 y hy he (by omega)
    have hcne := corner_next_ne g hg x hx
    -- the corner of the segment
    have hxy : ∀ w < 3 * g.data.elements.length, outEdge g w = outEdge g x → w = x ∨ w = y := by
      intro w hw hwf
      by_cases h : x = w
      · exact Or.inl h.symm
      · exact Or.inr (at_most_two g hg hs x y w hx hy hw he hwf.symm (fun h => by rw [h] at hxe; omega) h).symm
    subst hFv
    rcases hxs with ⟨w, rfl, hwf⟩ | ⟨w, rfl, hwf⟩
    · rw [show (2 * w + 1) / 2 = w by omega]
      rcases hxy w (by omega) hwf with rfl | rfl
      · rw [m1, if_neg hcne.symm]
      · rw [m2, if_pos hya]
    · have hw : w < 3 * g.data.elements.length := by
        have : nextCorner w < 3 * g.data.elements.length := by omega
        have := prev_lt this
        rwa [prev_next] at this
      rw [show 2 * nextCorner w / 2 = nextCorner w by omega, sum_mid_even g hg hs l net hsum hout hnet c w hw]
      rcases hxy w hw hwf with rfl | rfl
      · rw [m1, if_pos rfl, neg_neg]
      · rw [m2, if_neg (by rw [hyz]; exact hcne.symm)]
  · intro e T S hT hS hone c f p hfp hsp F t v q ν hp
    obtain ⟨x, hx, hxe, hxS⟩ := mem_sides_corner g e T hT S hS
    obtain rfl := edge_of_corner g hg x hx f p hfp (hsp.trans hxS.symm)
    obtain ⟨hF, hFe, hFv, hxs, hpos, hval⟩ := hseg c _ e (outEdge_lt g hg x hx) F t v q ν hp
    have hni : ¬ InnerEdge g (outEdge g x) := by
      intro hi
      obtain ⟨y, hy, w, hw, he, hlt, hyx⟩ := inner_ordered g hg hs _ hi
      have hall : ∀ y < 3 * g.data.elements.length, outEdge g y = outEdge g x → y / 3 = e := by
        intro y hy h
        obtain ⟨t', ht'⟩ := elem_get g y hy
        refine hone (y / 3) t' ht' ?_
        have := corner_mem_sides g y t' ht'
        rw [outEdge_eq_iff g hg y x hy hx, ← Sym2.eq_iff, hxS] at h
        rwa [h] at this
      have h1 := hall y hy hyx
      have h2 := hall w hw (he.symm.trans hyx)
      omega
    rw [hval]
    rcases hxs with ⟨w, rfl, hwf⟩ | ⟨w, rfl, hwf⟩
    · rw [(sum_mid g hg hs l net hsum hout hnet c w (by omega)).1 (by rw [hwf]; exact hni), zero_div]
    · have hw : w < 3 * g.data.elements.length := by
        have : nextCorner w < 3 * g.data.elements.length := by omega
        have := prev_lt this
        rwa [prev_next] at this
      rw [sum_mid_even g hg hs l net hsum hout hnet c w hw,
        (sum_mid g hg hs l net hsum hout hnet c w hw).1 (by rw [hwf]; exact hni), neg_zero, zero_div]
  · intro a z e0 e1 h1 α f p hfp hsp F t v q ν hp
    have hlt := h1.lt
    obtain ⟨x, hx, y, hy, hxe, hye, rfl, rfl, hya, hyz, he, hi, hdx⟩ := shared_corners g hg a z e0 e1 h1
    obtain rfl := edge_of_corner g hg x hx f p hfp hsp
    obtain ⟨hF, rfl⟩ := hfine F t hp.elem
    obtain ⟨hFe, hFv, hxs⟩ := fine_segment g hg F (outEdge g x) e0 v hF (outEdge_lt g hg x hx)
      (((List.perm_append_comm : ([g.data.nnodes + outEdge g x, g.data.nnodes + g.data.edges.length + e0] ++ [v]).Perm _)).trans hp.verts)
    obtain ⟨k, hk, hpair, hpos, hval⟩ := bcField_flux hrep b hb (unitAt (sideDof g s(cornerAt g x, cornerAt g (nextCorner x))) α) F hF _
      hp.elem hp.area _ _ _ hp.verts q hp.on ν hp.conormal
    have hnc := hnet x hx y hy he (by omega)
    have hunit := fun F s hF => sum_unit g l net hsum hout _ (outEdge_lt g hg x hx) hi α F s hF
    have hxw : ∀ w, w / 3 = e0 → outEdge g w = outEdge g x → w = x := by
      intro w hw hwf
      exact outEdge_inj_elem g hg w x (by omega) (by omega) hwf
    have hlen : 0 < sideLength b v (g.data.nnodes + outEdge g x) := hpos
    rw [hval]
    show coefSum _ _ _ _ / sideLength b v (g.data.nnodes + outEdge g x) * _ = _
    rw [div_mul_cancel₀ _ hlen.ne', hdx, hunit _ _ hF]
    have hc := corner_lt g hg (F / 2) (by omega)
    have ho := outEdge_lt g hg x hx
    subst hFv
    rcases hxs with ⟨w, rfl, hwf⟩ | ⟨w, rfl, hwf⟩
    · -- at the start
      obtain rfl := hxw w (by omega) hwf
      have hk0 : k = 0 := by
        rw [fineTri_odd] at hpair
        rw [show (2 * w + 1) / 2 = w by omega] at *
        have : k = 0 ∨ k = 1 ∨ k = 2 := by omega
        rcases this with rfl | rfl | rfl
        · rfl
        · exfalso
          have hpair : s(cornerAt g w, g.data.nnodes + g.data.edges.length + w / 3) = s(cornerAt g w, g.data.nnodes + outEdge g w) := hpair
          rcases Sym2.eq_iff.mp hpair with ⟨a1, a2⟩ | ⟨a1, a2⟩ <;> omega
        · exfalso
          have hpair : s(g.data.nnodes + outEdge g w, g.data.nnodes + g.data.edges.length + w / 3) = s(cornerAt g w, g.data.nnodes + outEdge g w) := hpair
          rcases Sym2.eq_iff.mp hpair with ⟨a1, a2⟩ | ⟨a1, a2⟩ <;> omega
      have htouch := hnc.touch _ _ _ _ (Touch.across (nextCorner y) w (next_lt hy) hx hyz (by rw [prev_next]; exact hya))
      have hh := hnc.half1
      rw [hk0, show (2 * w + 1) / 2 = w by omega]
      rw [show net (outEdge g w) (2 * w + 1) 0 = -net (outEdge g w) (2 * nextCorner y) 1 by linarith, hh]
      split_ifs <;> ring
    · have hw3 : w / 3 = e0 := by
        have := next_div w
        omega
      obtain rfl := hxw w hw3 hwf
      have hk1 : k = 1 := by
        rw [fineTri_even] at hpair
        rw [show 2 * nextCorner w / 2 = nextCorner w by omega] at *
        rw [prev_next] at hpair
        have : k = 0 ∨ k = 1 ∨ k = 2 := by omega
        rcases this with rfl | rfl | rfl
        · exfalso
          have hpair : s(cornerAt g (nextCorner w), g.data.nnodes + g.data.edges.length + nextCorner w / 3) =
            s(cornerAt g (nextCorner w), g.data.nnodes + outEdge g w) := hpair
          rcases Sym2.eq_iff.mp hpair with ⟨a1, a2⟩ | ⟨a1, a2⟩ <;> omega
        · rfl
        · exfalso
          have hpair : s(g.data.nnodes + g.data.edges.length + nextCorner w / 3, g.data.nnodes + outEdge g w) =
            s(cornerAt g (nextCorner w), g.data.nnodes + outEdge g w) := hpair
          rcases Sym2.eq_iff.mp hpair with ⟨a1, a2⟩ | ⟨a1, a2⟩ <;> omega
      rw [hk1, show 2 * nextCorner w / 2 = nextCorner w by omega, hnc.half0, hya]
      split_ifs <;> ring

/-- **C96 (normal components)** On an oriented surface every function of a Buffa-Christiansen space has continuous normal components: the
flux out of a triangle of the refinement is the flux into its neighbour. -/
theorem C96_normal_continuity (g : GridData ℝ) (hg : g.Valid) (hs : OrientedSurface g) (b : GridData ℝ) (son : Nat → Nat → Nat)
    (h : barycentricGridSonPair g = .ok (b, son)) (dom dom' : Nat → Int) (checked : Bool) (seg : GridSegment) (mode : DofMode)
    (hmode : mode.edgeOnSegment = true ∨ mode.elementOnSegment = true) :
    ∃ st, assignBC ℝ checked (g.data.view dom) (b.data.view dom') son seg mode false = .ok st ∧
      ∀ (c : Nat → ℝ) (F F' : Nat) (t t' : Tri) (x y z z' : Nat) (q q' : ℝ × ℝ) (ν ν' : P3 ℝ), F ≠ F' →
        SidePoint b F t x y z q ν → SidePoint b F' t' x y z' q' ν' →
        bcField b st c F t q ν + bcField b st c F' t' q' ν' = 0 := by
  obtain ⟨hb, hbe, hson⟩ := bc_grid g hg b son h
  obtain ⟨st, l, net, hok, hrep, hsum, hout, hnet, -⟩ := bc_sums g hg hs b son h dom dom' checked seg mode hmode
  have hfc := fine_count g b hbe
  refine ⟨bcFill st, hok, ?_⟩
  intro c F F' t t' x y z z' q q' ν ν' hne hp hp'
  have hF : F < 6 * g.data.elements.length := by rw [← hfc]; exact (List.getElem?_eq_some_iff.mp hp.elem).1
  have hF' : F' < 6 * g.data.elements.length := by rw [← hfc]; exact (List.getElem?_eq_some_iff.mp hp'.elem).1
  have ht : t = fineTri g F := Option.some.inj (hp.elem.symm.trans (fine_elem g hg b hb hbe F hF))
  have ht' : t' = fineTri g F' := Option.some.inj (hp'.elem.symm.trans (fine_elem g hg b hb hbe F' hF'))
  subst ht ht'
  obtain ⟨k, hk, hpair, -, hval⟩ := bcField_flux hrep b hb c F hF _ hp.elem hp.area _ _ _ hp.verts q hp.on ν hp.conormal
  obtain ⟨k', hk', hpair', -, hval'⟩ := bcField_flux hrep b hb c F' hF' _ hp'.elem hp'.area _ _ _ hp'.verts q' hp'.on ν' hp'.conormal
  rw [hval, hval', ← add_div]
  have : coefSum l c F k + coefSum l c F' k' = 0 := by
    rcases touch_cases g hg hs F k F' k' hF hF' hk hk' (hpair.trans hpair'.symm) with ⟨h1, -⟩ | h1 | h1
    · exact absurd h1 hne
    · exact sum_touch g hg hs l net hsum hout hnet c _ _ _ _ hF hF' h1
    · rw [add_comm]; exact sum_touch g hg hs l net hsum hout hnet c _ _ _ _ hF' hF h1
  rw [this, zero_div]

/-- Neighbours in the refinement run through their common side in opposite directions. -/
theorem fine_opposite (g : GridData ℝ) (hg : g.Valid) (hs : OrientedSurface g) (F F' x y : Nat) (hF : F < 6 * g.data.elements.length)
    (hF' : F' < 6 * g.data.elements.length) (hne : F ≠ F') (h : Traverses (fineTri g F) x y) (h' : s(x, y) ∈ (fineTri g F').sides) :
    Traverses (fineTri g F') y x := by
  have hk : ∀ t : Tri, ∀ S ∈ t.sides, ∃ k < 3, sidePair t k = S := by
    intro t S hS
    simp only [Tri.sides, List.mem_cons, List.not_mem_nil, or_false] at hS
    rcases hS with rfl | rfl | rfl
    · exact ⟨0, by omega, rfl⟩
    · exact ⟨1, by omega, rfl⟩
    · exact ⟨2, by omega, rfl⟩
  have hS : s(x, y) ∈ (fineTri g F).sides := by
    rcases h with ⟨rfl, rfl⟩ | ⟨rfl, rfl⟩ | ⟨rfl, rfl⟩ <;> simp [Tri.sides]
  obtain ⟨k, hk3, hkp⟩ := hk _ _ hS
  obtain ⟨k', hk3', hkp'⟩ := hk _ _ h'
  -- distinct vertices
  have hdist : ∀ F < 6 * g.data.elements.length, (fineTri g F).a < g.data.nnodes ∧ g.data.nnodes ≤ (fineTri g F).b ∧ g.data.nnodes ≤ (fineTri g F).c ∧
      (fineTri g F).b ≠ (fineTri g F).c := by
    intro F hF
    have h1 := corner_lt g hg (F / 2) (by omega)
    have h2 := outEdge_lt g hg (F / 2) (by omega)
    have h3 := outEdge_lt g hg (prevCorner (F / 2)) (prev_lt (by omega))
    unfold fineTri
    split_ifs <;> simp only <;> omega
  have main : ∀ F s F' s', F < 6 * g.data.elements.length → F' < 6 * g.data.elements.length → Touch g F s F' s' →
      ∃ u v, s(u, v) = sidePair (fineTri g F) s ∧ Traverses (fineTri g F) u v ∧ Traverses (fineTri g F') v u := by
    intro F s F' s' hF hF' ht
    rcases ht.inv with ⟨rfl, rfl, x, hx, rfl, rfl⟩ | ⟨rfl, rfl, x, hx, y, hy, rfl, rfl, hxy, hxy'⟩ | ⟨rfl, rfl, x, hx, rfl, rfl⟩
    · rw [fineTri_odd, fineTri_even]
      exact ⟨_, _, Sym2.eq_swap, Or.inr (Or.inr ⟨rfl, rfl⟩), Or.inl ⟨rfl, rfl⟩⟩
    · have he : outEdge g (prevCorner x) = outEdge g y := by
        rw [outEdge_eq_iff g hg _ _ (prev_lt hx) hy, next_prev]
        exact Or.inr ⟨hxy', hxy⟩
      rw [fineTri_odd, fineTri_even, he, hxy]
      exact ⟨_, _, Sym2.eq_swap, Or.inr (Or.inr ⟨rfl, rfl⟩), Or.inl ⟨rfl, rfl⟩⟩
    · rw [fineTri_odd, fineTri_even, prev_next, next_div]
      exact ⟨_, _, rfl, Or.inr (Or.inl ⟨rfl, rfl⟩), Or.inr (Or.inl ⟨rfl, rfl⟩)⟩
  have huniq : ∀ F < 6 * g.data.elements.length, ∀ u v, Traverses (fineTri g F) u v → ¬ Traverses (fineTri g F) v u := by
    intro F hF u v h1 h2
    obtain ⟨a1, a2, a3, a4⟩ := hdist F hF
    rcases h1 with ⟨h1, h1'⟩ | ⟨h1, h1'⟩ | ⟨h1, h1'⟩ <;> rcases h2 with ⟨h2, h2'⟩ | ⟨h2, h2'⟩ | ⟨h2, h2'⟩ <;> omega
  rcases touch_cases g hg hs F k F' k' hF hF' hk3 hk3' (hkp.trans hkp'.symm) with ⟨h1, -⟩ | h1 | h1
  · exact absurd h1 hne
  · obtain ⟨u, v, huv, t1, t2⟩ := main _ _ _ _ hF hF' h1
    rw [hkp] at huv
    rcases Sym2.eq_iff.mp huv with ⟨rfl, rfl⟩ | ⟨rfl, rfl⟩
    · exact t2
    · exact absurd h (huniq F hF _ _ t1)
  · obtain ⟨u, v, huv, t1, t2⟩ := main _ _ _ _ hF' hF h1
    rw [hkp'] at huv
    rcases Sym2.eq_iff.mp huv with ⟨rfl, rfl⟩ | ⟨rfl, rfl⟩
    · exact absurd h (huniq F hF _ _ t2)
    · exact t1

/-- **C96 (tangential components)** On an oriented surface every function of a rotated Buffa-Christiansen space has continuous tangential
components. -/
theorem C96_tangential_continuity (g : GridData ℝ) (hg : g.Valid) (hs : OrientedSurface g) (b : GridData ℝ) (son : Nat → Nat → Nat)
    (h : barycentricGridSonPair g = .ok (b, son)) (dom dom' : Nat → Int) (seg : GridSegment) (mode : DofMode)
    (hmode : mode.edgeOnSegment = true ∨ mode.elementOnSegment = true) :
    ∃ st, assignBC ℝ false (g.data.view dom) (b.data.view dom') son seg mode false = .ok st ∧
      ∀ (c : Nat → ℝ) (F F' : Nat) (t t' : Tri) (x y : Nat) (q q' : ℝ × ℝ), F ≠ F' →
        b.data.elements[F]? = some t → b.data.elements[F']? = some t' → s(x, y) ∈ t.sides → s(x, y) ∈ t'.sides →
        areaVector (nodeAt b.nodes t.a) (nodeAt b.nodes t.b) (nodeAt b.nodes t.c) ≠ ⟨0, 0, 0⟩ →
        areaVector (nodeAt b.nodes t'.a) (nodeAt b.nodes t'.b) (nodeAt b.nodes t'.c) ≠ ⟨0, 0, 0⟩ →
        OnSide b t q x y → OnSide b t' q' x y →
        rbcField b st c F t q ((nodeAt b.nodes y).sub (nodeAt b.nodes x)) = rbcField b st c F' t' q' ((nodeAt b.nodes y).sub (nodeAt b.nodes x)) := by
  obtain ⟨hb, hbe, hson⟩ := bc_grid g hg b son h
  obtain ⟨st, hok, hmain⟩ := C96_normal_continuity g hg hs b son h dom dom' false seg mode hmode
  have hfc := fine_count g b hbe
  refine ⟨st, hok, ?_⟩
  have hneg : ∀ st c F t q x y, rbcField b st c F t q ((nodeAt b.nodes y).sub (nodeAt b.nodes x)) =
      -rbcField b st c F t q ((nodeAt b.nodes x).sub (nodeAt b.nodes y)) := by
    intro st c F t q x y
    unfold rbcField
    rw [← neg_one_mul, ← expandW_smul]
    congr 1
    funext a
    simp only [P3.dot, P3.sub]; ring
  have key : ∀ (c : Nat → ℝ) (F F' : Nat) (t t' : Tri) (x y : Nat) (q q' : ℝ × ℝ), F ≠ F' →
        b.data.elements[F]? = some t → b.data.elements[F']? = some t' → Traverses t x y → s(x, y) ∈ t'.sides →
        areaVector (nodeAt b.nodes t.a) (nodeAt b.nodes t.b) (nodeAt b.nodes t.c) ≠ ⟨0, 0, 0⟩ →
        areaVector (nodeAt b.nodes t'.a) (nodeAt b.nodes t'.b) (nodeAt b.nodes t'.c) ≠ ⟨0, 0, 0⟩ →
        OnSide b t q x y → OnSide b t' q' x y →
        rbcField b st c F t q ((nodeAt b.nodes y).sub (nodeAt b.nodes x)) = rbcField b st c F' t' q' ((nodeAt b.nodes y).sub (nodeAt b.nodes x)) := by
    intro c F F' t t' x y q q' hne ht ht' htr hS' hn hn' hq hq'
    have hF : F < 6 * g.data.elements.length := by rw [← hfc]; exact (List.getElem?_eq_some_iff.mp ht).1
    have hF' : F' < 6 * g.data.elements.length := by rw [← hfc]; exact (List.getElem?_eq_some_iff.mp ht').1
    have e : t = fineTri g F := Option.some.inj (ht.symm.trans (fine_elem g hg b hb hbe F hF))
    have e' : t' = fineTri g F' := Option.some.inj (ht'.symm.trans (fine_elem g hg b hb hbe F' hF'))
    have htr' : Traverses t' y x := by
      rw [e']; rw [e] at htr; rw [e'] at hS'
      exact fine_opposite g hg hs F F' x y hF hF' hne htr hS'
    obtain ⟨z, ν, hp, hν, hval⟩ := rbc_tangential b t hn x y htr
    obtain ⟨z', ν', hp', hν', hval'⟩ := rbc_tangential b t' hn' y x htr'
    have hk := hmain c F F' t t' x y z z' q q' ν ν' hne ⟨ht, hp, hn, hq, hν⟩ ⟨ht', (List.Perm.swap _ _ _).trans hp', hn', hq', hν'.swap⟩
    rw [hneg st c F' t' q' x y, hval, hval']
    have hl : Real.sqrt (((nodeAt b.nodes x).sub (nodeAt b.nodes y)).dot ((nodeAt b.nodes x).sub (nodeAt b.nodes y))) =
        Real.sqrt (((nodeAt b.nodes y).sub (nodeAt b.nodes x)).dot ((nodeAt b.nodes y).sub (nodeAt b.nodes x))) := by
      congr 1
      simp only [P3.dot, P3.sub]; ring
    rw [hl]
    linear_combination Real.sqrt (((nodeAt b.nodes y).sub (nodeAt b.nodes x)).dot ((nodeAt b.nodes y).sub (nodeAt b.nodes x))) * hk
  intro c F F' t t' x y q q' hne ht ht' hS hS' hn hn' hq hq'
  have htr : Traverses t x y ∨ Traverses t y x := by
    simp only [Tri.sides, List.mem_cons, List.not_mem_nil, or_false] at hS
    rcases hS with hS | hS | hS <;> rcases Sym2.eq_iff.mp hS with ⟨rfl, rfl⟩ | ⟨rfl, rfl⟩
    · exact Or.inl (Or.inl ⟨rfl, rfl⟩)
    · exact Or.inr (Or.inl ⟨rfl, rfl⟩)
    · exact Or.inr (Or.inr (Or.inr ⟨rfl, rfl⟩))
    · exact Or.inl (Or.inr (Or.inr ⟨rfl, rfl⟩))
    · exact Or.inl (Or.inr (Or.inl ⟨rfl, rfl⟩))
    · exact Or.inr (Or.inr (Or.inl ⟨rfl, rfl⟩))
  rcases htr with htr | htr
  · exact key c F F' t t' x y q q' hne ht ht' htr hS' hn hn' hq hq'
  · rw [hneg st c F t q x y, hneg st c F' t' q' x y,
      key c F F' t t' y x q q' hne ht ht' htr (by rw [Sym2.eq_swap]; exact hS') hn hn' hq.swap hq'.swap]

/-! ### The hypotheses can be met -/

/-- A fan, from checks that can be evaluated. -/
theorem fan_of_checks {K : Type} (g : GridData K) (v : Nat) (l : List Nat) (h1 : ∀ x < 3 * g.data.elements.length, x ∈ l ↔ cornerAt g x = v)
    (h2 : ∀ x ∈ l, x < 3 * g.data.elements.length) (h3 : (l.map fun x => cornerAt g (nextCorner x)).Nodup)
    (h4 : ∀ i < l.length - 1, cornerAt g (prevCorner (l.getD i 0)) = cornerAt g (nextCorner (l.getD (i + 1) 0))) : Fan g v l where
  mem x := ⟨fun h => ⟨h2 x h, (h1 x (h2 x h)).mp h⟩, fun h => (h1 x h.1).mpr h.2⟩
  distinct := h3
  chain i x y hx hy := by
    have hi := (List.getElem?_eq_some_iff.mp hy).1
    have := h4 i (by omega)
    rw [List.getD_eq_getElem?_getD, List.getD_eq_getElem?_getD, hx, hy] at this
    exact this

/-- A square of two triangles: open fans, every vertex on the boundary. -/
example : ∃ d, DataContainer.init 4 [⟨0, 1, 2⟩, ⟨0, 2, 3⟩] = some d ∧
    ∃ g : GridData ℝ, g = ⟨[⟨0, 0, 0⟩, ⟨1, 0, 0⟩, ⟨1, 1, 0⟩, ⟨0, 1, 0⟩], d, [3, 4]⟩ ∧ g.Valid ∧ OrientedSurface g ∧
    (∃ b son, barycentricGridSonPair g = .ok (b, son)) ∧ SharedSide g 2 0 0 1 ∧ BoundaryVertex g 0 ∧ valence g 0 = 2 := by
  refine ⟨_, rfl, _, rfl, ?_⟩
  have hv : GridData.Valid (K := ℝ) ⟨[⟨0, 0, 0⟩, ⟨1, 0, 0⟩, ⟨1, 1, 0⟩, ⟨0, 1, 0⟩],
      ((DataContainer.init 4 [⟨0, 1, 2⟩, ⟨0, 2, 3⟩]).get rfl), [3, 4]⟩ := by
    refine ⟨⟨0, rfl⟩, rfl, rfl, ?_, ?_⟩ <;>
    · intro t ht
      have ht : t ∈ [(⟨0, 1, 2⟩ : Tri), ⟨0, 2, 3⟩] := ht
      simp only [List.mem_cons, List.not_mem_nil, or_false] at ht
      rcases ht with rfl | rfl <;> simp [Tri.verts, Tri.Proper] <;> decide
  refine ⟨hv, ?_, ?_, ⟨by decide, ⟨_, rfl, Or.inr (Or.inr ⟨rfl, rfl⟩)⟩, ⟨_, rfl, Or.inl ⟨rfl, rfl⟩⟩⟩, ⟨0, by decide, Or.inl rfl, ?_⟩, by decide⟩
  · intro v hv
    have hv : v < 4 := hv
    interval_cases v
    · exact ⟨[0, 3], by decide, fan_of_checks _ _ _ (by decide) (by decide) (by decide) (by decide), Or.inr (by
        intro x hx; obtain rfl := Option.some.inj hx; decide)⟩
    · exact ⟨[1], by decide, fan_of_checks _ _ _ (by decide) (by decide) (by decide) (by decide), Or.inr (by
        intro x hx; obtain rfl := Option.some.inj hx; decide)⟩
    · exact ⟨[4, 2], by decide, fan_of_checks _ _ _ (by decide) (by decide) (by decide) (by decide), Or.inr (by
        intro x hx; obtain rfl := Option.some.inj hx; decide)⟩
    · exact ⟨[5], by decide, fan_of_checks _ _ _ (by decide) (by decide) (by decide) (by decide), Or.inr (by
        intro x hx; obtain rfl := Option.some.inj hx; decide)⟩
  · exact ⟨_, _, rfl⟩
  · decide

/-- Points at segments of the refinement of the square. -/
example : ∃ d, DataContainer.init 4 [⟨0, 1, 2⟩, ⟨0, 2, 3⟩] = some d ∧
    ∃ g : GridData ℝ, g = ⟨[⟨0, 0, 0⟩, ⟨1, 0, 0⟩, ⟨1, 1, 0⟩, ⟨0, 1, 0⟩], d, [3, 4]⟩ ∧ g.data.edges[1]? = some (2, 0) ∧
    ∀ b son, barycentricGridSonPair g = .ok (b, son) →
      ∃ ν ν', SidePoint b 0 ⟨0, 9, 5⟩ (g.data.nnodes + 1) (g.data.nnodes + g.data.edges.length + 0) 0 (1 / 2, 1 / 2) ν ∧
        SidePoint b 5 ⟨2, 5, 9⟩ (g.data.nnodes + 1) (g.data.nnodes + g.data.edges.length + 0) 2 (1 / 2, 1 / 2) ν' := by
  refine ⟨_, rfl, _, rfl, rfl, ?_⟩
  have hv : GridData.Valid (K := ℝ) ⟨[⟨0, 0, 0⟩, ⟨1, 0, 0⟩, ⟨1, 1, 0⟩, ⟨0, 1, 0⟩],
      ((DataContainer.init 4 [⟨0, 1, 2⟩, ⟨0, 2, 3⟩]).get rfl), [3, 4]⟩ := by
    refine ⟨⟨0, rfl⟩, rfl, rfl, ?_, ?_⟩ <;>
    · intro t ht
      have ht : t ∈ [(⟨0, 1, 2⟩ : Tri), ⟨0, 2, 3⟩] := ht
      simp only [List.mem_cons, List.not_mem_nil, or_false] at ht
      rcases ht with rfl | rfl <;> simp [Tri.verts, Tri.Proper] <;> decide
  obtain ⟨b', s', h', hn, he, -⟩ := bary_spec _ hv
  intro b son h
  obtain ⟨rfl, rfl⟩ := Prod.mk.inj (Except.ok.inj (h'.symm.trans h))
  have n0 : nodeAt b'.nodes 0 = ⟨0, 0, 0⟩ := by rw [hn]; rfl
  have n2 : nodeAt b'.nodes 2 = ⟨1, 1, 0⟩ := by rw [hn]; rfl
  have n5 : nodeAt b'.nodes 5 = P3.mid ⟨1, 1, 0⟩ ⟨0, 0, 0⟩ := by rw [hn]; rfl
  have n9 : nodeAt b'.nodes 9 = P3.centroid ⟨0, 0, 0⟩ ⟨1, 0, 0⟩ ⟨1, 1, 0⟩ := by rw [hn]; rfl
  refine ⟨_, _, ⟨by rw [he]; rfl, by decide, ?_, ⟨1 / 2, ?_⟩, conormal_exists _ _ _ ?_⟩, ⟨by rw [he]; rfl, by decide, ?_, ⟨1 / 2, ?_⟩, conormal_exists _ _ _ ?_⟩⟩
  · show areaVector (nodeAt b'.nodes 0) (nodeAt b'.nodes 9) (nodeAt b'.nodes 5) ≠ _
    intro h; have := congrArg P3.z h; rw [n0, n5, n9] at this; norm_num [areaVector, P3.mid, P3.centroid] at this
  · show refMap (nodeAt b'.nodes 0) (nodeAt b'.nodes 9) (nodeAt b'.nodes 5) _ = P3.mk ((nodeAt b'.nodes 5).x + 1 / 2 * ((nodeAt b'.nodes 9).x - _))
      (_ + 1 / 2 * ((nodeAt b'.nodes 9).y - _)) (_ + 1 / 2 * ((nodeAt b'.nodes 9).z - _))
    rw [n0, n5, n9]; norm_num [refMap, P3.mid, P3.centroid]
  · show areaVector (nodeAt b'.nodes 5) (nodeAt b'.nodes 9) (nodeAt b'.nodes 0) ≠ _
    intro h; have := congrArg P3.z h; rw [n0, n5, n9] at this; norm_num [areaVector, P3.mid, P3.centroid] at this
  · show areaVector (nodeAt b'.nodes 2) (nodeAt b'.nodes 5) (nodeAt b'.nodes 9) ≠ _
    intro h; have := congrArg P3.z h; rw [n2, n5, n9] at this; norm_num [areaVector, P3.mid, P3.centroid] at this
  · show refMap (nodeAt b'.nodes 2) (nodeAt b'.nodes 5) (nodeAt b'.nodes 9) _ = P3.mk ((nodeAt b'.nodes 5).x + 1 / 2 * ((nodeAt b'.nodes 9).x - _))
      (_ + 1 / 2 * ((nodeAt b'.nodes 9).y - _)) (_ + 1 / 2 * ((nodeAt b'.nodes 9).z - _))
    rw [n2, n5, n9]; norm_num [refMap, P3.mid, P3.centroid]
  · show areaVector (nodeAt b'.nodes 5) (nodeAt b'.nodes 9) (nodeAt b'.nodes 2) ≠ _
    intro h; have := congrArg P3.z h; rw [n2, n5, n9] at this; norm_num [areaVector, P3.mid, P3.centroid] at this

set_option maxHeartbeats 2000000 in
/-- A tetrahedron: closed fans. -/
example : ∃ d, DataContainer.init 4 [⟨0, 1, 2⟩, ⟨0, 2, 3⟩, ⟨0, 3, 1⟩, ⟨1, 3, 2⟩] = some d ∧
    ∃ g : GridData ℝ, g = ⟨[⟨0, 0, 0⟩, ⟨1, 0, 0⟩, ⟨0, 1, 0⟩, ⟨0, 0, 1⟩], d, [0, 0, 0, 0]⟩ ∧ g.Valid ∧ OrientedSurface g ∧
    (∃ b son, barycentricGridSonPair g = .ok (b, son)) ∧ SharedSide g 1 2 0 3 ∧ ¬ BoundaryVertex g 0 ∧ valence g 0 = 3 := by
  refine ⟨_, rfl, _, rfl, ?_⟩
  have hv : GridData.Valid (K := ℝ) ⟨[⟨0, 0, 0⟩, ⟨1, 0, 0⟩, ⟨0, 1, 0⟩, ⟨0, 0, 1⟩],
      ((DataContainer.init 4 [⟨0, 1, 2⟩, ⟨0, 2, 3⟩, ⟨0, 3, 1⟩, ⟨1, 3, 2⟩]).get rfl), [0, 0, 0, 0]⟩ := by
    refine ⟨⟨0, rfl⟩, rfl, rfl, ?_, ?_⟩ <;>
    · intro t ht
      have ht : t ∈ [(⟨0, 1, 2⟩ : Tri), ⟨0, 2, 3⟩, ⟨0, 3, 1⟩, ⟨1, 3, 2⟩] := ht
      simp only [List.mem_cons, List.not_mem_nil, or_false] at ht
      rcases ht with rfl | rfl | rfl | rfl <;> simp [Tri.verts, Tri.Proper] <;> decide
  refine ⟨hv, ?_, ?_, ⟨by decide, ⟨_, rfl, Or.inr (Or.inl ⟨rfl, rfl⟩)⟩, ⟨_, rfl, Or.inr (Or.inr ⟨rfl, rfl⟩)⟩⟩, ?_, by decide⟩
  · intro v hv
    have hv : v < 4 := hv
    interval_cases v
    · exact ⟨[0, 3, 6], by decide, fan_of_checks _ _ _ (by decide) (by decide) (by decide) (by decide), Or.inl (by
        intro x y hx hy; obtain rfl := Option.some.inj hx; obtain rfl := Option.some.inj hy; decide)⟩
    · exact ⟨[1, 8, 9], by decide, fan_of_checks _ _ _ (by decide) (by decide) (by decide) (by decide), Or.inl (by
        intro x y hx hy; obtain rfl := Option.some.inj hx; obtain rfl := Option.some.inj hy; decide)⟩
    · exact ⟨[2, 11, 4], by decide, fan_of_checks _ _ _ (by decide) (by decide) (by decide) (by decide), Or.inl (by
        intro x y hx hy; obtain rfl := Option.some.inj hx; obtain rfl := Option.some.inj hy; decide)⟩
    · exact ⟨[5, 10, 7], by decide, fan_of_checks _ _ _ (by decide) (by decide) (by decide) (by decide), Or.inl (by
        intro x y hx hy; obtain rfl := Option.some.inj hx; obtain rfl := Option.some.inj hy; decide)⟩
  · exact ⟨_, _, rfl⟩
  · rintro ⟨x, hx, -, h⟩
    have hx : x < 12 := hx
    interval_cases x
    all_goals first
      | exact absurd (h 0 (by decide) (by decide)) (by decide)
      | exact absurd (h 1 (by decide) (by decide)) (by decide)
      | exact absurd (h 2 (by decide) (by decide)) (by decide)
      | exact absurd (h 3 (by decide) (by decide)) (by decide)
      | exact absurd (h 4 (by decide) (by decide)) (by decide)
      | exact absurd (h 5 (by decide) (by decide)) (by decide)
      | exact absurd (h 6 (by decide) (by decide)) (by decide)
      | exact absurd (h 7 (by decide) (by decide)) (by decide)
      | exact absurd (h 8 (by decide) (by decide)) (by decide)
      | exact absurd (h 9 (by decide) (by decide)) (by decide)
      | exact absurd (h 10 (by decide) (by decide)) (by decide)
      | exact absurd (h 11 (by decide) (by decide)) (by decide)

/-! ### Grids that are not oriented surfaces -/

/-- The grid with these triangles; the coordinates do not matter. -/
def bcGrid (n : Nat) (ts : List Tri) : Option (GridData ℚ) :=
  (DataContainer.init n ts).map fun d => ⟨(List.range n).map fun i => ⟨i, i * i, i * i * i⟩, d, ts.map fun _ => 0⟩

/-- Construction of the space on the whole grid; `none` if there is no such grid. -/
def bcOutcome (checked : Bool) (n : Nat) (ts : List Tri) : Option (Except BcFail (List (List Int))) := do
  let g ← bcGrid n ts
  match barycentricGridSonPair g with
  | .ok (b, son) =>
    some ((assignBC ℚ checked (g.data.view fun _ => 0) (b.data.view fun _ => 0) son (wholeGrid (g.data.view fun _ => 0)) ⟨true, false⟩ false).map
      (·.local2global))
  | .error _ => none

/-- **C96 (finding)** Two triangles with a common side but opposite orientations: the error "Please check your normal orientations" is not raised;
the constructor reads the entry with index -1 of a vector.  The same for a tetrahedron with one triangle reversed. -/
theorem C96_counterexample_orientation :
    bcOutcome true 4 [⟨0, 1, 2⟩, ⟨0, 3, 2⟩] = some (.error .ub) ∧ bcOutcome false 4 [⟨0, 1, 2⟩, ⟨0, 3, 2⟩] = some (.error .ub) ∧
    bcOutcome true 4 [⟨0, 1, 2⟩, ⟨0, 2, 3⟩, ⟨0, 3, 1⟩, ⟨1, 2, 3⟩] = some (.error .ub) := by
  refine ⟨?_, ?_, ?_⟩ <;> decide +kernel

/-- **C96 (finding)** Grids that are not surfaces: two fans that meet in a vertex, or three triangles at a side, raise that error in the
space and make the constructor of the rotated space loop for ever; three triangles at a side can also be accepted. -/
theorem C96_counterexample_surface :
    bcOutcome true 6 [⟨0, 1, 2⟩, ⟨0, 2, 5⟩, ⟨0, 3, 4⟩] = some (.error .runtimeError) ∧
    bcOutcome false 6 [⟨0, 1, 2⟩, ⟨0, 2, 5⟩, ⟨0, 3, 4⟩] = some (.error .diverges) ∧
    (∃ l, bcOutcome true 5 [⟨0, 1, 2⟩, ⟨0, 2, 3⟩, ⟨0, 2, 4⟩] = some (.ok l)) := by
  refine ⟨?_, ?_, ?_⟩
  · decide +kernel
  · decide +kernel
  · have h : (match bcOutcome true 5 [⟨0, 1, 2⟩, ⟨0, 2, 3⟩, ⟨0, 2, 4⟩] with | some (.ok _) => true | _ => false) = true := by decide +kernel
    revert h
    cases hh : bcOutcome true 5 [⟨0, 1, 2⟩, ⟨0, 2, 3⟩, ⟨0, 2, 4⟩] with
    | none => simp
    | some r =>
      cases r with
      | error e => simp
      | ok l => exact fun _ => ⟨l, rfl⟩

end Verif.Space
