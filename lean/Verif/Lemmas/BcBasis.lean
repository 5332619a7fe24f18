import Verif.Lemmas.BcField
/-
The functions of the Buffa-Christiansen basis.
-/
namespace Verif.Space
open Verif.Grid Verif.Shape

/-- The number of the dof of a side. -/
noncomputable def sideDof (g : GridData ℝ) (S : Sym2 Nat) : Nat := countBelow (InnerEdge g) ((g.data.edges.map side).idxOf S)

section
variable (g : GridData ℝ) (hg : g.Valid)
include hg

theorem idx_side (f : Nat) (p : Nat × Nat) (S : Sym2 Nat) (hf : g.data.edges[f]? = some p) (hs : side p = S) :
    (g.data.edges.map side).idxOf S = f := by
  have h1 : (g.data.edges.map side)[f]? = some S := by rw [List.getElem?_map, hf]; simp [hs]
  obtain ⟨c, hc⟩ := hg.init
  have hnd := (C31_edges _ _ c _ hc).1
  obtain ⟨hl, h2⟩ := List.getElem?_eq_some_iff.mp h1
  rw [← h2]
  exact hnd.idxOf_getElem f hl

theorem outEdge_spec (x : Nat) (hx : x < 3 * g.data.elements.length) :
    ∃ p, g.data.edges[outEdge g x]? = some p ∧ side p = s(cornerAt g x, cornerAt g (nextCorner x)) := by
  obtain ⟨t, ht⟩ := elem_get g x hx
  obtain ⟨p, hp, h⟩ := sideEdge_spec g hg (x / 3) t ht (if x % 3 = 0 then 0 else if x % 3 = 1 then 2 else 1) (by split_ifs <;> omega)
  exact ⟨p, hp, by rw [h, pair_corner g x t ht]⟩

theorem dof_corner (x : Nat) (hx : x < 3 * g.data.elements.length) :
    sideDof g s(cornerAt g x, cornerAt g (nextCorner x)) = countBelow (InnerEdge g) (outEdge g x) := by
  obtain ⟨p, hp, hs⟩ := outEdge_spec g hg x hx
  unfold sideDof
  rw [idx_side g hg _ p _ hp hs]

theorem edge_of_corner (x : Nat) (hx : x < 3 * g.data.elements.length) (f : Nat) (p : Nat × Nat) (hp : g.data.edges[f]? = some p)
    (hs : side p = s(cornerAt g x, cornerAt g (nextCorner x))) : f = outEdge g x := by
  obtain ⟨p', hp', hs'⟩ := outEdge_spec g hg x hx
  exact edge_unique' g hg _ _ _ _ hp hp' (hs.trans hs'.symm)

omit hg in
theorem traverses_corner (e : Nat) (t : Tri) (ht : g.data.elements[e]? = some t) (a z : Nat) (h : Traverses t a z) :
    ∃ x < 3 * g.data.elements.length, x / 3 = e ∧ cornerAt g x = a ∧ cornerAt g (nextCorner x) = z := by
  have hlt := (List.getElem?_eq_some_iff.mp ht).1
  have hc : ∀ k < 3, cornerAt g (3 * e + k) = if k = 0 then t.a else if k = 1 then t.b else t.c := by
    intro k hk
    rw [cornerAt_eq g (3 * e + k) t (by rw [show (3 * e + k) / 3 = e by omega]; exact ht), show (3 * e + k) % 3 = k by omega]
  rcases h with ⟨rfl, rfl⟩ | ⟨rfl, rfl⟩ | ⟨rfl, rfl⟩
  · refine ⟨3 * e + 0, by omega, by omega, by rw [hc 0 (by omega)]; rfl, ?_⟩
    rw [show nextCorner (3 * e + 0) = 3 * e + 1 by unfold nextCorner; omega, hc 1 (by omega)]; rfl
  · refine ⟨3 * e + 1, by omega, by omega, by rw [hc 1 (by omega)]; rfl, ?_⟩
    rw [show nextCorner (3 * e + 1) = 3 * e + 2 by unfold nextCorner; omega, hc 2 (by omega)]; rfl
  · refine ⟨3 * e + 2, by omega, by omega, by rw [hc 2 (by omega)]; rfl, ?_⟩
    rw [show nextCorner (3 * e + 2) = 3 * e + 0 by unfold nextCorner; omega, hc 0 (by omega)]; rfl

omit hg in
theorem corner_traverses (x : Nat) (t : Tri) (ht : g.data.elements[x / 3]? = some t) : Traverses t (cornerAt g x) (cornerAt g (nextCorner x)) := by
  rw [cornerAt_eq g x t ht, cornerAt_eq g (nextCorner x) t (by rw [next_div]; exact ht)]
  have hn : nextCorner x % 3 = (x % 3 + 1) % 3 := by unfold nextCorner; omega
  rw [hn]
  have : x % 3 = 0 ∨ x % 3 = 1 ∨ x % 3 = 2 := by omega
  rcases this with h | h | h
  · rw [h]; exact Or.inl ⟨rfl, rfl⟩
  · rw [h]; exact Or.inr (Or.inl ⟨rfl, rfl⟩)
  · rw [h]; exact Or.inr (Or.inr ⟨rfl, rfl⟩)

omit hg in
theorem mem_sides_corner (e : Nat) (t : Tri) (ht : g.data.elements[e]? = some t) (S : Sym2 Nat) (h : S ∈ t.sides) :
    ∃ x < 3 * g.data.elements.length, x / 3 = e ∧ s(cornerAt g x, cornerAt g (nextCorner x)) = S := by
  simp only [Tri.sides, List.mem_cons, List.not_mem_nil, or_false] at h
  rcases h with rfl | rfl | rfl
  · obtain ⟨x, hx, he, h1, h2⟩ := traverses_corner g e t ht t.a t.b (Or.inl ⟨rfl, rfl⟩)
    exact ⟨x, hx, he, by rw [h1, h2]⟩
  · obtain ⟨x, hx, he, h1, h2⟩ := traverses_corner g e t ht t.c t.a (Or.inr (Or.inr ⟨rfl, rfl⟩))
    exact ⟨x, hx, he, by rw [h1, h2, Sym2.eq_swap]⟩
  · obtain ⟨x, hx, he, h1, h2⟩ := traverses_corner g e t ht t.b t.c (Or.inr (Or.inl ⟨rfl, rfl⟩))
    exact ⟨x, hx, he, by rw [h1, h2]⟩

omit hg in
theorem corner_mem_sides (x : Nat) (t : Tri) (ht : g.data.elements[x / 3]? = some t) : s(cornerAt g x, cornerAt g (nextCorner x)) ∈ t.sides := by
  rcases corner_traverses g x t ht with ⟨h1, h2⟩ | ⟨h1, h2⟩ | ⟨h1, h2⟩ <;> rw [h1, h2] <;> simp [Tri.sides]

/-- A shared side in terms of corners. -/
theorem shared_corners (a z e0 e1 : Nat) (h : SharedSide g a z e0 e1) : ∃ x < 3 * g.data.elements.length, ∃ y < 3 * g.data.elements.length,
    x / 3 = e0 ∧ y / 3 = e1 ∧ cornerAt g x = a ∧ cornerAt g (nextCorner x) = z ∧ cornerAt g y = z ∧ cornerAt g (nextCorner y) = a ∧
    outEdge g x = outEdge g y ∧ InnerEdge g (outEdge g x) ∧ sideDof g s(a, z) = countBelow (InnerEdge g) (outEdge g x) := by
  obtain ⟨hlt, ⟨t, ht, htr⟩, ⟨t', ht', htr'⟩⟩ := h
  obtain ⟨x, hx, hxe, hxa, hxz⟩ := traverses_corner g e0 t ht a z htr
  obtain ⟨y, hy, hye, hya, hyz⟩ := traverses_corner g e1 t' ht' z a htr'
  have he : outEdge g x = outEdge g y := (outEdge_eq_iff g hg x y hx hy).mpr (Or.inr ⟨by rw [hxa, hyz], by rw [hxz, hya]⟩)
  refine ⟨x, hx, y, hy, hxe, hye, hxa, hxz, hya, hyz, he, ⟨x, hx, y, hy, ?_, rfl, he.symm⟩, ?_⟩
  · intro h; rw [h] at hxe; omega
  · rw [← hxa, ← hxz, dof_corner g hg x hx]

variable (hs : OrientedSurface g)
include hs

/-- On an oriented surface, sides of two triangles are shared sides. -/
theorem shared_of (x y : Nat) (hx : x < 3 * g.data.elements.length) (hy : y < 3 * g.data.elements.length) (he : outEdge g x = outEdge g y)
    (hlt : x / 3 < y / 3) : SharedSide g (cornerAt g x) (cornerAt g (nextCorner x)) (x / 3) (y / 3) := by
  obtain ⟨t, ht⟩ := elem_get g x hx
  obtain ⟨t', ht'⟩ := elem_get g y hy
  obtain ⟨o1, o2⟩ := opposite g hg hs x y hx hy he (fun h => by rw [h] at hlt; omega)
  exact ⟨hlt, ⟨t, ht, corner_traverses g x t ht⟩, ⟨t', ht', by rw [o1, o2]; exact corner_traverses g y t' ht'⟩⟩

end

/-- What the refinement of the grid gives. -/
theorem bc_grid (g : GridData ℝ) (hg : g.Valid) (b : GridData ℝ) (son : Nat → Nat → Nat) (h : barycentricGridSonPair g = .ok (b, son)) :
    b.Valid ∧ b.data.elements = baryElements g ∧ ∀ e k, e < g.data.elements.length → k < 6 → son e k = 6 * e + k := by
  obtain ⟨b', s', h', hn, he, hdm, hsm, hnn, hinit⟩ := bary_spec g hg
  rw [h'] at h
  cases h
  have hlen := baryVertices_length g hg
  refine ⟨⟨⟨0, hinit⟩, by rw [hn, hnn], ?_, ?_⟩, he, ?_⟩
  · rw [hdm, he, baryElements_length]
    unfold baryDomains
    rw [flatMap_block_length 6 _ (by intro a; simp), List.length_range]
  · rw [hnn, hlen, he]; exact baryMesh g hg
  · intro e k he hk
    rw [hsm, barySonMap_get _ _ (le_refl _) e k hk (by omega)]

/-- The space in terms of net coefficients. -/
theorem bc_sums (g : GridData ℝ) (hg : g.Valid) (hs : OrientedSurface g) (b : GridData ℝ) (son : Nat → Nat → Nat)
    (h : barycentricGridSonPair g = .ok (b, son)) (dom dom' : Nat → Int) (checked : Bool) (seg : GridSegment) (mode : DofMode)
    (hmode : mode.edgeOnSegment = true ∨ mode.elementOnSegment = true) :
    ∃ (st : BcState ℝ) (l : List (Push ℝ)) (net : Nat → Nat → Nat → ℝ),
      assignBC ℝ checked (g.data.view dom) (b.data.view dom') son seg mode false = .ok (bcFill st) ∧
      Rep st l (6 * g.data.elements.length) (countBelow (InnerEdge g) g.data.edges.length) ∧
      (∀ c F s, F < 6 * g.data.elements.length → coefSum l c F s =
        ∑ f ∈ Finset.range g.data.edges.length, c (countBelow (InnerEdge g) f) * net f F s) ∧
      (∀ f, f < g.data.edges.length → ¬ InnerEdge g f → ∀ F s, net f F s = 0) ∧
      (∀ x < 3 * g.data.elements.length, ∀ y < 3 * g.data.elements.length, outEdge g x = outEdge g y → x / 3 < y / 3 →
        NetCols g x y (net (outEdge g x))) ∧
      ∀ x < 3 * g.data.elements.length, ∀ y < 3 * g.data.elements.length, outEdge g x = outEdge g y → x / 3 < y / 3 →
        ∀ F < 6 * g.data.elements.length, ((ofFace l F).map (·.dof)).count (countBelow (InnerEdge g) (outEdge g x)) =
          if cornerAt g (F / 2) = cornerAt g x ∨ cornerAt g (F / 2) = cornerAt g y then 1 else 0 := by
  classical
  obtain ⟨hb, hbe, hson⟩ := bc_grid g hg b son h
  obtain ⟨P, st, hok, hrep, hno, hyes⟩ := bc_core (L := ℝ) g hg hs b hb hbe dom dom' son hson checked seg mode hmode
  have hnet : ∀ f : Nat, ∃ N : Nat → Nat → ℝ, f < g.data.edges.length → (¬ InnerEdge g f → ∀ F s, N F s = 0) ∧
      (InnerEdge g f → ∃ x0 x1, x0 < 3 * g.data.elements.length ∧ x1 < 3 * g.data.elements.length ∧
        outEdge g x0 = f ∧ outEdge g x1 = f ∧ x0 / 3 < x1 / 3 ∧ NetCols g x0 x1 N ∧
        (∀ F < 6 * g.data.elements.length, ((ofFace (P f) F).map (·.dof)) =
          if cornerAt g (F / 2) = cornerAt g x0 ∨ cornerAt g (F / 2) = cornerAt g x1 then [countBelow (InnerEdge g) f] else [])) ∧
      ∀ c F s, F < 6 * g.data.elements.length → coefSum (P f) c F s = c (countBelow (InnerEdge g) f) * N F s := by
    intro f
    by_cases hf : f < g.data.edges.length
    · by_cases hi : InnerEdge g f
      · obtain ⟨x0, x1, N, h0, h1, e0, e1, hlt, hN, hd, hF⟩ := hyes f hf hi
        refine ⟨N, fun _ => ⟨fun h => absurd hi h, fun _ => ⟨x0, x1, h0, h1, e0, e1, hlt, hN, ?_⟩, ?_⟩⟩
        · intro F hFl
          by_cases hc : cornerAt g (F / 2) = cornerAt g x0 ∨ cornerAt g (F / 2) = cornerAt g x1
          · obtain ⟨p, hp, -⟩ := (hF F hFl).1 hc
            have hpm : p ∈ P f := by
              have : p ∈ ofFace (P f) F := by rw [hp]; simp
              exact (List.mem_filter.mp this).1
            rw [if_pos hc, hp]
            simp [(hd p hpm).1]
          · rw [if_neg hc, (hF F hFl).2 (fun h => hc (Or.inl h)) (fun h => hc (Or.inr h))]
            rfl
        · intro c F s hFl
          unfold coefSum
          by_cases hc : cornerAt g (F / 2) = cornerAt g x0 ∨ cornerAt g (F / 2) = cornerAt g x1
          · obtain ⟨p, hp, hps⟩ := (hF F hFl).1 hc
            have hpm : p ∈ P f := by
              have : p ∈ ofFace (P f) F := by rw [hp]; simp
              exact (List.mem_filter.mp this).1
            rw [hp]
            simp [(hd p hpm).1, hps]
          · rw [(hF F hFl).2 (fun h => hc (Or.inl h)) (fun h => hc (Or.inr h)),
              hN.support F hFl (fun h => hc (Or.inl h)) (fun h => hc (Or.inr h))]
            simp
      · refine ⟨fun _ _ => 0, fun _ => ⟨fun _ _ _ => rfl, fun h => absurd h hi, ?_⟩⟩
        intro c F s _
        rw [hno f hf hi]
        simp [coefSum, ofFace]
    · exact ⟨fun _ _ => 0, fun h => absurd h hf⟩
  choose net hnet using hnet
  -- the corners of an edge
  have hcorners : ∀ x < 3 * g.data.elements.length, ∀ y < 3 * g.data.elements.length, outEdge g x = outEdge g y → x / 3 < y / 3 →
      NetCols g x y (net (outEdge g x)) ∧ (∀ F < 6 * g.data.elements.length, ((ofFace (P (outEdge g x)) F).map (·.dof)) =
          if cornerAt g (F / 2) = cornerAt g x ∨ cornerAt g (F / 2) = cornerAt g y then [countBelow (InnerEdge g) (outEdge g x)] else []) ∧
      InnerEdge g (outEdge g x) := by
    intro x hx y hy he hlt
    have hne : x ≠ y := fun h => by rw [h] at hlt; omega
    have hi : InnerEdge g (outEdge g x) := ⟨x, hx, y, hy, hne, rfl, he.symm⟩
    obtain ⟨x0, x1, h0, h1, e0, e1, hlt', hN, hc⟩ := (hnet _ (outEdge_lt g hg x hx)).2.1 hi
    have hxx : x0 = x := by
      by_contra hne'
      by_cases h2 : x1 = x
      · have hx0y : x0 = y := by
          by_contra h3
          exact h3 (at_most_two g hg hs x x0 y hx h0 hy e0.symm he (fun h => hne' h.symm) hne)
        rw [hx0y, h2] at hlt'; omega
      · have hx0 : x0 = y := at_most_two g hg hs x x0 y hx h0 hy e0.symm he (fun h => hne' h.symm) hne
        have hx1 : x1 = y := at_most_two g hg hs x x1 y hx h1 hy e1.symm he (fun h => h2 h.symm) hne
        rw [hx0, hx1] at hlt'; omega
    have hyy : x1 = y := at_most_two g hg hs x x1 y hx h1 hy e1.symm he (fun h => by rw [hxx, h] at hlt'; omega) hne
    subst hxx hyy
    exact ⟨hN, hc, hi⟩
  refine ⟨st, (List.range g.data.edges.length).flatMap P, net, hok, hrep, ?_, fun f hf hi => (hnet f hf).1 hi,
    fun x hx y hy he hlt => (hcorners x hx y hy he hlt).1, ?_⟩
  · intro c F s hF
    rw [coefSum_flatMap]
    refine Finset.sum_congr rfl fun f hf => ?_
    exact (hnet f (Finset.mem_range.mp hf)).2.2 c F s hF
  · intro x hx y hy he hlt F hF
    obtain ⟨hN, hc, hi⟩ := hcorners x hx y hy he hlt
    have hcnt : ∀ n, n ≤ g.data.edges.length → ((ofFace ((List.range n).flatMap P) F).map (·.dof)).count (countBelow (InnerEdge g) (outEdge g x)) =
        if outEdge g x < n then (if cornerAt g (F / 2) = cornerAt g x ∨ cornerAt g (F / 2) = cornerAt g y then 1 else 0) else 0 := by
      intro n
      induction n with
      | zero => intro _; rfl
      | succ n ih =>
        intro hn
        have e1 : ofFace ((List.range (n + 1)).flatMap P) F = ofFace ((List.range n).flatMap P) F ++ ofFace (P n) F := by
          rw [List.range_succ, List.flatMap_append]
          unfold ofFace
          rw [List.filter_append]; simp
        rw [e1, List.map_append, List.count_append, ih (by omega)]
        by_cases hxn : outEdge g x = n
        · rw [if_neg (show ¬ outEdge g x < n by omega), if_pos (show outEdge g x < n + 1 by omega), ← hxn, hc F hF]
          split_ifs <;> simp
        · have h0 : ((ofFace (P n) F).map (·.dof)).count (countBelow (InnerEdge g) (outEdge g x)) = 0 := by
            rw [List.count_eq_zero]
            intro hm
            by_cases hin : InnerEdge g n
            · obtain ⟨x0, x1, -, -, -, -, -, -, hc'⟩ := (hnet n (by omega)).2.1 hin
              rw [hc' F hF] at hm
              split_ifs at hm
              · exact hxn (countBelow_inj _ hi hin (by simpa using hm))
              · simp at hm
            · rw [hno n (by omega) hin] at hm; simp [ofFace] at hm
          rw [h0]
          by_cases hlt2 : outEdge g x < n
          · rw [if_pos hlt2, if_pos (show outEdge g x < n + 1 by omega), Nat.add_zero]
          · rw [if_neg hlt2, if_neg (show ¬ outEdge g x < n + 1 by omega)]
    rw [hcnt _ (le_refl _), if_pos (outEdge_lt g hg x hx)]

end Verif.Space
