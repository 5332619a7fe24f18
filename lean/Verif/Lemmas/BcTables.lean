import Verif.Lemmas.BcFine
import Verif.Lemmas.BcWalk
import Verif.Props.SpaceBarycentric
/-
The tables of the Buffa-Christiansen spaces on an oriented surface.
-/
namespace Verif.Space
open Verif.Grid

variable {K : Type}

/-! ### Views -/

/-- The vertices of an element. -/
def vertAt (t : Tri) (j : Nat) : Nat := if j = 0 then t.a else if j = 1 then t.b else t.c

theorem view_sub (g : GridData K) (dom : Nat → Int) (e : Elem) (he : e ∈ (g.data.view dom).elems) :
    ∃ t, g.data.elements[e.index]? = some t ∧ (∀ s, subIndex e s 1 = sideEdge g e.index s) ∧
      ∀ j < 3, subIndex e j 2 = vertAt t j := by
  obtain ⟨n, hn⟩ := List.getElem?_of_mem he
  obtain ⟨t, ht, hi, h2, h1⟩ := view_elem' g.data dom n e hn
  subst hi
  refine ⟨t, ht, fun s => ?_, fun j hj => ?_⟩
  · unfold subIndex sideEdge
    rw [h1]
  · unfold subIndex vertAt
    rw [h2]
    obtain rfl | rfl | rfl : j = 0 ∨ j = 1 ∨ j = 2 := by omega
    all_goals rfl

theorem view_has (g : GridData K) (dom : Nat → Int) (n : Nat) (hn : n < g.data.elements.length) :
    ∃ e ∈ (g.data.view dom).elems, e.index = n := by
  obtain ⟨e, he, hi, -⟩ := view_elem g.data dom n _ (List.getElem?_eq_getElem hn)
  exact ⟨e, List.mem_of_getElem? he, hi⟩

theorem view_flatMap3 (g : GridData K) (dom : Nat → Int) (f : Nat → Nat → Nat) (F : Elem → List Nat)
    (hF : ∀ e ∈ (g.data.view dom).elems, F e = [f e.index 0, f e.index 1, f e.index 2]) :
    (g.data.view dom).elems.flatMap F = (List.range (3 * g.data.elements.length)).map fun i => f (i / 3) (i % 3) := by
  have e0 : (g.data.view dom).elems.flatMap F = (g.data.view dom).elems.flatMap fun e => [f e.index 0, f e.index 1, f e.index 2] := by
    unfold List.flatMap
    congr 1
    exact List.map_congr_left hF
  rw [e0]
  have hlen : (g.data.view dom).elems.length = g.data.elements.length := by simp [DataContainer.view]
  apply List.ext_getElem?
  intro i
  by_cases hi : i < 3 * g.data.elements.length
  · have h := flatMap_block_get 3 (fun e : Elem => [f e.index 0, f e.index 1, f e.index 2]) (fun _ => rfl) (g.data.view dom).elems (i / 3) (i % 3)
      (Nat.mod_lt _ (by omega))
    rw [show 3 * (i / 3) + i % 3 = i by omega] at h
    rw [h, List.getElem?_map, List.getElem?_range hi]
    obtain ⟨e, he, hidx, -⟩ := view_elem g.data dom (i / 3) _ (List.getElem?_eq_getElem (show i / 3 < g.data.elements.length by omega))
    rw [he]
    simp only [Option.bind_some, Option.map_some, hidx]
    have : i % 3 = 0 ∨ i % 3 = 1 ∨ i % 3 = 2 := by omega
    rcases this with h | h | h <;> rw [h] <;> rfl
  · rw [List.getElem?_eq_none, List.getElem?_eq_none]
    · simpa using hi
    · rw [flatMap_block_length 3 _ (fun _ => rfl), hlen]; omega

theorem count_map_eq (m : Nat) (k : Nat → Nat) (a : Nat) :
    ((List.range m).map k).count a = ((List.range m).filter fun j => k j == a).length := by
  rw [List.count_eq_countP, List.countP_map, List.countP_eq_length_filter]
  rfl

theorem count_one_iff (m : Nat) (k : Nat → Nat) (i : Nat) (hi : i < m) :
    ((List.range m).map k).count (k i) = 1 ↔ ∀ j < m, k j = k i → j = i := by
  rw [count_map_eq]
  have hmem : ∀ j, j ∈ (List.range m).filter (fun j => k j == k i) ↔ j < m ∧ k j = k i := by
    intro j; rw [List.mem_filter, List.mem_range]; simp
  have hnd : ((List.range m).filter fun j => k j == k i).Nodup := List.nodup_range.filter _
  generalize (List.range m).filter (fun j => k j == k i) = L at *
  constructor
  · intro h j hj hk
    obtain ⟨a, rfl⟩ := List.length_eq_one_iff.mp h
    have h1 := (hmem j).mpr ⟨hj, hk⟩
    have h2 := (hmem i).mpr ⟨hi, rfl⟩
    simp only [List.mem_singleton] at h1 h2
    omega
  · intro h
    have : L.Perm [i] := by
      rw [List.perm_ext_iff_of_nodup hnd (by simp)]
      intro j
      rw [hmem, List.mem_singleton]
      constructor
      · rintro ⟨h1, h2⟩; exact h j h1 h2
      · rintro rfl; exact ⟨hi, rfl⟩
    rw [this.length_eq]; rfl

theorem except_mapM_range {ε α : Type} (f : Nat → Except ε α) (n : Nat) (h : ∀ i < n, ∃ a, f i = .ok a) :
    ∃ L, (List.range n).mapM f = .ok L ∧ L.length = n ∧ ∀ i < n, ∀ a, f i = .ok a → L[i]? = some a := by
  have gen : ∀ l : List Nat, (∀ i ∈ l, ∃ a, f i = .ok a) →
      ∃ L, l.mapM f = .ok L ∧ L.length = l.length ∧ ∀ (k i : Nat), l[k]? = some i → ∀ a, f i = .ok a → L[k]? = some a := by
    intro l
    induction l with
    | nil => intro _; exact ⟨[], rfl, rfl, by simp⟩
    | cons i l ih =>
      intro hl
      obtain ⟨a, ha⟩ := hl i (by simp)
      obtain ⟨L, h1, h2, h3⟩ := ih (fun j hj => hl j (List.mem_cons_of_mem _ hj))
      refine ⟨a :: L, ?_, by simp [h2], ?_⟩
      · rw [List.mapM_cons, ha, h1]; rfl
      · intro k j hk b hb
        cases k with
        | zero =>
          simp only [List.getElem?_cons_zero, Option.some.injEq] at hk
          subst hk
          rw [ha] at hb
          cases hb; rfl
        | succ k =>
          simp only [List.getElem?_cons_succ] at hk ⊢
          exact h3 k j hk b hb
  obtain ⟨L, h1, h2, h3⟩ := gen (List.range n) (fun i hi => h i (List.mem_range.mp hi))
  exact ⟨L, h1, by simpa using h2, fun i hi a ha => h3 i i (List.getElem?_range hi) a ha⟩

/-! ### The refined grid -/

section
variable (g : GridData K) (hg : g.Valid) (hs : OrientedSurface g) (b : GridData K) (hb : b.Valid)
  (hbe : b.data.elements = baryElements g) (dom : Nat → Int)
include hg hb hbe

theorem fine_elem (F : Nat) (hF : F < 6 * g.data.elements.length) : b.data.elements[F]? = some (fineTri g F) := by
  rw [hbe]; exact fine_get g hg F hF

omit hg hb in
theorem fine_count : b.data.elements.length = 6 * g.data.elements.length := by rw [hbe, baryElements_length]

theorem fine_edge_iff (F F' s s' : Nat) (hF : F < 6 * g.data.elements.length) (hF' : F' < 6 * g.data.elements.length) (h3 : s < 3) (h3' : s' < 3) :
    sideEdge b F s = sideEdge b F' s' ↔ sidePair (fineTri g F) s = sidePair (fineTri g F') s' :=
  sideEdge_eq_iff b hb F F' _ _ (fine_elem g hg b hb hbe F hF) (fine_elem g hg b hb hbe F' hF') s s' h3 h3'

theorem fine_edge_lt (F s : Nat) (hF : F < 6 * g.data.elements.length) (h3 : s < 3) : sideEdge b F s < b.data.edges.length :=
  sideEdge_lt b hb F _ (fine_elem g hg b hb hbe F hF) s h3

theorem facesToEdges_get (F : Nat) (hF : F < 6 * g.data.elements.length) :
    (anticlockwiseFacesToEdges (b.data.view dom))[F]? = some (sideEdge b F 1 : Int) := by
  unfold anticlockwiseFacesToEdges
  have hc := fine_count g b hbe
  refine table_get _ _ _ _ _ (by show F < b.data.elements.length; omega) ?_ (Or.inr ?_)
  · intro w hw hk
    obtain ⟨e, he, rfl⟩ := List.mem_map.mp hw
    obtain ⟨t, ht, h1, -⟩ := view_sub b dom e he
    simp only at hk ⊢
    rw [h1, hk]
  · obtain ⟨e, he, hi⟩ := view_has b dom F (by omega)
    exact ⟨_, List.mem_map.mpr ⟨e, he, rfl⟩, hi⟩

include hs

/-- An edge of the refinement that is the first side of a triangle. -/
theorem edgesToFaces_get (F : Nat) (hF : F < 6 * g.data.elements.length) :
    (anticlockwiseEdgesToFaces (b.data.view dom))[sideEdge b F 0]? = some (F : Int) := by
  unfold anticlockwiseEdgesToFaces
  have hc := fine_count g b hbe
  refine table_get _ _ _ _ _ (fine_edge_lt g hg b hb hbe F 0 hF (by omega)) ?_ (Or.inr ?_)
  · intro w hw hk
    obtain ⟨e, he, rfl⟩ := List.mem_map.mp hw
    obtain ⟨t, ht, h1, -⟩ := view_sub b dom e he
    have hlt := (List.getElem?_eq_some_iff.mp ht).1
    simp only at hk ⊢
    rw [h1, fine_edge_iff g hg b hb hbe _ _ _ _ (by omega) hF (by omega) (by omega)] at hk
    rcases touch_cases g hg hs _ _ _ _ (by omega) hF (by omega) (by omega) hk with ⟨h2, -⟩ | h2 | h2
    · rw [h2]
    · exact h2.not_zero.elim
    · exact h2.not_zero.elim
  · obtain ⟨e, he, hi⟩ := view_has b dom F (by omega)
    obtain ⟨t, ht, h1, -⟩ := view_sub b dom e he
    exact ⟨_, List.mem_map.mpr ⟨e, he, rfl⟩, by simp only; rw [h1, hi]⟩

omit hs in
/-- Other edges. -/
theorem edgesToFaces_none (f : Nat) (hf : f < b.data.edges.length) (hno : ∀ F < 6 * g.data.elements.length, sideEdge b F 0 ≠ f) :
    (anticlockwiseEdgesToFaces (b.data.view dom))[f]? = some (-1) := by
  unfold anticlockwiseEdgesToFaces
  have hc := fine_count g b hbe
  refine table_get _ _ _ _ _ hf ?_ (Or.inl rfl)
  intro w hw hk
  obtain ⟨e, he, rfl⟩ := List.mem_map.mp hw
  obtain ⟨t, ht, h1, -⟩ := view_sub b dom e he
  have hlt := (List.getElem?_eq_some_iff.mp ht).1
  simp only at hk
  rw [h1] at hk
  exact absurd hk (hno _ (by omega))

omit hs in
theorem faceCount_one (F s : Nat) (hF : F < 6 * g.data.elements.length) (h3 : s < 3) :
    (faceCountNextToFineEdge (b.data.view dom)).getD (sideEdge b F s) 0 = 1 ↔
      ∀ F' s', F' < 6 * g.data.elements.length → s' < 3 → sideEdge b F' s' = sideEdge b F s → F' = F ∧ s' = s := by
  have hc := fine_count g b hbe
  unfold faceCountNextToFineEdge
  rw [view_flatMap3 b dom (sideEdge b) _ (by
    intro e he
    obtain ⟨t, -, h1, -⟩ := view_sub b dom e he
    simp only [h1]), List.getD_eq_getElem?_getD, show (b.data.view dom).count 1 = b.data.edges.length from rfl,
    counts_get _ _ _ (fine_edge_lt g hg b hb hbe F s hF h3), Option.getD_some]
  have h := count_one_iff (3 * b.data.elements.length) (fun i => sideEdge b (i / 3) (i % 3)) (3 * F + s) (by omega)
  simp only [show (3 * F + s) / 3 = F by omega, show (3 * F + s) % 3 = s by omega] at h
  rw [h]
  constructor
  · intro h1 F' s' hF' h3' h2
    have := h1 (3 * F' + s') (by omega) (by rw [show (3 * F' + s') / 3 = F' by omega, show (3 * F' + s') % 3 = s' by omega]; exact h2)
    omega
  · intro h1 j hj h2
    have := h1 (j / 3) (j % 3) (by omega) (by omega) h2
    omega

theorem side_boundary (F s : Nat) (hF : F < 6 * g.data.elements.length) (h3 : s < 3) :
    (faceCountNextToFineEdge (b.data.view dom)).getD (sideEdge b F s) 0 = 1 ↔ ∀ F' s', ¬ Touch g F s F' s' ∧ ¬ Touch g F' s' F s := by
  rw [faceCount_one g hg b hb hbe dom F s hF h3]
  have tl : ∀ F s F' s', Touch g F s F' s' → F < 6 * g.data.elements.length ∧ F' < 6 * g.data.elements.length ∧ s < 3 ∧ s' < 3 ∧ F ≠ F' := by
    intro F s F' s' h
    cases h with
    | corner x hx => omega
    | across x y hx hy _ _ => omega
    | edge x hx => have := next_lt hx; omega
  constructor
  · intro h F' s'
    constructor
    · intro ht
      obtain ⟨h1, h2, h4, h5, h6⟩ := tl _ _ _ _ ht
      have := h F' s' h2 h5 ((fine_edge_iff g hg b hb hbe _ _ _ _ h2 hF h5 h3).mpr (touch_pair g hg ht).symm)
      omega
    · intro ht
      obtain ⟨h1, h2, h4, h5, h6⟩ := tl _ _ _ _ ht
      have := h F' s' h1 h4 ((fine_edge_iff g hg b hb hbe _ _ _ _ h1 hF h4 h3).mpr (touch_pair g hg ht))
      omega
  · intro h F' s' hF' h3' he
    rw [fine_edge_iff g hg b hb hbe _ _ _ _ hF' hF h3' h3] at he
    rcases touch_cases g hg hs _ _ _ _ hF' hF h3' h3 he with h1 | h1 | h1
    · exact h1
    · exact absurd h1 (h F' s').2
    · exact absurd h1 (h F' s').1

/-- Only the outer sides at the corners can be on the boundary. -/
theorem boundary_cases (F s : Nat) (hF : F < 6 * g.data.elements.length) (h3 : s < 3)
    (h : (faceCountNextToFineEdge (b.data.view dom)).getD (sideEdge b F s) 0 = 1) :
    (∃ x < 3 * g.data.elements.length, F = 2 * x ∧ s = 1 ∧ ∀ y < 3 * g.data.elements.length, cornerAt g x = cornerAt g y →
      cornerAt g (prevCorner x) ≠ cornerAt g (nextCorner y)) ∨
    (∃ x < 3 * g.data.elements.length, F = 2 * x + 1 ∧ s = 0 ∧ ∀ y < 3 * g.data.elements.length, cornerAt g y = cornerAt g x →
      cornerAt g (prevCorner y) ≠ cornerAt g (nextCorner x)) := by
  rw [side_boundary g hg hs b hb hbe dom F s hF h3] at h
  obtain ⟨x, hx, hFx⟩ : ∃ x, x < 3 * g.data.elements.length ∧ (F = 2 * x ∨ F = 2 * x + 1) := ⟨F / 2, by omega, by omega⟩
  have hs0 : s = 0 ∨ s = 1 ∨ s = 2 := by omega
  rcases hFx with rfl | rfl <;> rcases hs0 with rfl | rfl | rfl
  · exact absurd (Touch.corner x hx) (h _ _).2
  · exact Or.inl ⟨x, hx, rfl, rfl, fun y hy h1 h2 => (h _ _).1 (Touch.across x y hx hy h1 h2)⟩
  · have := Touch.edge (g := g) (prevCorner x) (prev_lt hx)
    rw [next_prev] at this
    exact absurd this (h _ _).2
  · exact Or.inr ⟨x, hx, rfl, rfl, fun y hy h1 h2 => (h _ _).2 (Touch.across y x hy hx h1 h2)⟩
  · exact absurd (Touch.corner x hx) (h _ _).1
  · exact absurd (Touch.edge x hx) (h _ _).1

omit hs hb hbe in
/-- Every edge is a side. -/
theorem edge_corner (f : Nat) (hf : f < g.data.edges.length) : ∃ x < 3 * g.data.elements.length, outEdge g x = f := by
  obtain ⟨c, hc⟩ := hg.init
  have hm : side g.data.edges[f] ∈ g.data.edges.map side := List.mem_map.mpr ⟨_, List.getElem_mem hf, rfl⟩
  obtain ⟨t, ht, hst⟩ := ((C31_edges _ _ c _ hc).2 _).mp hm
  obtain ⟨e, he⟩ := List.getElem?_of_mem ht
  have hel := (List.getElem?_eq_some_iff.mp he).1
  obtain ⟨s, h3, hsp⟩ : ∃ s < 3, side g.data.edges[f] = sidePair t s := by
    simp only [Tri.sides, List.mem_cons, List.not_mem_nil, or_false] at hst
    rcases hst with h | h | h
    · exact ⟨0, by omega, h⟩
    · exact ⟨1, by omega, h⟩
    · exact ⟨2, by omega, h⟩
  obtain ⟨p, hp, hpp⟩ := sideEdge_spec g hg e t he s h3
  have := edge_unique' g hg f _ _ _ (List.getElem?_eq_getElem hf) hp (hsp.trans hpp.symm)
  obtain ⟨x, hx3, hxe, -⟩ := outEdge_of_side g hg e s h3
  exact ⟨x, by omega, by rw [hxe, this]⟩

omit hb hbe in
theorem sizes : g.data.nnodes ≤ 3 * g.data.elements.length ∧ g.data.edges.length ≤ 3 * g.data.elements.length := by
  constructor
  · have hsub : List.range g.data.nnodes ⊆ (List.range (3 * g.data.elements.length)).map (cornerAt g) := by
      intro v hv
      obtain ⟨l, hne, hl, -⟩ := hs v (List.mem_range.mp hv)
      obtain ⟨x, hx⟩ := List.exists_mem_of_ne_nil l hne
      obtain ⟨h1, h2⟩ := (hl.mem x).mp hx
      exact List.mem_map.mpr ⟨x, List.mem_range.mpr h1, h2⟩
    have := (List.subperm_of_subset List.nodup_range hsub).length_le
    simpa using this
  · have hsub : List.range g.data.edges.length ⊆ (List.range (3 * g.data.elements.length)).map (outEdge g) := by
      intro f hf
      obtain ⟨x, hx, hxe⟩ := edge_corner g hg f (List.mem_range.mp hf)
      exact List.mem_map.mpr ⟨x, List.mem_range.mpr hx, hxe⟩
    have := (List.subperm_of_subset List.nodup_range hsub).length_le
    simpa using this

theorem mem_boundarySides (e : Elem) (he : e ∈ (b.data.view dom).elems) (k : Nat × Nat × Nat) :
    k ∈ boundarySides (b.data.view dom) e ↔ k ∈ ([(0, 1, 0), (1, 0, 2), (2, 2, 1)] : List (Nat × Nat × Nat)) ∧
      (faceCountNextToFineEdge (b.data.view dom)).getD (sideEdge b e.index k.1) 0 = 1 := by
  obtain ⟨t, ht, h1, -⟩ := view_sub b dom e he
  unfold boundarySides
  rw [List.mem_filter, h1]
  simp

/-- The table of the vertices on the boundary. -/
theorem boundaryTables : ∃ vb, anticlockwiseVerticesToBoundaryEdges (b.data.view dom) = .ok vb ∧
    (∀ v l x0, v < g.data.nnodes → Fan g v l → FanOpen g l → l.head? = some x0 → vb[v]? = some (sideEdge b (2 * x0 + 1) 0 : Int)) := by
  have hc := fine_count g b hbe
  obtain ⟨z1, z2⟩ := sizes g hg hs
  -- the writes
  have hw : ∀ w ∈ boundaryVertexWrites (b.data.view dom), ∃ F k, F < 6 * g.data.elements.length ∧
      k ∈ ([(0, 1, 0), (1, 0, 2), (2, 2, 1)] : List (Nat × Nat × Nat)) ∧
      (faceCountNextToFineEdge (b.data.view dom)).getD (sideEdge b F k.1) 0 = 1 ∧ w = (vertAt (fineTri g F) k.2.2, (sideEdge b F k.1 : Int)) := by
    intro w hw
    obtain ⟨e, he, hw⟩ := List.mem_flatMap.mp hw
    obtain ⟨k, hk, rfl⟩ := List.mem_map.mp hw
    obtain ⟨hk1, hk2⟩ := (mem_boundarySides g hg hs b hb hbe dom e he k).mp hk
    obtain ⟨t, ht, h1, h2⟩ := view_sub b dom e he
    have hlt := (List.getElem?_eq_some_iff.mp ht).1
    have : t = fineTri g e.index := by
      have := fine_elem g hg b hb hbe e.index (by omega)
      rw [ht] at this; cases this; rfl
    refine ⟨e.index, k, by omega, hk1, hk2, ?_⟩
    rw [h1, h2 _ (by
      simp only [List.mem_cons, List.not_mem_nil, or_false] at hk1
      rcases hk1 with rfl | rfl | rfl <;> simp), this]
  -- their keys
  have hkey : ∀ F (k : Nat × Nat × Nat), F < 6 * g.data.elements.length → k ∈ ([(0, 1, 0), (1, 0, 2), (2, 2, 1)] : List (Nat × Nat × Nat)) →
      (faceCountNextToFineEdge (b.data.view dom)).getD (sideEdge b F k.1) 0 = 1 →
      (∃ x < 3 * g.data.elements.length, vertAt (fineTri g F) k.2.2 = g.data.nnodes + outEdge g x) ∨
      (k = (0, 1, 0) ∧ ∃ x < 3 * g.data.elements.length, F = 2 * x + 1 ∧ vertAt (fineTri g F) k.2.2 = cornerAt g x ∧
        ∀ y < 3 * g.data.elements.length, cornerAt g y = cornerAt g x → cornerAt g (prevCorner y) ≠ cornerAt g (nextCorner x)) := by
    intro F k hF hk h1
    have hk3 : k.1 < 3 := by
      simp only [List.mem_cons, List.not_mem_nil, or_false] at hk
      rcases hk with rfl | rfl | rfl <;> simp
    rcases boundary_cases g hg hs b hb hbe dom F k.1 hF hk3 h1 with ⟨x, hx, rfl, hk1, -⟩ | ⟨x, hx, rfl, hk1, hy⟩
    · left
      simp only [List.mem_cons, List.not_mem_nil, or_false] at hk
      rcases hk with rfl | rfl | rfl <;> simp at hk1
      exact ⟨prevCorner x, prev_lt hx, by rw [fineTri_even]; rfl⟩
    · right
      simp only [List.mem_cons, List.not_mem_nil, or_false] at hk
      rcases hk with rfl | rfl | rfl <;> simp at hk1
      exact ⟨rfl, x, hx, rfl, by rw [fineTri_odd]; rfl, hy⟩
  have hall : (boundaryVertexWrites (b.data.view dom)).all (fun w => w.1 < (b.data.view dom).count 0) = true := by
    rw [List.all_eq_true]
    intro w hwm
    obtain ⟨F, k, hF, hk, h1, rfl⟩ := hw w hwm
    show decide (vertAt (fineTri g F) k.2.2 < b.data.elements.length) = true
    rw [decide_eq_true_eq, hc]
    rcases hkey F k hF hk h1 with ⟨x, hx, h2⟩ | ⟨-, x, hx, -, h2, -⟩
    · rw [h2]
      have := outEdge_lt g hg x hx
      omega
    · rw [h2]
      have := corner_lt g hg x hx
      omega
  refine ⟨table ((b.data.view dom).count 0) (-1) (boundaryVertexWrites (b.data.view dom)), ?_, ?_⟩
  · unfold anticlockwiseVerticesToBoundaryEdges
    rw [if_pos hall]
  · intro v l x0 hv hl hop hx0
    have hx0m : x0 ∈ l := List.mem_of_mem_head? hx0
    obtain ⟨hx0l, hx0v⟩ := (hl.mem x0).mp hx0m
    have hx0i : l[0]? = some x0 := by rw [← List.head?_eq_getElem?]; exact hx0
    refine table_get _ _ _ _ _ (by show v < b.data.elements.length; omega) ?_ (Or.inr ?_)
    · intro w hwm hwk
      obtain ⟨F, k, hF, hk, h1, rfl⟩ := hw w hwm
      simp only at hwk ⊢
      rcases hkey F k hF hk h1 with ⟨x, hx, h2⟩ | ⟨rfl, x, hx, rfl, h2, h3⟩
      · omega
      · -- `x` is the first corner of the fan
        have hxm : x ∈ l := (hl.mem x).mpr ⟨hx, h2.symm.trans hwk⟩
        obtain ⟨i, hi⟩ := List.getElem?_of_mem hxm
        have hil := (List.getElem?_eq_some_iff.mp hi).1
        have : i = 0 := by
          by_contra h0
          have hprev := List.getElem?_eq_getElem (show i - 1 < l.length by omega)
          have hch := hl.chain (i - 1) _ x hprev (by rw [show i - 1 + 1 = i by omega]; exact hi)
          have hm := (hl.mem _).mp (List.getElem_mem (show i - 1 < l.length by omega))
          exact h3 _ hm.1 (hm.2.trans (hwk.symm.trans h2)) hch
        subst this
        rw [hx0i] at hi
        cases hi
        rfl
    · obtain ⟨e, he, hei⟩ := view_has b dom (2 * x0 + 1) (by omega)
      obtain ⟨t, ht, h1, h2⟩ := view_sub b dom e he
      have htt : t = fineTri g (2 * x0 + 1) := by
        have := fine_elem g hg b hb hbe e.index (by omega)
        rw [ht] at this; cases this; rw [hei]
      refine ⟨(subIndex e 0 2, (subIndex e 0 1 : Int)), ?_, ?_⟩
      · refine List.mem_flatMap.mpr ⟨e, he, List.mem_map.mpr ⟨(0, 1, 0), ?_, rfl⟩⟩
        rw [mem_boundarySides g hg hs b hb hbe dom e he]
        refine ⟨by simp, ?_⟩
        rw [hei, side_boundary g hg hs b hb hbe dom _ _ (by omega) (by omega)]
        intro F' s'
        refine ⟨fun h => ?_, fun h => ?_⟩
        · exact h.not_zero
        · obtain ⟨y, hy, hyv, hyb⟩ : ∃ y < 3 * g.data.elements.length, cornerAt g y = cornerAt g x0 ∧
              cornerAt g (prevCorner y) = cornerAt g (nextCorner x0) := by
            rcases h.inv with ⟨-, -, x, hx, -, h⟩ | ⟨-, -, y, hy, x, hx, -, h, a1, a2⟩ | ⟨-, h, -⟩
            · omega
            · have : x = x0 := by omega
              subst this
              exact ⟨y, hy, a1, a2⟩
            · omega
          have hym : y ∈ l := (hl.mem y).mpr ⟨hy, hyv.trans hx0v⟩
          obtain ⟨i, hi⟩ := List.getElem?_of_mem hym
          have hil := (List.getElem?_eq_some_iff.mp hi).1
          by_cases hlast : i + 1 = l.length
          · have := hop y (by rw [List.getLast?_eq_getElem?, show l.length - 1 = i by omega]; exact hi)
            rw [hyb] at this
            exact this (List.mem_map.mpr ⟨x0, hx0m, rfl⟩)
          · have hch := hl.chain i y _ hi (List.getElem?_eq_getElem (show i + 1 < l.length by omega))
            have := hl.after_inj (List.getElem_mem _) hx0m (hch.symm.trans hyb)
            have h0 : l[i + 1]? = l[0]? := by rw [hx0i, List.getElem?_eq_getElem (by omega), this]
            have := (List.getElem?_inj (by omega) hl.nodup).mp h0
            omega
      · simp only
        rw [h2 0 (by omega), htt, fineTri_odd]
        exact hx0v

end

end Verif.Space
