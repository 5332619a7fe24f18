import Verif.Lemmas.BcTables
import Verif.Props.SpaceRWG
/-
`nextFaceAnticlockwise` and the tables of the coarse grid on an oriented surface.
-/
namespace Verif.Space
open Verif.Grid

variable {K : Type}

section
variable (g : GridData K) (hg : g.Valid) (hs : OrientedSurface g) (b : GridData K) (hb : b.Valid)
  (hbe : b.data.elements = baryElements g) (dom : Nat → Int)
include hg hs hb hbe

/-- No triangle follows the last corner of an open fan. -/
theorem last_free {v : Nat} {l : List Nat} (hl : Fan g v l) (ho : FanOpen g l) {x : Nat} (hx : l.getLast? = some x) (y : Nat)
    (hy : y < 3 * g.data.elements.length) (hyx : cornerAt g x = cornerAt g y) : cornerAt g (prevCorner x) ≠ cornerAt g (nextCorner y) := by
  intro h
  have hxm : x ∈ l := List.mem_of_mem_getLast? hx
  have hym : y ∈ l := (hl.mem y).mpr ⟨hy, hyx.symm.trans ((hl.mem x).mp hxm).2⟩
  exact ho x hx (List.mem_map.mpr ⟨y, hym, h.symm⟩)

theorem edgeToVertex (x : Nat) (hx : x < 3 * g.data.elements.length)
    (hno : ∀ y < 3 * g.data.elements.length, cornerAt g x = cornerAt g y → cornerAt g (prevCorner x) ≠ cornerAt g (nextCorner y)) :
    (anticlockwiseBoundaryEdgesToVertices (b.data.view dom))[sideEdge b (2 * x) 1]? = some (cornerAt g x : Int) := by
  have hc := fine_count g b hbe
  have hbd : (faceCountNextToFineEdge (b.data.view dom)).getD (sideEdge b (2 * x) 1) 0 = 1 := by
    rw [side_boundary g hg hs b hb hbe dom _ _ (by omega) (by omega)]
    intro F' s'
    refine ⟨fun h => ?_, fun h => ?_⟩
    · rcases h.inv with ⟨-, -, z, hz, h, -⟩ | ⟨-, -, z, hz, y, hy, h1, h2, h3, h4⟩ | ⟨h, -⟩
      · omega
      · have : z = x := by omega
        subst this
        exact hno y hy h3 h4
      · omega
    · rcases h.inv with ⟨-, h, -⟩ | ⟨-, h, -⟩ | ⟨-, h, -⟩ <;> omega
  unfold anticlockwiseBoundaryEdgesToVertices
  refine table_get _ _ _ _ _ (fine_edge_lt g hg b hb hbe _ 1 (by omega) (by omega)) ?_ (Or.inr ?_)
  · intro w hw hk
    obtain ⟨e, he, hw⟩ := List.mem_flatMap.mp hw
    obtain ⟨k, hk', rfl⟩ := List.mem_map.mp hw
    obtain ⟨hk1, hk2⟩ := (mem_boundarySides g hg hs b hb hbe dom e he k).mp hk'
    obtain ⟨t, ht, h1, h2⟩ := view_sub b dom e he
    have hlt := (List.getElem?_eq_some_iff.mp ht).1
    have hk3 : k.1 < 3 := by
      simp only [List.mem_cons, List.not_mem_nil, or_false] at hk1
      rcases hk1 with rfl | rfl | rfl <;> simp
    simp only at hk ⊢
    rw [h1] at hk
    obtain ⟨hF, hs1⟩ := (faceCount_one g hg b hb hbe dom _ 1 (by omega) (by omega)).mp hbd e.index k.1 (by omega) hk3 hk
    simp only [List.mem_cons, List.not_mem_nil, or_false] at hk1
    rcases hk1 with rfl | rfl | rfl <;> simp at hs1
    have htt : t = fineTri g e.index := by
      have := fine_elem g hg b hb hbe e.index (by omega)
      rw [ht] at this; cases this; rfl
    simp only
    rw [h2 0 (by omega), htt, hF, fineTri_even]
    rfl
  · obtain ⟨e, he, hei⟩ := view_has b dom (2 * x) (by omega)
    obtain ⟨t, ht, h1, h2⟩ := view_sub b dom e he
    refine ⟨(subIndex e 1 1, (subIndex e 0 2 : Int)), List.mem_flatMap.mpr ⟨e, he, List.mem_map.mpr ⟨(1, 0, 2), ?_, rfl⟩⟩, ?_⟩
    · rw [mem_boundarySides g hg hs b hb hbe dom e he]
      exact ⟨by simp, by rw [hei]; exact hbd⟩
    · simp only
      rw [h1, hei]

/-- The edge of the second side of an odd triangle is the first side of its even neighbour. -/
theorem odd_edge (x : Nat) (hx : x < 3 * g.data.elements.length) : sideEdge b (2 * x + 1) 1 = sideEdge b (2 * x) 0 :=
  (fine_edge_iff g hg b hb hbe _ _ _ _ (by omega) (by omega) (by omega) (by omega)).mpr (touch_pair g hg (Touch.corner x hx))

theorem across_edge (x y : Nat) (hx : x < 3 * g.data.elements.length) (hy : y < 3 * g.data.elements.length) (h : cornerAt g x = cornerAt g y)
    (h' : cornerAt g (prevCorner x) = cornerAt g (nextCorner y)) : sideEdge b (2 * x) 1 = sideEdge b (2 * y + 1) 0 :=
  (fine_edge_iff g hg b hb hbe _ _ _ _ (by omega) (by omega) (by omega) (by omega)).mpr (touch_pair g hg (Touch.across x y hx hy h h'))

theorem free_edge (x : Nat) (hx : x < 3 * g.data.elements.length)
    (hno : ∀ y < 3 * g.data.elements.length, cornerAt g x = cornerAt g y → cornerAt g (prevCorner x) ≠ cornerAt g (nextCorner y)) :
    (anticlockwiseEdgesToFaces (b.data.view dom))[sideEdge b (2 * x) 1]? = some (-1) := by
  refine edgesToFaces_none g hg b hb hbe dom _ (fine_edge_lt g hg b hb hbe _ _ (by omega) (by omega)) ?_
  intro F hF h
  rw [fine_edge_iff g hg b hb hbe _ _ _ _ hF (by omega) (by omega) (by omega)] at h
  rcases touch_cases g hg hs _ _ _ _ hF (by omega) (by omega) (by omega) h with ⟨-, h1⟩ | h1 | h1
  · omega
  · exact h1.not_zero
  · rcases h1.inv with ⟨-, -, z, hz, h, -⟩ | ⟨-, -, z, hz, y, hy, h1, h2, h3, h4⟩ | ⟨h, -⟩
    · omega
    · have : z = x := by omega
      subst this
      exact hno y hy h3 h4
    · omega

/-- The face that follows another one around a vertex. -/
theorem next_spec : ∃ next, nextFaceAnticlockwise (b.data.view dom) = .ok next ∧
    (∀ x < 3 * g.data.elements.length, next[2 * x + 1]? = some (2 * x : Int)) ∧
    (∀ v l, v < g.data.nnodes → Fan g v l → (FanClosed g l ∨ FanOpen g l) → ∀ (i x y : Nat), l[i]? = some x → l[(i + 1) % l.length]? = some y →
      next[2 * x]? = some (2 * y + 1 : Int)) := by
  have hc := fine_count g b hbe
  obtain ⟨vb, hvb, hvbs⟩ := boundaryTables g hg hs b hb hbe dom
  have hodd : ∀ x < 3 * g.data.elements.length, nextFace (b.data.view dom) vb (2 * x + 1) = .ok (2 * x : Int) := by
    intro x hx
    unfold nextFace
    rw [vget_ok (facesToEdges_get g hg b hb hbe dom (2 * x + 1) (by omega))]
    simp only [Bind.bind, Except.bind]
    rw [odd_edge g hg hs b hb hbe x hx, vget_ok (edgesToFaces_get g hg hs b hb hbe dom (2 * x) (by omega))]
    simp only [Bind.bind, Except.bind]
    rw [if_neg (by omega)]
    simp [pure, Except.pure]
  have heven : ∀ v l, v < g.data.nnodes → Fan g v l → (FanClosed g l ∨ FanOpen g l) → ∀ (i x y : Nat), l[i]? = some x → l[(i + 1) % l.length]? = some y →
      nextFace (b.data.view dom) vb (2 * x) = .ok (2 * y + 1 : Int) := by
    intro v l hv hl hco i x y hx hy
    have hil := (List.getElem?_eq_some_iff.mp hx).1
    obtain ⟨hxl, hxv⟩ := (hl.mem x).mp (List.mem_of_getElem? hx)
    obtain ⟨hyl, hyv⟩ := (hl.mem y).mp (List.mem_of_getElem? hy)
    unfold nextFace
    rw [vget_ok (facesToEdges_get g hg b hb hbe dom (2 * x) (by omega))]
    simp only [Bind.bind, Except.bind]
    by_cases hch : cornerAt g (prevCorner x) = cornerAt g (nextCorner y)
    · rw [across_edge g hg hs b hb hbe x y hxl hyl (hxv.trans hyv.symm) hch,
        vget_ok (edgesToFaces_get g hg hs b hb hbe dom (2 * y + 1) (by omega))]
      simp only [Bind.bind, Except.bind]
      rw [if_neg (by omega)]
      simp [pure, Except.pure]
    · -- the last corner of an open fan
      have hlast : i + 1 = l.length := by
        by_contra h1
        rw [Nat.mod_eq_of_lt (by omega)] at hy
        exact hch (hl.chain i x y hx hy)
      have ho : FanOpen g l := by
        rcases hco with h1 | h1
        · exact absurd (hl.cyclic h1 i x y hx hy) hch
        · exact h1
      have hgl : l.getLast? = some x := by rw [List.getLast?_eq_getElem?, show l.length - 1 = i by omega]; exact hx
      have hhd : l.head? = some y := by
        rw [hlast, Nat.mod_self] at hy
        rw [List.head?_eq_getElem?]; exact hy
      have hno := last_free g hg hs b hb hbe hl ho hgl
      rw [vget_ok (free_edge g hg hs b hb hbe dom x hxl hno)]
      simp only [Bind.bind, Except.bind, if_true]
      rw [vget_ok (edgeToVertex g hg hs b hb hbe dom x hxl hno)]
      simp only [Bind.bind, Except.bind]
      rw [hxv, vget_ok (hvbs v l y hv hl ho hhd)]
      simp only [Bind.bind, Except.bind]
      rw [vget_ok (edgesToFaces_get g hg hs b hb hbe dom (2 * y + 1) (by omega))]
      simp
  have hex : ∀ F < (b.data.view dom).count 0, ∃ a, nextFace (b.data.view dom) vb F = .ok a := by
    intro F hF
    have hF : F < 6 * g.data.elements.length := by
      have : F < b.data.elements.length := hF
      omega
    rcases Nat.mod_two_eq_zero_or_one F with h0 | h1
    · have hx : F / 2 < 3 * g.data.elements.length := by omega
      obtain ⟨l, hl, hco, hm⟩ := fan_of g hg hs (F / 2) hx
      obtain ⟨i, hi⟩ := List.getElem?_of_mem hm
      have hil := (List.getElem?_eq_some_iff.mp hi).1
      have := heven _ l (corner_lt g hg _ hx) hl hco i (F / 2) _ hi (List.getElem?_eq_getElem (Nat.mod_lt (i + 1) (by omega)))
      rw [show 2 * (F / 2) = F by omega] at this
      exact ⟨_, this⟩
    · have := hodd (F / 2) (by omega)
      rw [show 2 * (F / 2) + 1 = F by omega] at this
      exact ⟨_, this⟩
  obtain ⟨next, h1, -, h3⟩ := except_mapM_range (nextFace (b.data.view dom) vb) ((b.data.view dom).count 0) hex
  have hcnt : (b.data.view dom).count 0 = 6 * g.data.elements.length := hc
  refine ⟨next, ?_, ?_, ?_⟩
  · unfold nextFaceAnticlockwise
    rw [hvb]
    exact h1
  · intro x hx
    exact h3 _ (by omega) _ (hodd x hx)
  · intro v l hv hl hco i x y hx hy
    have hxl := ((hl.mem x).mp (List.mem_of_getElem? hx)).1
    exact h3 _ (by omega) _ (heven v l hv hl hco i x y hx hy)

/-- Which faces end at the boundary. -/
theorem atBoundary_spec (T : BcTables) (h1 : T.facesToEdges = anticlockwiseFacesToEdges (b.data.view dom))
    (h2 : T.edgesToFaces = anticlockwiseEdgesToFaces (b.data.view dom)) {v : Nat} {l : List Nat} (hl : Fan g v l) (ho : FanOpen g l)
    (i x : Nat) (hx : l[i]? = some x) :
    T.atBoundary (2 * x + 1) = .ok false ∧ T.atBoundary (2 * x) = .ok (decide (i + 1 = l.length)) := by
  have hil := (List.getElem?_eq_some_iff.mp hx).1
  obtain ⟨hxl, hxv⟩ := (hl.mem x).mp (List.mem_of_getElem? hx)
  unfold BcTables.atBoundary
  rw [h1, h2]
  constructor
  · rw [vget_ok (facesToEdges_get g hg b hb hbe dom (2 * x + 1) (by omega))]
    simp only [Bind.bind, Except.bind]
    rw [odd_edge g hg hs b hb hbe x hxl, vget_ok (edgesToFaces_get g hg hs b hb hbe dom (2 * x) (by omega))]
    simp only [pure, Except.pure]
    congr 1
  · rw [vget_ok (facesToEdges_get g hg b hb hbe dom (2 * x) (by omega))]
    simp only [Bind.bind, Except.bind]
    by_cases hi : i + 1 = l.length
    · have hgl : l.getLast? = some x := by rw [List.getLast?_eq_getElem?, show l.length - 1 = i by omega]; exact hx
      rw [vget_ok (free_edge g hg hs b hb hbe dom x hxl (last_free g hg hs b hb hbe hl ho hgl))]
      simp [pure, Except.pure, hi]
    · obtain ⟨hyl, hyv⟩ := (hl.mem _).mp (List.getElem_mem (show i + 1 < l.length by omega))
      rw [across_edge g hg hs b hb hbe x _ hxl hyl (hxv.trans hyv.symm) (hl.chain i x _ hx (List.getElem?_eq_getElem (by omega))),
        vget_ok (edgesToFaces_get g hg hs b hb hbe dom _ (by omega))]
      simp only [pure, Except.pure]
      congr 1
      rw [decide_eq_false hi, beq_eq_false_iff_ne]
      omega

end

end Verif.Space
