import Verif.Spec.BuffaChristiansen
import Verif.Lemmas.Barycentric
import Verif.Props.DataContainer
/-
Corners, sides and fans of an oriented surface and of its refinement.
-/
namespace Verif.Space
open Verif.Grid

variable {K : Type}

/-! ### Corners -/

theorem next_div (x : Nat) : nextCorner x / 3 = x / 3 := by unfold nextCorner; omega
theorem prev_div (x : Nat) : prevCorner x / 3 = x / 3 := by unfold prevCorner; omega
theorem next_lt {x T : Nat} (h : x < 3 * T) : nextCorner x < 3 * T := by unfold nextCorner; omega
theorem prev_lt {x T : Nat} (h : x < 3 * T) : prevCorner x < 3 * T := by unfold prevCorner; omega
theorem prev_next (x : Nat) : prevCorner (nextCorner x) = x := by unfold prevCorner nextCorner; omega
theorem next_prev (x : Nat) : nextCorner (prevCorner x) = x := by unfold prevCorner nextCorner; omega
theorem next_next (x : Nat) : nextCorner (nextCorner x) = prevCorner x := by unfold prevCorner nextCorner; omega
theorem prev_prev (x : Nat) : prevCorner (prevCorner x) = nextCorner x := by unfold prevCorner nextCorner; omega
theorem next_ne (x : Nat) : nextCorner x ≠ x := by unfold nextCorner; omega
theorem prev_ne (x : Nat) : prevCorner x ≠ x := by unfold prevCorner; omega

/-- The edge from a corner to the next one. -/
def outEdge (g : GridData K) (x : Nat) : Nat :=
  ((g.data.element2Edges[x / 3]?).getD []).getD (if x % 3 = 0 then 0 else if x % 3 = 1 then 2 else 1) 0

/-- The edge with local number `s`. -/
def sideEdge (g : GridData K) (e s : Nat) : Nat := ((g.data.element2Edges[e]?).getD []).getD s 0

/-- The vertices of local side `s`. -/
def sidePair (t : Tri) (s : Nat) : Sym2 Nat := if s = 0 then s(t.a, t.b) else if s = 1 then s(t.a, t.c) else s(t.b, t.c)

section
variable (g : GridData K) (hg : g.Valid)
include hg

theorem edge_unique' (f f' : Nat) (p p' : Nat × Nat) (h : g.data.edges[f]? = some p)
    (h' : g.data.edges[f']? = some p') (hs : side p = side p') : f = f' := by
  obtain ⟨c, hc⟩ := hg.init
  have hnd := (C31_edges _ _ c _ hc).1
  have h1 : (g.data.edges.map side)[f]? = some (side p) := by rw [List.getElem?_map, h]; rfl
  have h2 : (g.data.edges.map side)[f']? = some (side p) := by rw [List.getElem?_map, h', hs]; rfl
  have hl := (List.getElem?_eq_some_iff.mp h1).1
  exact (List.getElem?_inj hl hnd).mp (h1.trans h2.symm)

theorem sideEdge_spec (e : Nat) (t : Tri) (ht : g.data.elements[e]? = some t) (s : Nat) (hs : s < 3) :
    ∃ p, g.data.edges[sideEdge g e s]? = some p ∧ side p = sidePair t s := by
  obtain ⟨f0, f1, f2, p0, p1, p2, hf, h0, s0, h1, s1, h2, s2, -⟩ := element_edges g hg e t ht
  unfold sideEdge
  rw [hf]
  obtain rfl | rfl | rfl : s = 0 ∨ s = 1 ∨ s = 2 := by omega
  · exact ⟨p0, h0, s0⟩
  · exact ⟨p1, h1, s1⟩
  · exact ⟨p2, h2, s2⟩

theorem sideEdge_lt (e : Nat) (t : Tri) (ht : g.data.elements[e]? = some t) (s : Nat) (hs : s < 3) :
    sideEdge g e s < g.data.edges.length := by
  obtain ⟨p, hp, -⟩ := sideEdge_spec g hg e t ht s hs
  exact edge_lt g hp

theorem sideEdge_eq_iff (e e' : Nat) (t t' : Tri) (ht : g.data.elements[e]? = some t) (ht' : g.data.elements[e']? = some t')
    (s s' : Nat) (hs : s < 3) (hs' : s' < 3) : sideEdge g e s = sideEdge g e' s' ↔ sidePair t s = sidePair t' s' := by
  obtain ⟨p, hp, h1⟩ := sideEdge_spec g hg e t ht s hs
  obtain ⟨p', hp', h1'⟩ := sideEdge_spec g hg e' t' ht' s' hs'
  constructor
  · intro h
    rw [h, hp'] at hp
    cases hp
    rw [← h1, h1']
  · intro h
    exact edge_unique' g hg _ _ _ _ hp hp' (by rw [h1, h1', h])

theorem outEdge_side (x : Nat) : outEdge g x = sideEdge g (x / 3) (if x % 3 = 0 then 0 else if x % 3 = 1 then 2 else 1) := rfl

omit hg in
theorem elem_get (x : Nat) (hx : x < 3 * g.data.elements.length) : ∃ t, g.data.elements[x / 3]? = some t :=
  ⟨_, List.getElem?_eq_getElem (by omega)⟩

omit hg in
theorem cornerAt_eq (x : Nat) (t : Tri) (ht : g.data.elements[x / 3]? = some t) :
    cornerAt g x = if x % 3 = 0 then t.a else if x % 3 = 1 then t.b else t.c := by
  unfold cornerAt
  rw [ht]
  have : x % 3 = 0 ∨ x % 3 = 1 ∨ x % 3 = 2 := by omega
  rcases this with h | h | h <;> simp [h, Tri.verts]

theorem corner_lt (x : Nat) (hx : x < 3 * g.data.elements.length) : cornerAt g x < g.data.nnodes := by
  obtain ⟨t, ht⟩ := elem_get g x hx
  rw [cornerAt_eq g x t ht]
  have h := hg.mesh.range t (List.mem_of_getElem? ht)
  simp only [Tri.verts, List.mem_cons, List.not_mem_nil, or_false] at h
  split_ifs
  · exact h _ (Or.inl rfl)
  · exact h _ (Or.inr (Or.inl rfl))
  · exact h _ (Or.inr (Or.inr rfl))

theorem corner_inj (x y : Nat) (hx : x < 3 * g.data.elements.length) (h3 : x / 3 = y / 3) (h : cornerAt g x = cornerAt g y) : x = y := by
  obtain ⟨t, ht⟩ := elem_get g x hx
  have hp := hg.mesh.proper t (List.mem_of_getElem? ht)
  unfold Tri.Proper at hp
  rw [cornerAt_eq g x t ht, cornerAt_eq g y t (by rw [← h3]; exact ht)] at h
  have : x % 3 = 0 ∨ x % 3 = 1 ∨ x % 3 = 2 := by omega
  have : y % 3 = 0 ∨ y % 3 = 1 ∨ y % 3 = 2 := by omega
  rcases ‹x % 3 = 0 ∨ _› with h1 | h1 | h1 <;> rcases ‹y % 3 = 0 ∨ _› with h2 | h2 | h2 <;> simp [h1, h2] at h <;> first | omega | (exfalso; tauto)

theorem corner_next_ne (x : Nat) (hx : x < 3 * g.data.elements.length) : cornerAt g (nextCorner x) ≠ cornerAt g x := by
  intro h
  exact next_ne x (corner_inj g hg _ _ (next_lt hx) (next_div x) h)

theorem corner_prev_ne (x : Nat) (hx : x < 3 * g.data.elements.length) : cornerAt g (prevCorner x) ≠ cornerAt g x := by
  intro h
  exact prev_ne x (corner_inj g hg _ _ (prev_lt hx) (prev_div x) h)

omit hg in
theorem pair_corner (x : Nat) (t : Tri) (ht : g.data.elements[x / 3]? = some t) :
    sidePair t (if x % 3 = 0 then 0 else if x % 3 = 1 then 2 else 1) = s(cornerAt g x, cornerAt g (nextCorner x)) := by
  rw [cornerAt_eq g x t ht, cornerAt_eq g (nextCorner x) t (by rw [next_div]; exact ht)]
  have hn : nextCorner x % 3 = (x % 3 + 1) % 3 := by unfold nextCorner; omega
  rw [hn]
  have : x % 3 = 0 ∨ x % 3 = 1 ∨ x % 3 = 2 := by omega
  rcases this with h | h | h <;> simp [h, sidePair, Sym2.eq_swap]

theorem outEdge_lt (x : Nat) (hx : x < 3 * g.data.elements.length) : outEdge g x < g.data.edges.length := by
  obtain ⟨t, ht⟩ := elem_get g x hx
  rw [outEdge_side g hg]
  exact sideEdge_lt g hg _ t ht _ (by split_ifs <;> omega)

/-- Edges are determined by their end points. -/
theorem outEdge_eq_iff (x y : Nat) (hx : x < 3 * g.data.elements.length) (hy : y < 3 * g.data.elements.length) :
    outEdge g x = outEdge g y ↔ (cornerAt g x = cornerAt g y ∧ cornerAt g (nextCorner x) = cornerAt g (nextCorner y)) ∨
      (cornerAt g x = cornerAt g (nextCorner y) ∧ cornerAt g (nextCorner x) = cornerAt g y) := by
  obtain ⟨t, ht⟩ := elem_get g x hx
  obtain ⟨t', ht'⟩ := elem_get g y hy
  rw [outEdge_side g hg, outEdge_side g hg, sideEdge_eq_iff g hg _ _ t t' ht ht' _ _ (by split_ifs <;> omega) (by split_ifs <;> omega),
    pair_corner g x t ht, pair_corner g y t' ht', Sym2.eq_iff]

/-- The sides of an element. -/
theorem outEdge_of_side (e s : Nat) (hs : s < 3) : ∃ x, x / 3 = e ∧ outEdge g x = sideEdge g e s ∧
    x % 3 = (if s = 0 then 0 else if s = 1 then 2 else 1) := by
  obtain rfl | rfl | rfl : s = 0 ∨ s = 1 ∨ s = 2 := by omega
  · refine ⟨3 * e, by omega, ?_, ?_⟩
    · rw [outEdge_side g hg, show 3 * e / 3 = e by omega, show 3 * e % 3 = 0 by omega]; rfl
    · rw [show 3 * e % 3 = 0 by omega]; rfl
  · refine ⟨3 * e + 2, by omega, ?_, ?_⟩
    · rw [outEdge_side g hg, show (3 * e + 2) / 3 = e by omega, show (3 * e + 2) % 3 = 2 by omega]; rfl
    · rw [show (3 * e + 2) % 3 = 2 by omega]; rfl
  · refine ⟨3 * e + 1, by omega, ?_, ?_⟩
    · rw [outEdge_side g hg, show (3 * e + 1) / 3 = e by omega, show (3 * e + 1) % 3 = 1 by omega]; rfl
    · rw [show (3 * e + 1) % 3 = 1 by omega]; rfl

theorem outEdge_inj_elem (x y : Nat) (hx : x < 3 * g.data.elements.length) (h3 : x / 3 = y / 3) (h : outEdge g x = outEdge g y) : x = y := by
  have hy : y < 3 * g.data.elements.length := by omega
  rw [outEdge_eq_iff g hg x y hx hy] at h
  rcases h with ⟨h1, -⟩ | ⟨h1, h2⟩
  · exact corner_inj g hg x y hx h3 h1
  · have e1 := corner_inj g hg x (nextCorner y) hx (by rw [next_div, h3]) h1
    have e2 := corner_inj g hg (nextCorner x) y (next_lt hx) (by rw [next_div, h3]) h2
    rw [← e2, next_next] at e1
    exact absurd e1.symm (prev_ne x)

end

/-! ### Fans -/

section
variable {g : GridData K} {v : Nat} {l : List Nat} (h : Fan g v l)
include h

theorem Fan.nodup : l.Nodup := List.Nodup.of_map _ h.distinct

theorem Fan.after_inj {x y : Nat} (hx : x ∈ l) (hy : y ∈ l) (hxy : cornerAt g (nextCorner x) = cornerAt g (nextCorner y)) : x = y :=
  List.inj_on_of_nodup_map h.distinct hx hy hxy

/-- In a closed fan, positions count modulo the length. -/
theorem Fan.cyclic (hc : FanClosed g l) (i : Nat) (x y : Nat) (hx : l[i]? = some x) (hy : l[(i + 1) % l.length]? = some y) :
    cornerAt g (prevCorner x) = cornerAt g (nextCorner y) := by
  have hlt := (List.getElem?_eq_some_iff.mp hx).1
  by_cases hi : i + 1 < l.length
  · rw [Nat.mod_eq_of_lt hi] at hy
    exact h.chain i x y hx hy
  · have : i + 1 = l.length := by omega
    rw [this, Nat.mod_self] at hy
    refine hc x y ?_ ?_
    · rw [List.getLast?_eq_getElem?, show l.length - 1 = i by omega]; exact hx
    · rw [List.head?_eq_getElem?]; exact hy

theorem Fan.before_inj (hco : FanClosed g l ∨ FanOpen g l) {x y : Nat} (hx : x ∈ l) (hy : y ∈ l)
    (hxy : cornerAt g (prevCorner x) = cornerAt g (prevCorner y)) : x = y := by
  obtain ⟨i, hi⟩ := List.getElem?_of_mem hx
  obtain ⟨j, hj⟩ := List.getElem?_of_mem hy
  have hil := (List.getElem?_eq_some_iff.mp hi).1
  have hjl := (List.getElem?_eq_some_iff.mp hj).1
  have hpos : 0 < l.length := by omega
  have hnd := h.nodup
  rcases hco with hc | ho
  · have h1 := h.cyclic hc i x _ hi (List.getElem?_eq_getElem (Nat.mod_lt _ hpos))
    have h2 := h.cyclic hc j y _ hj (List.getElem?_eq_getElem (Nat.mod_lt _ hpos))
    have h3 := h.after_inj (List.getElem_mem _) (List.getElem_mem _) (h1.symm.trans (hxy.trans h2))
    have h4 := (hnd.getElem_inj_iff).mp h3
    have : i = j := by
      by_cases a : i + 1 = l.length
      · by_cases b : j + 1 = l.length
        · omega
        · rw [a, Nat.mod_self, Nat.mod_eq_of_lt (by omega)] at h4; omega
      · by_cases b : j + 1 = l.length
        · rw [b, Nat.mod_self, Nat.mod_eq_of_lt (by omega)] at h4; omega
        · rw [Nat.mod_eq_of_lt (by omega), Nat.mod_eq_of_lt (by omega)] at h4; omega
    subst this
    rw [hi] at hj; cases hj; rfl
  · have key : ∀ (i : Nat) (x : Nat), l[i]? = some x → i + 1 < l.length → cornerAt g (prevCorner x) ∈ l.map fun x => cornerAt g (nextCorner x) := by
      intro i x hi hl
      have := h.chain i x _ hi (List.getElem?_eq_getElem hl)
      rw [this]
      exact List.mem_map.mpr ⟨_, List.getElem_mem _, rfl⟩
    have last : ∀ (i : Nat) (x : Nat), l[i]? = some x → i + 1 = l.length → cornerAt g (prevCorner x) ∉ l.map fun x => cornerAt g (nextCorner x) := by
      intro i x hi hl
      refine ho x ?_
      rw [List.getLast?_eq_getElem?, show l.length - 1 = i by omega]; exact hi
    by_cases a : i + 1 = l.length
    · by_cases b : j + 1 = l.length
      · have : i = j := by omega
        subst this
        rw [hi] at hj; cases hj; rfl
      · have h1 := last i x hi a
        rw [hxy] at h1
        exact absurd (key j y hj (by omega)) h1
    · by_cases b : j + 1 = l.length
      · have h1 := last j y hj b
        rw [← hxy] at h1
        exact absurd (key i x hi (by omega)) h1
      · have h1 := h.chain i x _ hi (List.getElem?_eq_getElem (by omega))
        have h2 := h.chain j y _ hj (List.getElem?_eq_getElem (by omega))
        have h3 := h.after_inj (List.getElem_mem _) (List.getElem_mem _) (h1.symm.trans (hxy.trans h2))
        have h4 := (hnd.getElem_inj_iff).mp h3
        have : i = j := by omega
        subst this
        rw [hi] at hj; cases hj; rfl

theorem Fan.valence_eq : valence g v = l.length := by
  unfold valence
  apply List.Perm.length_eq
  rw [List.perm_ext_iff_of_nodup (List.nodup_range.filter _) h.nodup]
  intro x
  rw [List.mem_filter, List.mem_range, h.mem]
  simp

end

end Verif.Space
