import Verif.Model.PyStructured
import Verif.Props.PyGrid
/-
Property C108: rectangular grids in the three coordinate planes.
-/
namespace Verif.PyGrid
open Verif.Grid

/-- The point of the plane of `axis`, at the distance `offset` from the origin, with the coordinates `u`, `v`
along the two axes named. -/
inductive PlacedAt {K : Type} : String → K → K → K → P3 K → Prop
  | xy (offset u v : K) : PlacedAt "xy" offset u v ⟨u, v, offset⟩
  | xz (offset u v : K) : PlacedAt "xz" offset u v ⟨u, offset, v⟩
  | yz (offset u v : K) : PlacedAt "yz" offset u v ⟨offset, u, v⟩

/-- The coordinate planes that can be asked for. -/
def IsAxis (axis : String) : Prop := axis = "xy" ∨ axis = "xz" ∨ axis = "yz"

/-- The vector of length `s` in the direction of the normals. -/
def normalOf {K : Type} [Field K] (axis : String) (s : K) : P3 K :=
  if axis = "xy" then ⟨0, 0, s⟩ else if axis = "xz" then ⟨0, -s, 0⟩ else ⟨s, 0, 0⟩

/-- The rows selected and the offset added, for an axis. -/
def axisRows (axis : String) : List Nat :=
  if axis = "xy" then [0, 1, 2] else if axis = "xz" then [0, 2, 1] else [2, 0, 1]

def axisOffset {K : Type} [Field K] (axis : String) (o : K) : List K :=
  if axis = "xy" then [0, 0, o] else if axis = "xz" then [0, o, 0] else [o, 0, 0]

/-- The image of a point of the plane `z = 0`. -/
def place {K : Type} [Field K] (axis : String) (o : K) (p : P3 K) : P3 K :=
  ⟨(selectRows p (axisRows axis) (axisOffset axis o)).getD 0 0,
   (selectRows p (axisRows axis) (axisOffset axis o)).getD 1 0,
   (selectRows p (axisRows axis) (axisOffset axis o)).getD 2 0⟩

theorem place_placed {K : Type} [Field K] (axis : String) (hax : IsAxis axis) (o u v : K) :
    PlacedAt axis o u v (place axis o ⟨u, v, 0⟩) := by
  rcases hax with rfl | rfl | rfl
  · have : place "xy" o ⟨u, v, 0⟩ = ⟨u, v, o⟩ := by simp [place, selectRows, axisRows, axisOffset]
    rw [this]; exact .xy o u v
  · have : place "xz" o ⟨u, v, 0⟩ = ⟨u, o, v⟩ := by simp [place, selectRows, axisRows, axisOffset]
    rw [this]; exact .xz o u v
  · have : place "yz" o ⟨u, v, 0⟩ = ⟨o, u, v⟩ := by simp [place, selectRows, axisRows, axisOffset]
    rw [this]; exact .yz o u v

theorem placed_eq {K : Type} [Field K] (axis : String) (o u v : K) (p : P3 K) (h : PlacedAt axis o u v p) :
    p = place axis o ⟨u, v, 0⟩ := by
  cases h <;> simp [place, selectRows, axisRows, axisOffset]

theorem structuredGrid_eq {K : Type} [Field K] (x0 y0 x1 y1 : K) (nx ny : Nat) (hx : 1 ≤ nx) (hy : 1 ≤ ny)
    (axis : String) (hax : IsAxis axis) (o : K) :
    ∃ g g', createStructuredGrid true (x0, y0) (x1, y1) ((nx : Int), (ny : Int)) = .ok g ∧
      structuredGrid [x0, y0] [x1, y1] [(nx : Int), ny] axis o = .ok g' ∧ GridOk g' ∧
      g'.nodes = g.nodes.map (place axis o) ∧ g'.data.elements = g.data.elements ∧
      g'.domains = List.replicate g.data.elements.length 0 ∧
      (∀ t ∈ g.data.elements, ∀ v ∈ t.verts, v < g.nodes.length) := by
  obtain ⟨g, hg, h1, h2, h3, h4, h5, h6⟩ := C38_structure (x0, y0) (x1, y1) nx ny hx hy
  have hpos : 0 < g.data.elements.length := by
    rw [h4]; have := Nat.mul_pos hx hy; omega
  have hposn : 0 < g.nodes.length := by
    rw [h1]; exact Nat.mul_pos (by omega) (by omega)
  have key : structuredGrid [x0, y0] [x1, y1] [(nx : Int), ny] axis o =
      gridFromElementData (columns 3 (g.nodes.map fun p => selectRows p (axisRows axis) (axisOffset axis o)) 0)
        (columns 3 (g.data.elements.map fun t => [(t.a : Int), t.b, t.c]) 0) [] 0 := by
    unfold structuredGrid coreStructuredGrid
    dsimp only
    rw [hg]
    dsimp only
    rw [viewVertices_eq, viewElements_eq]
    rcases hax with rfl | rfl | rfl
    · rw [if_pos rfl]; rfl
    · rw [if_neg (by decide), if_pos rfl]; rfl
    · rw [if_neg (by decide), if_neg (by decide), if_pos rfl]; rfl
  have hc1 : (columns 3 (g.nodes.map fun p => selectRows p (axisRows axis) (axisOffset axis o)) 0).cols =
      g.nodes.length := by simp [columns]
  have hc2 : (columns 3 (g.data.elements.map fun t => [(t.a : Int), t.b, t.c]) 0).cols =
      g.data.elements.length := by simp [columns]
  have hv : ∀ k (hk : k < g.nodes.length) r, r < 3 →
      (columns 3 (g.nodes.map fun p => selectRows p (axisRows axis) (axisOffset axis o)) 0).at_ r k =
        (selectRows g.nodes[k] (axisRows axis) (axisOffset axis o)).getD r 0 := by
    intro k hk r hr
    simp [columns, hk]
  rcases C106_from_element_data
    (columns 3 (g.nodes.map fun p => selectRows p (axisRows axis) (axisOffset axis o)) 0)
    (columns 3 (g.data.elements.map fun t => [(t.a : Int), t.b, t.c]) 0) [] 0 rfl rfl with
    ⟨h, -⟩ | ⟨-, g', h, hok, k1, k2, k3, k4, k5⟩
  · exfalso
    rw [hc1, hc2] at h
    rcases h with h | h | ⟨h, -⟩ | ⟨i, hi, r, hr, h⟩
    · omega
    · omega
    · exact h rfl
    · have hm := h5.range _ (List.getElem_mem hi)
      simp only [Tri.verts, List.mem_cons, List.not_mem_nil, or_false, forall_eq_or_imp,
        forall_eq] at hm
      obtain ⟨m1, m2, m3⟩ := hm
      have : r = 0 ∨ r = 1 ∨ r = 2 := by omega
      rcases this with rfl | rfl | rfl <;> simp [columns, hi] at h <;> omega
  · rw [hc1] at k1 k2
    rw [hc2] at k3 k4 k5
    refine ⟨g, g', hg, by rw [key, h], hok, ?_, ?_, ?_, h5.range⟩
    · apply List.ext_getElem?
      intro k
      by_cases hk : k < g.nodes.length
      · rw [k2 k hk, hv k hk 0 (by omega), hv k hk 1 (by omega), hv k hk 2 (by omega), List.getElem?_map,
          List.getElem?_eq_getElem hk]
        rfl
      · rw [List.getElem?_eq_none (by omega), List.getElem?_eq_none (by simp; omega)]
    · apply List.ext_getElem?
      intro k
      by_cases hk : k < g.data.elements.length
      · obtain ⟨t, ht, ha, hb, hc⟩ := k4 k hk
        rw [ht, List.getElem?_eq_getElem hk]
        simp [columns, hk] at ha hb hc
        congr 1
        cases t
        cases hT : g.data.elements[k]
        simp_all
      · rw [List.getElem?_eq_none (by omega), List.getElem?_eq_none (by omega)]
    · rw [k5, if_pos rfl]

/-- **C108** `structured_grid` with `n × m` subdivisions makes `(n+1)(m+1)` vertices, vertex `i + j (n+1)` at
the `i`-th and `j`-th subdivision point along the two axes named and at `offset` along the third, and `2 n m`
triangles, two in each cell, all with domain index 0. -/
theorem C108_structure {K : Type} [Field K] (x0 y0 x1 y1 : K) (nx ny : Nat) (hx : 1 ≤ nx) (hy : 1 ≤ ny)
    (axis : String) (hax : IsAxis axis) (o : K) :
    ∃ g, structuredGrid [x0, y0] [x1, y1] [(nx : Int), ny] axis o = .ok g ∧ GridOk g ∧
      g.nodes.length = (nx + 1) * (ny + 1) ∧
      (∀ i j, i ≤ nx → j ≤ ny → ∃ p, g.nodes[i + j * (nx + 1)]? = some p ∧
        PlacedAt axis o (x0 + (i : K) * ((x1 - x0) / nx)) (y0 + (j : K) * ((y1 - y0) / ny)) p) ∧
      g.data.elements.length = 2 * (nx * ny) ∧
      (∀ i j, i < nx → j < ny →
        g.data.elements[2 * (i + j * nx)]? =
          some ⟨i + j * (nx + 1), i + 1 + j * (nx + 1), i + 1 + (j + 1) * (nx + 1)⟩ ∧
        g.data.elements[2 * (i + j * nx) + 1]? =
          some ⟨i + j * (nx + 1), i + 1 + (j + 1) * (nx + 1), i + (j + 1) * (nx + 1)⟩) ∧
      (∀ d ∈ g.domains, d = 0) := by
  obtain ⟨g, g', hg, hg', hok, h1, h2, h3, -⟩ := structuredGrid_eq x0 y0 x1 y1 nx ny hx hy axis hax o
  obtain ⟨g2, hg2, k1, k2, k3, k4, k5, k6⟩ := C38_structure (x0, y0) (x1, y1) nx ny hx hy
  rw [hg] at hg2
  cases hg2
  refine ⟨g', hg', hok, by rw [h1, List.length_map, k1], ?_, by rw [h2, k4], ?_, ?_⟩
  · intro i j hi hj
    refine ⟨_, ?_, place_placed axis hax o _ _⟩
    have := k3 i j hi hj
    unfold vtx at this
    rw [h1, List.getElem?_map, this]
    rfl
  · intro i j hi hj
    rw [h2]
    exact k6 i j hi hj
  · intro d hd
    rw [h3] at hd
    exact (List.mem_replicate.mp hd).2

theorem comb_place {K : Type} [Field K] (axis : String) (hax : IsAxis axis) (o u v : K) (a b c p : P3 K)
    (ha : a.z = 0) (hb : b.z = 0) (hc : c.z = 0) (hp : PlacedAt axis o u v p) (r s t : K) :
    Comb (place axis o a) (place axis o b) (place axis o c) p r s t ↔ Comb a b c ⟨u, v, 0⟩ r s t := by
  rw [placed_eq axis o u v p hp]
  rcases hax with rfl | rfl | rfl <;>
    simp only [Comb, place, selectRows, axisRows, axisOffset, ha, hb, hc] <;> simp <;>
    intro h0 _ _ <;> rw [← add_mul, ← add_mul, h0, one_mul]

theorem comb_on_plane {K : Type} [Field K] (axis : String) (hax : IsAxis axis) (o : K) (a b c p : P3 K)
    (ha : a.z = 0) (hb : b.z = 0) (hc : c.z = 0) (r s t : K)
    (h : Comb (place axis o a) (place axis o b) (place axis o c) p r s t) : ∃ u v, PlacedAt axis o u v p := by
  have hz : r * o + s * o + t * o = o := by rw [← add_mul, ← add_mul, h.1, one_mul]
  rcases hax with rfl | rfl | rfl
  · simp only [Comb, place, selectRows, axisRows, axisOffset, ha, hb, hc] at h
    simp at h
    obtain ⟨-, h1, h2, h3⟩ := h
    rw [hz] at h3
    refine ⟨p.x, p.y, ?_⟩
    obtain ⟨x, y, z⟩ := p
    simp only at h3
    subst h3
    exact .xy _ _ _
  · simp only [Comb, place, selectRows, axisRows, axisOffset, ha, hb, hc] at h
    simp at h
    obtain ⟨-, h1, h2, h3⟩ := h
    rw [hz] at h2
    refine ⟨p.x, p.z, ?_⟩
    obtain ⟨x, y, z⟩ := p
    simp only at h2
    subst h2
    exact .xz _ _ _
  · simp only [Comb, place, selectRows, axisRows, axisOffset, ha, hb, hc] at h
    simp at h
    obtain ⟨-, h1, h2, h3⟩ := h
    rw [hz] at h1
    refine ⟨p.y, p.z, ?_⟩
    obtain ⟨x, y, z⟩ := p
    simp only at h1
    subst h1
    exact .yz _ _ _

theorem nodeAt_map {K : Type} [Field K] (l : List (P3 K)) (f : P3 K → P3 K) (i : Nat) (hi : i < l.length) :
    nodeAt (l.map f) i = f (nodeAt l i) := by
  unfold nodeAt
  simp [hi]

theorem structured_flat {K : Type} [Field K] (x0 y0 x1 y1 : K) (nx ny : Nat) (hx : 1 ≤ nx) (hy : 1 ≤ ny)
    (g : GridData K) (h : createStructuredGrid true (x0, y0) (x1, y1) ((nx : Int), (ny : Int)) = .ok g)
    (t : Tri) (ht : t ∈ g.data.elements) :
    (nodeAt g.nodes t.a).z = 0 ∧ (nodeAt g.nodes t.b).z = 0 ∧ (nodeAt g.nodes t.c).z = 0 := by
  obtain ⟨e, he⟩ := List.mem_iff_getElem?.mp ht
  obtain ⟨i, j, hi', hj', hc⟩ := structured_cases _ _ nx ny hx hy g h e t he
  have n1 := structured_node _ _ nx ny hx hy g h i j (by omega) (by omega)
  have n2 := structured_node _ _ nx ny hx hy g h (i + 1) j (by omega) (by omega)
  have n3 := structured_node _ _ nx ny hx hy g h (i + 1) (j + 1) (by omega) (by omega)
  have n4 := structured_node _ _ nx ny hx hy g h i (j + 1) (by omega) (by omega)
  rcases hc with ⟨-, rfl⟩ | ⟨-, rfl⟩ <;> simp only [n1, n2, n3, n4, and_self]

/-- **C108** The triangles cover exactly the rectangle from the lower left to the upper right point, in the
plane of the two axes named, at `offset` along the third. -/
theorem C108_cover {K : Type} [Field K] [LinearOrder K] [IsStrictOrderedRing K] (x0 y0 x1 y1 : K) (nx ny : Nat)
    (hx : 1 ≤ nx) (hy : 1 ≤ ny) (hlx : x0 < x1) (hly : y0 < y1) (axis : String) (hax : IsAxis axis) (o : K)
    (g : GridData K) (h : structuredGrid [x0, y0] [x1, y1] [(nx : Int), ny] axis o = .ok g) (p : P3 K) :
    (∃ u v, PlacedAt axis o u v p ∧ x0 ≤ u ∧ u ≤ x1 ∧ y0 ≤ v ∧ v ≤ y1) ↔
      ∃ t ∈ g.data.elements,
        InTriangle (nodeAt g.nodes t.a) (nodeAt g.nodes t.b) (nodeAt g.nodes t.c) p := by
  obtain ⟨g0, g', hg0, hg', -, h1, h2, -, hr⟩ := structuredGrid_eq x0 y0 x1 y1 nx ny hx hy axis hax o
  rw [h] at hg'
  cases hg'
  have hcov := C38_cover (x0, y0) (x1, y1) nx ny hx hy hlx hly g0 hg0
  have hn : ∀ t ∈ g0.data.elements, nodeAt g.nodes t.a = place axis o (nodeAt g0.nodes t.a) ∧
      nodeAt g.nodes t.b = place axis o (nodeAt g0.nodes t.b) ∧
      nodeAt g.nodes t.c = place axis o (nodeAt g0.nodes t.c) := by
    intro t ht
    have := hr t ht
    simp only [Tri.verts, List.mem_cons, List.not_mem_nil, or_false, forall_eq_or_imp, forall_eq] at this
    rw [h1]
    exact ⟨nodeAt_map _ _ _ this.1, nodeAt_map _ _ _ this.2.1, nodeAt_map _ _ _ this.2.2⟩
  rw [h2]
  constructor
  · rintro ⟨u, v, hp, b1, b2, b3, b4⟩
    obtain ⟨t, ht, r, s, w, hr0, hs0, hw0, hcomb⟩ := (hcov ⟨u, v, 0⟩).mp ⟨rfl, b1, b2, b3, b4⟩
    obtain ⟨z1, z2, z3⟩ := structured_flat x0 y0 x1 y1 nx ny hx hy g0 hg0 t ht
    obtain ⟨e1, e2, e3⟩ := hn t ht
    refine ⟨t, ht, r, s, w, hr0, hs0, hw0, ?_⟩
    rw [e1, e2, e3]
    exact (comb_place axis hax o u v _ _ _ p z1 z2 z3 hp r s w).mpr hcomb
  · rintro ⟨t, ht, r, s, w, hr0, hs0, hw0, hcomb⟩
    obtain ⟨z1, z2, z3⟩ := structured_flat x0 y0 x1 y1 nx ny hx hy g0 hg0 t ht
    obtain ⟨e1, e2, e3⟩ := hn t ht
    rw [e1, e2, e3] at hcomb
    obtain ⟨u, v, hp⟩ := comb_on_plane axis hax o _ _ _ p z1 z2 z3 r s w hcomb
    have hc' := (comb_place axis hax o u v _ _ _ p z1 z2 z3 hp r s w).mp hcomb
    obtain ⟨-, b1, b2, b3, b4⟩ := (hcov ⟨u, v, 0⟩).mpr ⟨t, ht, r, s, w, hr0, hs0, hw0, hc'⟩
    exact ⟨u, v, hp, b1, b2, b3, b4⟩

/-- **C108** All triangles have the same size and the same orientation: the normals point in the direction of
the third axis for "xy" and "yz", and against it for "xz". -/
theorem C108_orientation {K : Type} [Field K] (x0 y0 x1 y1 : K) (nx ny : Nat)
    (hx : 1 ≤ nx) (hy : 1 ≤ ny) (axis : String) (hax : IsAxis axis) (o : K)
    (g : GridData K) (h : structuredGrid [x0, y0] [x1, y1] [(nx : Int), ny] axis o = .ok g) :
    ∀ t ∈ g.data.elements, areaVector (nodeAt g.nodes t.a) (nodeAt g.nodes t.b) (nodeAt g.nodes t.c) =
      normalOf axis (((x1 - x0) / nx) * ((y1 - y0) / ny)) := by
  obtain ⟨g0, g', hg0, hg', -, h1, h2, -, hr⟩ := structuredGrid_eq x0 y0 x1 y1 nx ny hx hy axis hax o
  rw [h] at hg'
  cases hg'
  intro t ht
  rw [h2] at ht
  have hor := C38_orientation (x0, y0) (x1, y1) nx ny hx hy g0 hg0 t ht
  obtain ⟨z1, z2, z3⟩ := structured_flat x0 y0 x1 y1 nx ny hx hy g0 hg0 t ht
  have hrt := hr t ht
  simp only [Tri.verts, List.mem_cons, List.not_mem_nil, or_false, forall_eq_or_imp, forall_eq] at hrt
  rw [h1, nodeAt_map _ _ _ hrt.1, nodeAt_map _ _ _ hrt.2.1, nodeAt_map _ _ _ hrt.2.2]
  generalize nodeAt g0.nodes t.a = a at *
  generalize nodeAt g0.nodes t.b = b at *
  generalize nodeAt g0.nodes t.c = c at *
  simp only [areaVector, P3.mk.injEq] at hor
  obtain ⟨-, -, hor⟩ := hor
  rcases hax with rfl | rfl | rfl
  · simp only [areaVector, place, selectRows, axisRows, axisOffset, normalOf, z1, z2, z3]
    simp
    linear_combination hor
  · simp only [areaVector, place, selectRows, axisRows, axisOffset, normalOf, z1, z2, z3]
    simp
    linear_combination -hor
  · simp only [areaVector, place, selectRows, axisRows, axisOffset, normalOf, z1, z2, z3]
    simp
    linear_combination hor

/-- **C108** It raises exactly if an argument has not two entries, there is not at least one subdivision in
each direction, or the axes are not "xy", "xz" or "yz"; nothing is undefined. -/
theorem C108_raises_iff {K : Type} [Field K] (ll ur : List K) (n : List Int) (axis : String) (o : K) :
    (∃ e, structuredGrid ll ur n axis o = .error e) ↔
      ¬ (ll.length = 2 ∧ ur.length = 2 ∧ n.length = 2 ∧ (∀ k ∈ n, 1 ≤ k) ∧ IsAxis axis) := by
  constructor
  · rintro ⟨e, he⟩ ⟨h1, h2, h3, h4, h5⟩
    match ll, ur, n, h1, h2, h3 with
    | [x0, y0], [x1, y1], [a, b], _, _, _ =>
      simp at h4
      obtain ⟨nx, rfl⟩ := Int.eq_ofNat_of_zero_le (show 0 ≤ a by omega)
      obtain ⟨ny, rfl⟩ := Int.eq_ofNat_of_zero_le (show 0 ≤ b by omega)
      obtain ⟨g, hg, -⟩ := C108_structure x0 y0 x1 y1 nx ny (by omega) (by omega) axis h5 o
      have := hg.symm.trans he
      cases this
  · intro h
    by_cases hl : ll.length = 2 ∧ ur.length = 2 ∧ n.length = 2
    · obtain ⟨h1, h2, h3⟩ := hl
      match ll, ur, n, h1, h2, h3 with
      | [x0, y0], [x1, y1], [a, b], _, _, _ =>
        by_cases hab : 1 ≤ a ∧ 1 ≤ b
        · have hax : ¬ IsAxis axis := by
            intro hc
            exact h ⟨rfl, rfl, rfl, by simp [hab], hc⟩
          obtain ⟨nx, rfl⟩ := Int.eq_ofNat_of_zero_le (show 0 ≤ a by omega)
          obtain ⟨ny, rfl⟩ := Int.eq_ofNat_of_zero_le (show 0 ≤ b by omega)
          obtain ⟨g, hg, -⟩ := C38_structure (x0, y0) (x1, y1) nx ny (by omega) (by omega)
          refine ⟨.valueError, ?_⟩
          have n1 : ¬ axis = "xy" := fun hc => hax (Or.inl hc)
          have n2 : ¬ axis = "xz" := fun hc => hax (Or.inr (Or.inl hc))
          have n3 : ¬ axis = "yz" := fun hc => hax (Or.inr (Or.inr hc))
          unfold structuredGrid coreStructuredGrid
          dsimp only
          rw [hg]
          dsimp only
          rw [if_neg n1, if_neg n2, if_neg n3]
        · refine ⟨.runtimeError, ?_⟩
          unfold structuredGrid coreStructuredGrid
          dsimp only
          rw [C38_throws true (x0, y0) (x1, y1) (a, b) (by simp; omega)]
    · refine ⟨.valueError, ?_⟩
      unfold structuredGrid
      have : coreStructuredGrid ll ur n = .error .valueError := by
        unfold coreStructuredGrid
        split
        · exact absurd ⟨rfl, rfl, rfl⟩ hl
        · rfl
      rw [this]

example : ∃ g, structuredGrid [(0 : ℚ), 0] [2, 3] [2, 3] "xz" 5 = .ok g ∧ g.data.elements.length = 12 ∧
    ∃ p, g.nodes[11]? = some p ∧ PlacedAt "xz" 5 2 3 p := by
  obtain ⟨g, hg, -, -, h3, h4, -⟩ := C108_structure (0 : ℚ) 0 2 3 2 3 (by omega) (by omega) "xz" (by simp [IsAxis]) 5
  obtain ⟨p, hp, hpl⟩ := h3 2 3 (by omega) (by omega)
  refine ⟨g, hg, h4, p, hp, ?_⟩
  norm_num at hpl
  exact hpl

end Verif.PyGrid
