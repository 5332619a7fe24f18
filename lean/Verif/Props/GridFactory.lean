import Verif.Lemmas.GridFactory
import Verif.Props.DataContainer
import Verif.Spec.Geometry
import Mathlib.Tactic.LinearCombination
import Mathlib.Tactic.FieldSimp
import Mathlib.Tactic.Linarith
import Mathlib.Tactic.Ring
import Mathlib.Algebra.Order.Ring.Cast
import Mathlib.Tactic.Positivity
/-
Properties C33, C38: grid import and structured grids.
-/
namespace Verif.Grid

/-! ### C33 -/

/-- **C33** The import throws `invalid_argument` exactly when the topology is not triangular, an array has
the wrong shape, the number of domain indices is wrong, or some vertex index of some element is out of
range. -/
theorem C33_throws_iff {K : Type} (triangular : Bool) (vs : Mat K) (ec : Mat Int) (dom : List Int) :
    createGridFromConnectivityArrays triangular vs ec dom = .error .invalidArgument ↔
      triangular = false ∨ vs.rows ≠ 3 ∨ ec.rows < 3 ∨ (dom ≠ [] ∧ dom.length ≠ ec.cols) ∨
        ∃ i < ec.cols, ∃ r < 3, ec.at_ r i < 0 ∨ (vs.cols : Int) ≤ ec.at_ r i := by
  constructor
  · intro h
    by_contra hc
    obtain ⟨d, _, hok⟩ := import_good triangular vs ec dom hc
    rw [hok] at h
    cases h
  · intro h; exact import_bad triangular vs ec dom h

/-- **C33** Otherwise it produces a grid whose vertices, elements and domain indices are exactly the
arrays, in insertion order (domain index 0 everywhere if none were given); in particular there is no
undefined behaviour. -/
theorem C33_exact {K : Type} (triangular : Bool) (vs : Mat K) (ec : Mat Int) (dom : List Int) :
    createGridFromConnectivityArrays triangular vs ec dom = .error .invalidArgument ∨
    ∃ g, createGridFromConnectivityArrays triangular vs ec dom = .ok g ∧
      g.nodes.length = vs.cols ∧ g.data.nnodes = vs.cols ∧
      (∀ i < vs.cols, g.nodes[i]? = some ⟨vs.at_ 0 i, vs.at_ 1 i, vs.at_ 2 i⟩) ∧
      g.data.elements.length = ec.cols ∧
      (∀ i < ec.cols, ∃ t, g.data.elements[i]? = some t ∧ (t.a : Int) = ec.at_ 0 i ∧
        (t.b : Int) = ec.at_ 1 i ∧ (t.c : Int) = ec.at_ 2 i) ∧
      g.domains.length = ec.cols ∧
      (dom = [] → ∀ i < ec.cols, g.domains[i]? = some 0) ∧ (dom ≠ [] → g.domains = dom) ∧
      DataContainer.init vs.cols g.data.elements = some g.data := by
  by_cases h : ImportBad triangular vs.rows vs.cols ec dom
  · exact Or.inl (import_bad triangular vs ec dom h)
  · right
    obtain ⟨d, hd, hok⟩ := import_good triangular vs ec dom h
    have hrange := init_valid _ _ _ _ hd
    have hspec : d.nnodes = vs.cols ∧ d.elements = (List.range ec.cols).map (colTri ec) := by
      obtain ⟨d', hd', h1, h2, -⟩ := init_spec vs.cols ((List.range ec.cols).map (colTri ec)) 0 hrange
      rw [hd] at hd'
      cases hd'
      exact ⟨h1, h2⟩
    unfold ImportBad at h
    push Not at h
    obtain ⟨-, -, -, h3, h4⟩ := h
    refine ⟨_, hok, by simp, hspec.1, ?_, by simp [hspec.2], ?_, ?_, ?_, ?_, ?_⟩
    · intro i hi; simp [hi]
    · intro i hi
      refine ⟨colTri ec i, by simp [hspec.2, hi], ?_⟩
      have a0 := h4 i hi 0 (by omega)
      have a1 := h4 i hi 1 (by omega)
      have a2 := h4 i hi 2 (by omega)
      simp only [colTri]
      omega
    · by_cases hdom : dom = []
      · simp [hdom]
      · simp [hdom, h3 hdom]
    · intro hdom i hi
      simp [hdom, hi]
    · intro hdom; simp [hdom]
    · rw [hspec.2]; exact hd

/-- Non-vacuity of C33: one triangle with domain index 7. -/
example : ∃ g, createGridFromConnectivityArrays (K := Int) true ⟨3, 3, fun r c => if r = c then 1 else 0⟩
    ⟨3, 1, fun r _ => r⟩ [7] = .ok g ∧ g.data.elements = [⟨0, 1, 2⟩] ∧ g.domains = [7] :=
  ⟨_, rfl, rfl, rfl⟩

/-! ### C38 -/

/-- **C38** Invalid arguments are rejected. -/
theorem C38_throws {K : Type} [Field K] (triangular : Bool) (lo hi : K × K) (n : Int × Int)
    (h : triangular = false ∨ n.1 < 1 ∨ n.2 < 1) :
    createStructuredGrid triangular lo hi n = .error .invalidArgument := by
  unfold createStructuredGrid
  cases triangular with
  | false => rfl
  | true =>
    simp only [Bool.not_true, Bool.false_eq_true, if_false]
    rw [if_pos (by simpa using h)]

/-- Index of the vertex in column `i` and row `j`. -/
def vtx (nx i j : Nat) : Nat := i + j * (nx + 1)

theorem simplices_eq (base off : Nat) : simplices base (1, off) 3 (0, 1) 0 =
    [⟨base, base + 1, base + 1 + off⟩, ⟨base, base + off + 1, base + off⟩] := by
  simp [simplices, simplexCorners, nextPermutation2]

theorem flatMap_pair_get {α β : Type} (l : List α) (f g : α → β) : ∀ k,
    (l.flatMap fun a => [f a, g a])[2 * k]? = (l[k]?).map f ∧
    (l.flatMap fun a => [f a, g a])[2 * k + 1]? = (l[k]?).map g := by
  induction l with
  | nil => intro k; simp
  | cons a l ih =>
    intro k
    cases k with
    | zero => simp
    | succ k =>
      have := ih k
      simp only [List.flatMap_cons]
      have e1 : 2 * (k + 1) = 2 * k + 1 + 1 := by omega
      have e2 : 2 * (k + 1) + 1 = 2 * k + 1 + 1 + 1 := by omega
      rw [e2, e1]
      simpa using this

/-- **C38** An `nx × ny` structured grid has `(nx+1)(ny+1)` vertices, the one in column `i` and row `j`
at the expected point of the plane `z = 0`, and `2 nx ny` proper triangles with valid vertex indices;
the cell in column `i` and row `j` is split along its diagonal into the elements `2 (i + j nx)` and
`2 (i + j nx) + 1`. -/
theorem C38_structure {K : Type} [Field K] (lo hi : K × K) (nx ny : Nat) (hx : 1 ≤ nx) (hy : 1 ≤ ny) :
    ∃ g, createStructuredGrid true lo hi ((nx : Int), (ny : Int)) = .ok g ∧
      g.nodes.length = (nx + 1) * (ny + 1) ∧ g.data.nnodes = (nx + 1) * (ny + 1) ∧
      (∀ i j, i ≤ nx → j ≤ ny → g.nodes[vtx nx i j]? = some
        ⟨lo.1 + (i : K) * ((hi.1 - lo.1) / nx), lo.2 + (j : K) * ((hi.2 - lo.2) / ny), 0⟩) ∧
      g.data.elements.length = 2 * (nx * ny) ∧ MeshOk g.nodes.length g.data.elements ∧
      (∀ i j, i < nx → j < ny →
        g.data.elements[2 * (i + j * nx)]? =
          some ⟨vtx nx i j, vtx nx (i + 1) j, vtx nx (i + 1) (j + 1)⟩ ∧
        g.data.elements[2 * (i + j * nx) + 1]? =
          some ⟨vtx nx i j, vtx nx (i + 1) (j + 1), vtx nx i (j + 1)⟩) := by
  unfold createStructuredGrid
  simp only [Bool.not_true, Bool.false_eq_true, if_false, Int.toNat_natCast]
  rw [if_neg (by omega)]
  unfold createSimplexGrid
  simp only
  have hv := visit_zero (nx, ny) (show 0 < nx by omega)
  have hv2 := visit_zero (nx + 1, ny + 1) (by simp)
  simp only at hv hv2
  have hnodes : (insertVertices lo hi (nx + 1, ny + 1)) = (List.range ((nx + 1) * (ny + 1))).map fun k =>
      (⟨lo.1 + ((k % (nx + 1) : Nat) : K) * (hi.1 - lo.1) / (((nx + 1 : Nat) : K) - 1),
       lo.2 + ((k / (nx + 1) : Nat) : K) * (hi.2 - lo.2) / (((ny + 1 : Nat) : K) - 1), 0⟩ : P3 K) := by
    unfold insertVertices
    simp only
    rw [hv2, List.map_map]
    rfl
  have helems : ((MultiIndex.visit (nx, ny) (nx * ny) (0, 0)).flatMap fun idx =>
      simplices (idx.1 * 1 + idx.2 * (1 * (nx + 1))) (1, 1 * (nx + 1)) 3 (0, 1) 0) =
      (List.range (nx * ny)).flatMap fun k =>
        [⟨vtx nx (k % nx) (k / nx), vtx nx (k % nx + 1) (k / nx), vtx nx (k % nx + 1) (k / nx + 1)⟩,
         ⟨vtx nx (k % nx) (k / nx), vtx nx (k % nx + 1) (k / nx + 1), vtx nx (k % nx) (k / nx + 1)⟩] := by
    rw [hv, List.flatMap_map]
    congr 1
    funext k
    simp only [one_mul, mul_one]
    rw [simplices_eq]
    have e1 : k % nx + k / nx * (nx + 1) + 1 = vtx nx (k % nx + 1) (k / nx) := by unfold vtx; ring
    have e2 : k % nx + k / nx * (nx + 1) + 1 + (nx + 1) = vtx nx (k % nx + 1) (k / nx + 1) := by
      unfold vtx; ring
    have e3 : k % nx + k / nx * (nx + 1) + (nx + 1) + 1 = vtx nx (k % nx + 1) (k / nx + 1) := by
      unfold vtx; ring
    have e4 : k % nx + k / nx * (nx + 1) + (nx + 1) = vtx nx (k % nx) (k / nx + 1) := by
      unfold vtx; ring
    rw [e2, e1, e3, e4]
    rfl
  rw [hnodes, helems]
  generalize hel : ((List.range (nx * ny)).flatMap fun k =>
        [(⟨vtx nx (k % nx) (k / nx), vtx nx (k % nx + 1) (k / nx), vtx nx (k % nx + 1) (k / nx + 1)⟩ : Tri),
         ⟨vtx nx (k % nx) (k / nx), vtx nx (k % nx + 1) (k / nx + 1), vtx nx (k % nx) (k / nx + 1)⟩])
      = elems
  have hvtx : ∀ i j, i ≤ nx → j ≤ ny → vtx nx i j < (nx + 1) * (ny + 1) := by
    intro i j hi hj
    unfold vtx
    have := Nat.mul_le_mul_right (nx + 1) hj
    calc i + j * (nx + 1) < (nx + 1) + ny * (nx + 1) := by omega
      _ = (nx + 1) * (ny + 1) := by ring
  have hok : MeshOk ((nx + 1) * (ny + 1)) elems := by
    have hmem : ∀ t ∈ elems, ∃ i j, i < nx ∧ j < ny ∧
        (t = ⟨vtx nx i j, vtx nx (i + 1) j, vtx nx (i + 1) (j + 1)⟩ ∨
         t = ⟨vtx nx i j, vtx nx (i + 1) (j + 1), vtx nx i (j + 1)⟩) := by
      intro t ht
      rw [← hel] at ht
      obtain ⟨k, hk, ht⟩ := List.mem_flatMap.mp ht
      have hk' := List.mem_range.mp hk
      refine ⟨k % nx, k / nx, Nat.mod_lt _ (by omega), Nat.div_lt_of_lt_mul hk', ?_⟩
      simpa using ht
    constructor
    · intro t ht v hvt
      obtain ⟨i, j, hi, hj, ht'⟩ := hmem t ht
      have a1 := hvtx i j (by omega) (by omega)
      have a2 := hvtx (i + 1) j (by omega) (by omega)
      have a3 := hvtx (i + 1) (j + 1) (by omega) (by omega)
      have a4 := hvtx i (j + 1) (by omega) (by omega)
      rcases ht' with rfl | rfl <;>
        simp only [Tri.verts, List.mem_cons, List.not_mem_nil, or_false] at hvt <;>
        rcases hvt with rfl | rfl | rfl <;> assumption
    · intro t ht
      obtain ⟨i, j, hi, hj, ht'⟩ := hmem t ht
      have e : (j + 1) * (nx + 1) = j * (nx + 1) + (nx + 1) := by ring
      rcases ht' with rfl | rfl <;> simp only [Tri.Proper, vtx, e] <;> omega
  obtain ⟨d, hd, h1, h2, -⟩ := init_spec _ elems 0 hok.range
  refine ⟨⟨List.map (fun k =>
      (⟨lo.1 + ((k % (nx + 1) : Nat) : K) * (hi.1 - lo.1) / (((nx + 1 : Nat) : K) - 1),
       lo.2 + ((k / (nx + 1) : Nat) : K) * (hi.2 - lo.2) / (((ny + 1 : Nat) : K) - 1), 0⟩ : P3 K))
      (List.range ((nx + 1) * (ny + 1))), d, List.replicate elems.length 0⟩, ?_, ?_, ?_, ?_, ?_, ?_, ?_⟩
  · rw [List.length_map, List.length_range, hd]; rfl
  · simp
  · exact h1
  · intro i j hi hj
    simp only
    rw [List.getElem?_map, List.getElem?_range (hvtx i j hi hj), Option.map_some]
    have e1 : vtx nx i j % (nx + 1) = i := by
      unfold vtx
      rw [Nat.add_mul_mod_self_right]; exact Nat.mod_eq_of_lt (by omega)
    have e2 : vtx nx i j / (nx + 1) = j := by
      unfold vtx
      rw [Nat.add_mul_div_right _ _ (by omega), Nat.div_eq_of_lt (by omega)]; omega
    rw [e1, e2]
    push_cast
    simp only [add_sub_cancel_right, mul_div_assoc]
  · show d.elements.length = _
    rw [h2, ← hel]
    simp [List.length_flatMap, Nat.mul_comm]
  · show MeshOk (List.map _ _).length d.elements
    rw [h2]; simpa using hok
  · intro i j hi hj
    show d.elements[_]? = _ ∧ d.elements[_]? = _
    rw [h2, ← hel]
    have hk : i + j * nx < nx * ny := by
      have := Nat.mul_le_mul_right nx (show j + 1 ≤ ny by omega)
      calc i + j * nx < (j + 1) * nx := by rw [Nat.add_mul]; omega
        _ ≤ ny * nx := this
        _ = nx * ny := Nat.mul_comm _ _
    have e1 : (i + j * nx) % nx = i := by
      rw [Nat.add_mul_mod_self_right]; exact Nat.mod_eq_of_lt hi
    have e2 : (i + j * nx) / nx = j := by
      rw [Nat.add_mul_div_right _ _ (by omega), Nat.div_eq_of_lt hi]; omega
    obtain ⟨f1, f2⟩ := flatMap_pair_get (List.range (nx * ny))
      (fun k => (⟨vtx nx (k % nx) (k / nx), vtx nx (k % nx + 1) (k / nx), vtx nx (k % nx + 1) (k / nx + 1)⟩ : Tri))
      (fun k => ⟨vtx nx (k % nx) (k / nx), vtx nx (k % nx + 1) (k / nx + 1), vtx nx (k % nx) (k / nx + 1)⟩)
      (i + j * nx)
    rw [f1, f2, List.getElem?_range hk]
    simp only [Option.map_some, e1, e2, and_self]

/-- Every element of the structured grid is one of the two halves of a cell. -/
theorem structured_cases {K : Type} [Field K] (lo hi : K × K) (nx ny : Nat) (hx : 1 ≤ nx) (hy : 1 ≤ ny)
    (g : GridData K) (h : createStructuredGrid true lo hi ((nx : Int), (ny : Int)) = .ok g)
    (e : Nat) (t : Tri) (ht : g.data.elements[e]? = some t) :
    ∃ i j, i < nx ∧ j < ny ∧
      ((e = 2 * (i + j * nx) ∧ t = ⟨vtx nx i j, vtx nx (i + 1) j, vtx nx (i + 1) (j + 1)⟩) ∨
       (e = 2 * (i + j * nx) + 1 ∧ t = ⟨vtx nx i j, vtx nx (i + 1) (j + 1), vtx nx i (j + 1)⟩)) := by
  obtain ⟨g', hg', -, -, -, hlen, -, hel⟩ := C38_structure lo hi nx ny hx hy
  rw [h] at hg'
  cases hg'
  have he : e < 2 * (nx * ny) := by
    rw [← hlen]; exact (List.getElem?_eq_some_iff.mp ht).1
  have hk : e / 2 < nx * ny := by omega
  have hdm := Nat.div_add_mod (e / 2) nx
  rw [Nat.mul_comm] at hdm
  have hi : e / 2 % nx < nx := Nat.mod_lt _ (by omega)
  have hj : e / 2 / nx < ny := Nat.div_lt_of_lt_mul hk
  refine ⟨e / 2 % nx, e / 2 / nx, hi, hj, ?_⟩
  obtain ⟨h1, h2⟩ := hel _ _ hi hj
  rcases Nat.mod_two_eq_zero_or_one e with h0 | h0
  · left
    have ee : e = 2 * (e / 2 % nx + e / 2 / nx * nx) := by omega
    refine ⟨ee, ?_⟩
    rw [← ee, ht] at h1
    exact Option.some.inj h1
  · right
    have ee : e = 2 * (e / 2 % nx + e / 2 / nx * nx) + 1 := by omega
    refine ⟨ee, ?_⟩
    rw [← ee, ht] at h2
    exact Option.some.inj h2

theorem structured_node {K : Type} [Field K] (lo hi : K × K) (nx ny : Nat) (hx : 1 ≤ nx) (hy : 1 ≤ ny)
    (g : GridData K) (h : createStructuredGrid true lo hi ((nx : Int), (ny : Int)) = .ok g)
    (i j : Nat) (hi' : i ≤ nx) (hj' : j ≤ ny) : nodeAt g.nodes (vtx nx i j) =
      ⟨lo.1 + (i : K) * ((hi.1 - lo.1) / nx), lo.2 + (j : K) * ((hi.2 - lo.2) / ny), 0⟩ := by
  obtain ⟨g', hg', -, -, hn, -⟩ := C38_structure lo hi nx ny hx hy
  rw [h] at hg'
  cases hg'
  unfold nodeAt
  rw [hn i j hi' hj']
  rfl

/-- **C38** All triangles of the structured grid have the same vector area (hence the same orientation:
counter-clockwise seen from above for a rectangle given by its lower left and upper right corners), half
the area of a cell. -/
theorem C38_orientation {K : Type} [Field K] (lo hi : K × K) (nx ny : Nat) (hx : 1 ≤ nx) (hy : 1 ≤ ny)
    (g : GridData K) (h : createStructuredGrid true lo hi ((nx : Int), (ny : Int)) = .ok g) :
    ∀ t ∈ g.data.elements, areaVector (nodeAt g.nodes t.a) (nodeAt g.nodes t.b) (nodeAt g.nodes t.c) =
      ⟨0, 0, ((hi.1 - lo.1) / nx) * ((hi.2 - lo.2) / ny)⟩ := by
  intro t ht
  obtain ⟨e, he⟩ := List.mem_iff_getElem?.mp ht
  obtain ⟨i, j, hi', hj', hc⟩ := structured_cases lo hi nx ny hx hy g h e t he
  have n1 := structured_node lo hi nx ny hx hy g h i j (by omega) (by omega)
  have n2 := structured_node lo hi nx ny hx hy g h (i + 1) j (by omega) (by omega)
  have n3 := structured_node lo hi nx ny hx hy g h (i + 1) (j + 1) (by omega) (by omega)
  have n4 := structured_node lo hi nx ny hx hy g h i (j + 1) (by omega) (by omega)
  rcases hc with ⟨-, rfl⟩ | ⟨-, rfl⟩
  · simp only [n1, n2, n3, areaVector]
    push_cast
    congr 1 <;> ring
  · simp only [n1, n3, n4, areaVector]
    push_cast
    congr 1 <;> ring

/-- A number of `[0, n]` lies in one of the unit intervals. -/
theorem find_cell {K : Type} [Field K] [LinearOrder K] [IsStrictOrderedRing K] (n : Nat) (hn : 1 ≤ n)
    (X : K) (h0 : 0 ≤ X) (h1 : X ≤ n) : ∃ i < n, (i : K) ≤ X ∧ X ≤ i + 1 := by
  induction n with
  | zero => omega
  | succ n ih =>
    by_cases hc : X ≤ n
    · by_cases hn' : 1 ≤ n
      · obtain ⟨i, hi, h⟩ := ih hn' hc
        exact ⟨i, by omega, h⟩
      · have : n = 0 := by omega
        subst this
        exact ⟨0, by omega, by simpa using h0, by push_cast at h1 ⊢; linarith⟩
    · push Not at hc
      exact ⟨n, by omega, hc.le, by push_cast at h1; exact h1⟩

/-- **C38** The triangles cover the rectangle: a point of the plane `z = 0` lies in the closed rectangle
iff it lies in some element. -/
theorem C38_cover {K : Type} [Field K] [LinearOrder K] [IsStrictOrderedRing K] (lo hi : K × K)
    (nx ny : Nat) (hx : 1 ≤ nx) (hy : 1 ≤ ny) (hlx : lo.1 < hi.1) (hly : lo.2 < hi.2)
    (g : GridData K) (h : createStructuredGrid true lo hi ((nx : Int), (ny : Int)) = .ok g) (p : P3 K) :
    (p.z = 0 ∧ lo.1 ≤ p.x ∧ p.x ≤ hi.1 ∧ lo.2 ≤ p.y ∧ p.y ≤ hi.2) ↔
      ∃ t ∈ g.data.elements,
        InTriangle (nodeAt g.nodes t.a) (nodeAt g.nodes t.b) (nodeAt g.nodes t.c) p := by
  have hnx : (0 : K) < nx := by exact_mod_cast hx
  have hny : (0 : K) < ny := by exact_mod_cast hy
  obtain ⟨dx, hdx⟩ : ∃ d, d = (hi.1 - lo.1) / (nx : K) := ⟨_, rfl⟩
  obtain ⟨dy, hdy⟩ : ∃ d, d = (hi.2 - lo.2) / (ny : K) := ⟨_, rfl⟩
  have hdx0 : 0 < dx := by rw [hdx]; exact div_pos (by linarith) hnx
  have hdy0 : 0 < dy := by rw [hdy]; exact div_pos (by linarith) hny
  have hdxm : nx * dx = hi.1 - lo.1 := by rw [hdx]; field_simp
  have hdym : ny * dy = hi.2 - lo.2 := by rw [hdy]; field_simp
  constructor
  · rintro ⟨hz, h1, h2, h3, h4⟩
    obtain ⟨X, hX⟩ : ∃ X, X = (p.x - lo.1) / dx := ⟨_, rfl⟩
    obtain ⟨Y, hY⟩ : ∃ Y, Y = (p.y - lo.2) / dy := ⟨_, rfl⟩
    have hpx : p.x = lo.1 + X * dx := by rw [hX]; field_simp; ring
    have hpy : p.y = lo.2 + Y * dy := by rw [hY]; field_simp; ring
    obtain ⟨i, hi', hxi, hxi'⟩ := find_cell nx hx X (by rw [hX]; exact div_nonneg (by linarith) hdx0.le)
      (by rw [hX, div_le_iff₀ hdx0]; linarith)
    obtain ⟨j, hj', hyj, hyj'⟩ := find_cell ny hy Y (by rw [hY]; exact div_nonneg (by linarith) hdy0.le)
      (by rw [hY, div_le_iff₀ hdy0]; linarith)
    have n1 := structured_node lo hi nx ny hx hy g h i j (by omega) (by omega)
    have n2 := structured_node lo hi nx ny hx hy g h (i + 1) j (by omega) (by omega)
    have n3 := structured_node lo hi nx ny hx hy g h (i + 1) (j + 1) (by omega) (by omega)
    have n4 := structured_node lo hi nx ny hx hy g h i (j + 1) (by omega) (by omega)
    obtain ⟨g', hg', -, -, -, -, -, hel⟩ := C38_structure lo hi nx ny hx hy
    rw [h] at hg'
    cases hg'
    obtain ⟨e1, e2⟩ := hel i j hi' hj'
    by_cases hc : Y - j ≤ X - i
    · refine ⟨_, List.mem_of_getElem? e1, 1 - (X - i), (X - i) - (Y - j), Y - j, by linarith, by linarith,
        by linarith, ?_⟩
      simp only [n1, n2, n3, Comb, ← hdx, ← hdy]
      push_cast
      refine ⟨by ring, by rw [hpx]; ring, by rw [hpy]; ring, by rw [hz]; ring⟩
    · refine ⟨_, List.mem_of_getElem? e2, 1 - (Y - j), X - i, (Y - j) - (X - i), by linarith, by linarith,
        by linarith, ?_⟩
      simp only [n1, n3, n4, Comb, ← hdx, ← hdy]
      push_cast
      refine ⟨by ring, by rw [hpx]; ring, by rw [hpy]; ring, by rw [hz]; ring⟩
  · rintro ⟨t, ht, u, v, w, hu, hv, hw, hs, hpx, hpy, hpz⟩
    obtain ⟨e, he⟩ := List.mem_iff_getElem?.mp ht
    obtain ⟨i, j, hi', hj', hc⟩ := structured_cases lo hi nx ny hx hy g h e t he
    have n1 := structured_node lo hi nx ny hx hy g h i j (by omega) (by omega)
    have n2 := structured_node lo hi nx ny hx hy g h (i + 1) j (by omega) (by omega)
    have n3 := structured_node lo hi nx ny hx hy g h (i + 1) (j + 1) (by omega) (by omega)
    have n4 := structured_node lo hi nx ny hx hy g h i (j + 1) (by omega) (by omega)
    have bi : (i : K) + 1 ≤ nx := by exact_mod_cast hi'
    have bj : (j : K) + 1 ≤ ny := by exact_mod_cast hj'
    have bi0 : (0 : K) ≤ i := Nat.cast_nonneg i
    have bj0 : (0 : K) ≤ j := Nat.cast_nonneg j
    have key : ∃ X Y, p.x = lo.1 + X * dx ∧ p.y = lo.2 + Y * dy ∧ p.z = 0 ∧ 0 ≤ X ∧ X ≤ nx ∧ 0 ≤ Y ∧ Y ≤ ny := by
      have hu' : u = 1 - v - w := by linarith
      rcases hc with ⟨-, rfl⟩ | ⟨-, rfl⟩
      · simp only [n1, n2, n3, ← hdx, ← hdy] at hpx hpy hpz
        push_cast at hpx hpy hpz
        refine ⟨i + v + w, j + w, ?_, ?_, ?_, by linarith, by linarith, by linarith, by linarith⟩
        · rw [hpx, hu']; ring
        · rw [hpy, hu']; ring
        · rw [hpz]; ring
      · simp only [n1, n3, n4, ← hdx, ← hdy] at hpx hpy hpz
        push_cast at hpx hpy hpz
        refine ⟨i + v, j + v + w, ?_, ?_, ?_, by linarith, by linarith, by linarith, by linarith⟩
        · rw [hpx, hu']; ring
        · rw [hpy, hu']; ring
        · rw [hpz]; ring
    obtain ⟨X, Y, ex, ey, ez, x0, x1, y0, y1⟩ := key
    have mx := mul_le_mul_of_nonneg_right x1 hdx0.le
    have my := mul_le_mul_of_nonneg_right y1 hdy0.le
    have mx0 := mul_nonneg x0 hdx0.le
    have my0 := mul_nonneg y0 hdy0.le
    exact ⟨ez, by linarith, by linarith, by linarith, by linarith⟩

/-- **C38** The triangles do not overlap: no point is inside two different elements. -/
theorem C38_disjoint {K : Type} [Field K] [LinearOrder K] [IsStrictOrderedRing K] (lo hi : K × K)
    (nx ny : Nat) (hx : 1 ≤ nx) (hy : 1 ≤ ny) (hlx : lo.1 < hi.1) (hly : lo.2 < hi.2)
    (g : GridData K) (h : createStructuredGrid true lo hi ((nx : Int), (ny : Int)) = .ok g) (p : P3 K)
    (e e' : Nat) (t t' : Tri) (ht : g.data.elements[e]? = some t) (ht' : g.data.elements[e']? = some t')
    (hin : InsideTriangle (nodeAt g.nodes t.a) (nodeAt g.nodes t.b) (nodeAt g.nodes t.c) p)
    (hin' : InsideTriangle (nodeAt g.nodes t'.a) (nodeAt g.nodes t'.b) (nodeAt g.nodes t'.c) p) :
    e = e' := by
  have hnx : (0 : K) < nx := by exact_mod_cast hx
  have hny : (0 : K) < ny := by exact_mod_cast hy
  obtain ⟨dx, hdx⟩ : ∃ d, d = (hi.1 - lo.1) / (nx : K) := ⟨_, rfl⟩
  obtain ⟨dy, hdy⟩ : ∃ d, d = (hi.2 - lo.2) / (ny : K) := ⟨_, rfl⟩
  have hdx0 : 0 < dx := by rw [hdx]; exact div_pos (by linarith) hnx
  have hdy0 : 0 < dy := by rw [hdy]; exact div_pos (by linarith) hny
  obtain ⟨X, hX⟩ : ∃ X, X = (p.x - lo.1) / dx := ⟨_, rfl⟩
  obtain ⟨Y, hY⟩ : ∃ Y, Y = (p.y - lo.2) / dy := ⟨_, rfl⟩
  have key : ∀ (e : Nat) (t : Tri), g.data.elements[e]? = some t →
      InsideTriangle (nodeAt g.nodes t.a) (nodeAt g.nodes t.b) (nodeAt g.nodes t.c) p →
      ∃ i j : Nat, (i : K) < X ∧ X < i + 1 ∧ (j : K) < Y ∧ Y < j + 1 ∧
        ((e = 2 * (i + j * nx) ∧ Y - j < X - i) ∨ (e = 2 * (i + j * nx) + 1 ∧ X - i < Y - j)) := by
    rintro e t he ⟨u, v, w, hu, hv, hw, hs, hpx, hpy, hpz⟩
    obtain ⟨i, j, hi', hj', hc⟩ := structured_cases lo hi nx ny hx hy g h e t he
    have n1 := structured_node lo hi nx ny hx hy g h i j (by omega) (by omega)
    have n2 := structured_node lo hi nx ny hx hy g h (i + 1) j (by omega) (by omega)
    have n3 := structured_node lo hi nx ny hx hy g h (i + 1) (j + 1) (by omega) (by omega)
    have n4 := structured_node lo hi nx ny hx hy g h i (j + 1) (by omega) (by omega)
    have hu' : u = 1 - v - w := by linarith
    rcases hc with ⟨ee, rfl⟩ | ⟨ee, rfl⟩
    · simp only [n1, n2, n3, ← hdx, ← hdy] at hpx hpy
      push_cast at hpx hpy
      have hX' : X = i + v + w := by rw [hX, hpx, hu']; field_simp; ring
      have hY' : Y = j + w := by rw [hY, hpy, hu']; field_simp; ring
      exact ⟨i, j, by linarith, by linarith, by linarith, by linarith, Or.inl ⟨ee, by linarith⟩⟩
    · simp only [n1, n3, n4, ← hdx, ← hdy] at hpx hpy
      push_cast at hpx hpy
      have hX' : X = i + v := by rw [hX, hpx, hu']; field_simp; ring
      have hY' : Y = j + v + w := by rw [hY, hpy, hu']; field_simp; ring
      exact ⟨i, j, by linarith, by linarith, by linarith, by linarith, Or.inr ⟨ee, by linarith⟩⟩
  obtain ⟨i, j, a1, a2, a3, a4, hc⟩ := key e t ht hin
  obtain ⟨i', j', b1, b2, b3, b4, hc'⟩ := key e' t' ht' hin'
  have cell : ∀ (m m' : Nat) (Z : K), (m : K) < Z → Z < m + 1 → (m' : K) < Z → Z < m' + 1 → m = m' := by
    intro m m' Z c1 c2 c3 c4
    have d1 : (m : K) < ((m' + 1 : Nat) : K) := by push_cast; linarith
    have d2 : (m' : K) < ((m + 1 : Nat) : K) := by push_cast; linarith
    have d1' := Nat.cast_lt.mp d1
    have d2' := Nat.cast_lt.mp d2
    omega
  have hii := cell i i' X a1 a2 b1 b2
  have hjj := cell j j' Y a3 a4 b3 b4
  subst hii hjj
  rcases hc with ⟨c, c'⟩ | ⟨c, c'⟩ <;> rcases hc' with ⟨d, d'⟩ | ⟨d, d'⟩
  · omega
  · exact absurd c' (by linarith)
  · exact absurd c' (by linarith)
  · omega

/-- Non-vacuity of C38: the `2 × 1` grid on `[0,2] × [0,1]`, its element 3 and a point inside. -/
example : ∃ g : GridData ℚ, createStructuredGrid true (0, 0) (2, 1) (2, 1) = .ok g ∧
    g.data.elements[3]? = some ⟨1, 5, 4⟩ ∧
    InsideTriangle (nodeAt g.nodes 1) (nodeAt g.nodes 5) (nodeAt g.nodes 4) ⟨5/4, 1/2, 0⟩ := by
  obtain ⟨g, hg, -, -, hn, -, -, he⟩ := C38_structure ((0 : ℚ), (0 : ℚ)) (2, 1) 2 1 (by omega) (by omega)
  refine ⟨g, hg, (he 1 0 (by omega) (by omega)).2, ?_⟩
  have n1 := hn 1 0 (by omega) (by omega)
  have n2 := hn 2 1 (by omega) (by omega)
  have n3 := hn 1 1 (by omega) (by omega)
  simp only [vtx, Nat.zero_mul, Nat.add_zero, Nat.one_mul, Nat.reduceAdd] at n1 n2 n3
  refine ⟨1/2, 1/4, 1/4, by norm_num, by norm_num, by norm_num, ?_⟩
  simp only [nodeAt, n1, n2, n3, Option.getD_some, Comb]
  norm_num

end Verif.Grid
