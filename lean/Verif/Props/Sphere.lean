import Verif.Lemmas.SphereBase

/-!
# C104: the regular sphere
-/

noncomputable section

namespace Verif.Shapes

/-- For every level, every positive radius and every centre, the mesh is a closed, outward oriented,
conforming triangulation of the sphere that every ray from the centre meets exactly once; it has
`8 * 4 ^ n` elements and `4 * 4 ^ n + 2` nodes.  (A negative level acts as level `0`.) -/
theorem C104_sphere (n : ℤ) (r : ℝ) (hr : 0 < r) (o : V3) :
    SphereTriangulation o r (sphereMesh n r o).1 (sphereMesh n r o).2 ∧
    (sphereMesh n r o).2.length = 8 * 4 ^ n.toNat ∧
    (sphereMesh n r o).1.length = 4 * 4 ^ n.toNat + 2 := by
  obtain ⟨G, hE, hN⟩ := Sphere.good_times n.toNat octahedron Sphere.good_octahedron 0 rfl rfl
  rw [zero_add] at hE hN
  refine ⟨Sphere.good_triangulation G r hr o, hE, ?_⟩
  show (List.map _ _).length = _
  rw [List.length_map, hN]

/-- Levels are nested: the nodes of level `n` are, with the same numbers, nodes of level `n + 1`. -/
theorem C104_nested (n : ℕ) (r : ℝ) (o : V3) (k : ℕ) (hk : k < (sphereMesh n r o).1.length) :
    nodeAt (sphereMesh (n + 1) r o).1 k = nodeAt (sphereMesh n r o).1 k := by
  obtain ⟨G, -, -⟩ := Sphere.good_times n octahedron Sphere.good_octahedron 0 rfl rfl
  have hs : ∀ n (m : List V3 × List Tri), refineTimes (n + 1) m = refineTriangles (refineTimes n m) := by
    intro n
    induction n with
    | zero => intro m; rfl
    | succ n ih => intro m; exact ih (refineTriangles m)
  obtain ⟨m, R⟩ := refineTriangles_spec _ _ G.inRange
  have h1 : (sphereMesh (n + 1) r o).1 = (refineTriangles (refineTimes n octahedron)).1.map
      fun p k => r * p k + o k := by
    show (refineTimes ((n : ℤ) + 1).toNat octahedron).1.map _ = _
    rw [show ((n : ℤ) + 1).toNat = n + 1 by omega, hs]
  have h2 : (sphereMesh n r o).1 = (refineTimes n octahedron).1.map fun p k => r * p k + o k := rfl
  rw [h2, List.length_map] at hk
  rw [h1, h2, nodeAt_map _ (lt_of_lt_of_le hk R.le), nodeAt_map _ hk, G.old R hk]

/-- The radius must be positive: for a negative one, all normals point to the centre. -/
theorem C104_counterexample_radius :
    ¬ ∀ n : ℤ, ∀ r : ℝ, r ≠ 0 → ∀ o, SphereTriangulation o r (sphereMesh n r o).1 (sphereMesh n r o).2 := by
  intro h
  have := (h 0 (-1) (by norm_num) 0).outward (2, 4, 0) (Sphere.mem_oct.2 (Or.inl rfl))
  unfold Behind at this
  have e : ∀ k < 6, nodeAt (sphereMesh 0 (-1) 0).1 k = fun i => -1 * nodeAt octahedron.1 k i + (0 : V3) i :=
    fun k hk => nodeAt_map _ hk
  rw [e _ (by decide), e _ (by decide), e _ (by decide), Sphere.oct0, Sphere.oct2, Sphere.oct4] at this
  unfold det3 at this
  simp at this
  norm_num at this

/-- The first refinement: 32 elements, 18 nodes, around the point (0, 1, 0) with radius 2. -/
example : (sphereMesh 1 2 ![0, 1, 0]).2.length = 32 ∧ (sphereMesh 1 2 ![0, 1, 0]).1.length = 18 := by
  have := C104_sphere 1 2 (by norm_num) ![0, 1, 0]
  exact ⟨this.2.1, this.2.2⟩

end Verif.Shapes
