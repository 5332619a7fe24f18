import Verif.Props.BoundaryOperators
import Verif.Lemmas.QuadratureNodes
import Verif.Lemmas.DuffyKernel
import Verif.Props.PotentialField
/-
C99: where the nodes of quadrature rules for pairs of triangles lie.
-/
namespace Verif.Bio
open Verif.Grid Verif.Space Verif.Shape Verif.SingleQuad Verif.HMat Verif.LocalOps Verif.GridFun Verif.Kernel Verif.Pot Verif.Integral Verif.Integrator
open Finset

/-! ### Rules -/

/-- **C99 (regular rules)** The points of the regular rules for triangles of orders up to 20 lie inside the triangle, but for five
orders. -/
theorem C99_regular (order : Int) (h : order ≤ 20) (ho : order ∉ outsideOrders) :
    ∃ rule, fillSingle 3 order = .ok rule ∧ rule ≠ [] ∧ ∀ q ∈ rule, (q.x, q.y) ∈ Verif.Quad.refTriangle := by
  obtain ⟨r, h1, h2⟩ := triangle_inside order h ho
  obtain ⟨r', h3, h4⟩ := triangle_nonempty order h
  rw [h1, Outcome.ok.injEq] at h3
  subst h3
  exact ⟨r, h1, h4, h2⟩

/-- **C99 (counterexample)** For orders 11, 15, 16, 18 and 20 there are points outside the (closed) triangle. -/
theorem C99_counterexample_outside (order : Int) (ho : order ∈ ([11, 15, 16, 18, 20] : List Int)) :
    ∃ rule, fillSingle 3 order = .ok rule ∧ ∃ q ∈ rule, q.x < 0 ∨ q.y < 0 ∨ 1 < q.x + q.y :=
  triangle_outside order ho

/-- **C99 (square rules)** The rules on the square, from which singular rules are built, have points inside the square and positive
weights. -/
theorem C99_square (order : Int) (h : order ≤ 39) : ∃ rule, fillSingle 4 order = .ok rule ∧
    ∀ q ∈ rule, (0 < q.x ∧ q.x < 1) ∧ (0 < q.y ∧ q.y < 1) ∧ 0 < q.w := square_inside order h

theorem squareRule_points {square : List QPoint} (h : ∀ q ∈ square, (0 < q.x ∧ q.x < 1) ∧ (0 < q.y ∧ q.y < 1) ∧ 0 < q.w) :
    (∀ i < (squareRule square).n, (0 < ((squareRule square).point i).1 ∧ ((squareRule square).point i).1 < 1) ∧
      (0 < ((squareRule square).point i).2 ∧ ((squareRule square).point i).2 < 1)) ∧
    ∀ i < (squareRule square).n, 0 < (squareRule square).weight i := by
  constructor <;> intro i hi
  · have hi : i < square.length := hi
    have := h square[i] (List.getElem_mem hi)
    unfold squareRule
    dsimp only
    rw [List.getD_eq_getElem?_getD, List.getElem?_map, List.getElem?_eq_getElem hi]
    exact ⟨this.1, this.2.1⟩
  · have hi : i < square.length := hi
    have := h square[i] (List.getElem_mem hi)
    unfold squareRule
    dsimp only
    rw [List.getD_eq_getElem?_getD, List.getElem?_map, List.getElem?_eq_getElem hi]
    exact this.2.2

/-- In the rules for a triangle and itself the two points of a node differ. -/
theorem coincident_distinct (rule : Verif.Quad.Rule ℝ)
    (hp : ∀ i < rule.n, (0 < (rule.point i).1 ∧ (rule.point i).1 < 1) ∧ (0 < (rule.point i).2 ∧ (rule.point i).2 < 1))
    (col : Nat) (hcol : col < (Verif.Quad.fillSingular .coincident rule).total) (x y : ℝ × ℝ)
    (hx : (Verif.Quad.fillSingular .coincident rule).test col = some x) (hy : (Verif.Quad.fillSingular .coincident rule).trial col = some y) :
    x ≠ y := by
  obtain ⟨r, i, j, hr, hi, hj, rfl⟩ := Verif.Quad.col_decomp hcol
  have hr' : r < (Verif.Quad.Config.coincident).exSamples.length := by rw [Verif.Quad.Config.exSamples_length]; exact hr
  set z : Verif.Quad.P4 := ![(rule.point i).1, (rule.point i).2, (rule.point j).1, (rule.point j).2] with hz
  have hzc : z ∈ Verif.Quad.cube := Verif.Quad.mem_cube.mpr ⟨(hp i hi).1, (hp i hi).2, (hp j hj).1, (hp j hj).2⟩
  have hs : ((Verif.Quad.Config.coincident).samples (rule.point i).1 (rule.point i).2 (rule.point j).1 (rule.point j).2)[r]? =
      some (Verif.Quad.evalSample z (Verif.Quad.Config.coincident).exSamples[r]) := by
    have := (Verif.Quad.Config.coincident).samples_eq z
    simp only [hz, Matrix.cons_val] at this
    rw [this, List.getElem?_map, List.getElem?_eq_getElem hr']
    rfl
  obtain ⟨a1, a2, -⟩ := Verif.Quad.fillSingular_at _ rule r i j hr hi hj _ hs
  obtain ⟨-, b2⟩ := Verif.Quad.sample_mem _ r hr' z hzc
  have b3 := Verif.Quad.weight_le_separation _ r hr' z hzc
  rw [a1] at hx
  rw [a2] at hy
  intro hxy
  have hx := Option.some.inj hx
  have hy := Option.some.inj hy
  rw [← hx, ← hy] at hxy
  have h1 := congrArg Prod.fst hxy
  have h2 := congrArg Prod.snd hxy
  have : Verif.Quad.separation .coincident (Verif.Quad.polyMap (Verif.Quad.exMap (Verif.Quad.Config.coincident).exSamples[r]) z) = 0 := by
    show max |_ - _| |_ - _| = 0
    rw [max_eq_left_iff.mpr]
    · rw [abs_eq_zero, sub_eq_zero]; exact h1
    · rw [show |_ - _| = (0 : ℝ) from by rw [abs_eq_zero, sub_eq_zero]; exact h2]
      exact abs_nonneg _
  rw [this] at b3
  linarith

/-- **C99 (singular rules)** The nodes of the rules for pairs of triangles with a corner, an edge or all corners in common consist of points
inside the triangles, with positive weights; for a triangle and itself the two points differ. -/
theorem C99_singular (c : Verif.Quad.Config) (hc : c.Valid) (order : Int) (h0 : 0 ≤ order) (h1 : order ≤ 39) :
    ∃ rule, fillSingularRule c order = .ok rule ∧ ∀ n ∈ rule.nodes, n.1 ∈ Verif.Quad.refTriangle ∧ n.2.1 ∈ Verif.Quad.refTriangle ∧ 0 < n.2.2 ∧
      (c = .coincident → n.1 ≠ n.2.1) := by
  obtain ⟨square, x, y, g1, g2, g3⟩ := fillSingularRule_ok c hc order h0 h1
  obtain ⟨square', g4, g5⟩ := square_inside order h1
  rw [g1, Outcome.ok.injEq] at g4
  subst g4
  obtain ⟨p1, p2⟩ := squareRule_points g5
  refine ⟨_, g3, fun n hn => ?_⟩
  unfold DoubleRule.nodes at hn
  simp only [List.length_map, List.length_range, List.mem_map, List.mem_range] at hn
  obtain ⟨col, hcol, rfl⟩ := hn
  obtain ⟨-, hpts⟩ := Verif.Quad.C61_points c hc (squareRule square) p1 p2
  obtain ⟨x', hx', y', hy', e1, e2, hw⟩ := hpts col hcol
  obtain ⟨f1, f2⟩ := g2 col hcol
  rw [f1, Option.some.injEq] at e1
  rw [f2, Option.some.injEq] at e2
  subst e1 e2
  have get : ∀ {γ : Type} (f : Nat → γ) (d : γ), ((List.range (Verif.Quad.fillSingular c (squareRule square)).total).map f).getD col d = f col := by
    intro γ f d
    rw [List.getD_eq_getElem?_getD, List.getElem?_map, List.getElem?_range hcol]
    rfl
  rw [get, get, get]
  refine ⟨hx', hy', hw, fun hcc => ?_⟩
  subst hcc
  exact coincident_distinct _ p1 col hcol _ _ f1 f2

variable {addr : Type} {s : Setting addr} {selector : Verif.Quad.Selector} {vertexCount : Nat} {testShapeset trialShapeset : Nat → addr}
  {T U : Assembly.ASpace ℂ} {tri tri' : Triangles}

theorem commonCorners_self (t : List Int) (h : t.Nodup) : Verif.Quad.commonCorners t t = t.length := by
  unfold Verif.Quad.commonCorners
  rw [Finset.inter_self, List.toFinset_card_of_nodup h]

/-- The surfaces do not overlap: triangles of different grids, and different triangles of one grid, have no inner points in common; and one
grid has one geometry. -/
structure NoOverlap (selector : Verif.Quad.Selector) (n n' : Nat) (tri tri' : Triangles) : Prop where
  same : selector.identical = true → ∀ e, tri' e = tri e
  apart : ∀ e < n, ∀ t < n', (selector.identical = true → e ≠ t) → ∀ p ∈ Verif.Quad.refTriangle, ∀ q ∈ Verif.Quad.refTriangle,
    refMap (tri e).1 (tri e).2.1 (tri e).2.2 p ≠ refMap (tri' t).1 (tri' t).2.1 (tri' t).2.2 q

/-- For pairs without common corners no order is chosen whose rule has points outside the triangle. -/
def InsideOrders (selector : Verif.Quad.Selector) (n n' : Nat) : Prop :=
  ∀ e < n, ∀ t < n', ∀ d, selector.descriptor e t (-1) = some d → d.topology.type = .Disjoint →
    d.testOrder ∉ outsideOrders ∧ d.trialOrder ∉ outsideOrders

/-- **C99 (nodes)** If the surfaces do not overlap and the five orders are not used, then the nodes of all rules consist of inner points of
the triangles, and these never coincide. -/
theorem C99_nodes (hs : Setup s selector vertexCount testShapeset trialShapeset T U tri tri')
    (hno : NoOverlap selector T.elementCount U.elementCount tri tri') (hin : InsideOrders selector T.elementCount U.elementCount)
    (e t : Nat) (he : e < T.elementCount) (ht : t < U.elementCount) (rule : DoubleRule) (hrule : RuleFor selector e t rule) :
    ∀ n ∈ rule.nodes, n.1 ∈ Verif.Quad.refTriangle ∧ n.2.1 ∈ Verif.Quad.refTriangle ∧
      (surfaceNode tri e n.1).position ≠ (surfaceNode tri' t n.2.1).position := by
  obtain ⟨d, hd, hfill⟩ := hrule
  obtain ⟨Θ, h1, h2⟩ := topology_triangles hs e t he ht
  have htop := descriptor_topology hd
  rw [htop, Option.some.injEq] at h1
  subst h1
  have hm := hs.moderate e he t ht (-1) d hd
  unfold Moderate at hm
  unfold fillDouble at hfill
  have inside : ∀ n ∈ rule.nodes, n.1 ∈ Verif.Quad.refTriangle ∧ n.2.1 ∈ Verif.Quad.refTriangle ∧
      (d.topology.type = .Coincident → n.1 ≠ n.2.1) := by
    by_cases hdj : d.topology.type = .Disjoint
    · rw [if_pos hdj] at hm hfill
      obtain ⟨o1, o2⟩ := hin e he t ht d hd hdj
      obtain ⟨r, a1, -, a2⟩ := C99_regular d.testOrder hm.1 o1
      obtain ⟨r', b1, -, b2⟩ := C99_regular d.trialOrder hm.2 o2
      rw [h2.test, h2.trial] at hfill
      simp only [Nat.cast_ofNat, a1, b1] at hfill
      rw [Outcome.ok.injEq] at hfill
      subst hfill
      intro n hn
      unfold DoubleRule.nodes at hn
      simp only [List.mem_flatMap, List.mem_map] at hn
      obtain ⟨p, hp, q, hq, rfl⟩ := hn
      refine ⟨a2 p hp, b2 q hq, fun h => ?_⟩
      rw [hdj] at h; cases h
    · rw [if_neg hdj] at hm hfill
      obtain ⟨c, hc, hv⟩ := h2.config hdj
      rw [if_pos ⟨h2.test, h2.trial⟩, hc] at hfill
      obtain ⟨rule', g1, g2⟩ := C99_singular c hv _ hm.1 hm.2
      simp only [g1] at hfill
      rw [Outcome.ok.injEq] at hfill
      subst hfill
      intro n hn
      obtain ⟨k1, k2, -, k4⟩ := g2 n hn
      refine ⟨k1, k2, fun hco => k4 ?_⟩
      unfold Verif.Quad.Topology.config at hc
      rw [hco] at hc
      exact (Option.some.inj hc).symm
  intro n hn
  obtain ⟨k1, k2, k3⟩ := inside n hn
  refine ⟨k1, k2, ?_⟩
  by_cases hid : selector.identical = true ∧ e = t
  · obtain ⟨hid, rfl⟩ := hid
    have hg := hs.grids
    rw [hid] at hg
    simp only [if_true] at hg
    have he' : e < selector.test.elementCount := hs.testElements ▸ he
    obtain ⟨Θ, h1, h3, -⟩ := selector.topology_ok hid hg.1 hg.2.1 e e he' he'
    rw [htop, Option.some.injEq] at h1
    subst h1
    obtain ⟨-, h4⟩ := Verif.Quad.C62_triangles _ _ (hg.2.1.1 e he').1 (hg.2.1.1 e he').1 (hg.2.1.1 e he').2 (hg.2.1.1 e he').2
    obtain ⟨-, -, -, -, -, a4, -⟩ := h4 d.topology (Or.inl h3)
    have hco : d.topology.type = .Coincident := a4.mpr (by
      rw [commonCorners_self _ (hg.2.1.1 e he').2, (hg.2.1.1 e he').1])
    intro heq
    refine k3 hco (refMap_inj _ _ _ (hs.testTriangles e he).1.2.2 _ _ ?_)
    have heq : refMap (tri e).1 (tri e).2.1 (tri e).2.2 n.1 = refMap (tri' e).1 (tri' e).2.1 (tri' e).2.2 n.2.1 := heq
    rw [hno.same hid e] at heq
    exact heq
  · exact hno.apart e he t ht (fun h1 h2 => hid ⟨h1, h2⟩) _ k1 _ k2

/-- **C99 (bilinear forms)** If the surfaces do not overlap and the five orders are not used, then the matrix that the assembly yields, in
every execution, is that of the documented bilinear form, approximated by the rules chosen for the pairs of triangles. -/
theorem C99_forms [DecidableEq addr] {F : SurfaceFunction → SurfaceFunction → Node → Node → ℂ} (hD : Documented s.op F)
    (hs : Setup s selector vertexCount testShapeset trialShapeset T U tri tri')
    (hno : NoOverlap selector T.elementCount U.elementCount tri tri') (hin : InsideOrders selector T.elementCount U.elementCount)
    (caching : Bool) :
    ∃ rule : Nat → Nat → DoubleRule, (∀ e < T.elementCount, ∀ t < U.elementCount, RuleFor selector e t (rule e t)) ∧
      ∀ out, s.Assembles selector vertexCount testShapeset trialShapeset T U caching out →
        ∃ M, out = some M ∧ M.rows = T.globalDofCount ∧ M.cols = U.globalDofCount ∧ ∀ a c : Nat → ℂ,
          ∑ i ∈ range M.rows, ∑ j ∈ range M.cols, star (a i) * M.e i j * c j =
            doubleSum tri tri' T.elementCount U.elementCount rule
              (F (functionOf T (fun e => s.shapeset (testShapeset e)) tri a) (functionOf U (fun t => s.shapeset (trialShapeset t)) tri' c)) := by
  obtain ⟨rule, hrule⟩ := exists_rules hs
  refine ⟨rule, hrule, fun out h => ?_⟩
  exact C98_forms hD hs caching rule (fun e he t ht => ⟨hrule e he t ht, fun n hn =>
    (C99_nodes hs hno hin e t he ht _ (hrule e he t ht) n hn).2.2⟩) out h

/-- The entries of a matrix are determined by its values on coefficients. -/
theorem entries_of_forms {m n : Nat} {M : Nat → Nat → ℂ} (i j : Nat) (hi : i < m) (hj : j < n) :
    ∑ i' ∈ range m, ∑ j' ∈ range n, star ((fun x => if x = i then (1 : ℂ) else 0) i') * M i' j' * (fun x => if x = j then (1 : ℂ) else 0) j' = M i j := by
  rw [Finset.sum_eq_single i, Finset.sum_eq_single j]
  · simp
  · intro b _ hb; simp [hb]
  · intro h; exact absurd (Finset.mem_range.mpr hj) h
  · intro b _ hb; simp [hb]
  · intro h; exact absurd (Finset.mem_range.mpr hi) h

/-- **C99 (same form, same matrix)** Operators that stand for the same form (an operator with and without BLAS; Helmholtz operators and
modified Helmholtz operators of the parameter `-ik`; Helmholtz operators of wave number zero and Laplace operators) have the same matrix,
in all executions, with and without caching. -/
theorem C99_same [DecidableEq addr] {s' : Setting addr} {F : SurfaceFunction → SurfaceFunction → Node → Node → ℂ}
    (hD : Documented s.op F) (hD' : Documented s'.op F)
    (hs : Setup s selector vertexCount testShapeset trialShapeset T U tri tri')
    (hs' : Setup s' selector vertexCount testShapeset trialShapeset T U tri tri') (hshape : s'.shapeset = s.shapeset)
    (hno : NoOverlap selector T.elementCount U.elementCount tri tri') (hin : InsideOrders selector T.elementCount U.elementCount)
    (caching caching' : Bool) (out out' : Option (Mx ℂ))
    (h : s.Assembles selector vertexCount testShapeset trialShapeset T U caching out)
    (h' : s'.Assembles selector vertexCount testShapeset trialShapeset T U caching' out') :
    ∃ M M', out = some M ∧ out' = some M' ∧ M.rows = T.globalDofCount ∧ M'.rows = T.globalDofCount ∧ M.cols = U.globalDofCount ∧
      M'.cols = U.globalDofCount ∧ ∀ i < T.globalDofCount, ∀ j < U.globalDofCount, M.e i j = M'.e i j := by
  obtain ⟨rule, hrule⟩ := exists_rules hs
  have hall : ∀ e < T.elementCount, ∀ t < U.elementCount, RuleFor selector e t (rule e t) ∧
      ∀ n ∈ (rule e t).nodes, (surfaceNode tri e n.1).position ≠ (surfaceNode tri' t n.2.1).position :=
    fun e he t ht => ⟨hrule e he t ht, fun n hn => (C99_nodes hs hno hin e t he ht _ (hrule e he t ht) n hn).2.2⟩
  obtain ⟨M, a1, a2, a3, a4⟩ := C98_forms hD hs caching rule hall out h
  obtain ⟨M', b1, b2, b3, b4⟩ := C98_forms hD' hs' caching' rule hall out' h'
  refine ⟨M, M', a1, b1, a2, b2, a3, b3, fun i hi j hj => ?_⟩
  rw [← entries_of_forms (M := M.e) i j hi hj, ← entries_of_forms (M := M'.e) i j hi hj]
  have e1 := a4 (fun x => if x = i then (1 : ℂ) else 0) (fun x => if x = j then (1 : ℂ) else 0)
  have e2 := b4 (fun x => if x = i then (1 : ℂ) else 0) (fun x => if x = j then (1 : ℂ) else 0)
  rw [a2, a3] at e1
  rw [b2, b3, hshape] at e2
  rw [e1, e2]

/-- Where a piecewise linear function is constant on each triangle its surface curl vanishes. -/
theorem constant_curl {V : Assembly.ASpace ℂ} {shapes : Nat → Shapeset} {t : Nat} (hl : shapes t = linearShapeset) (hn : (V.gdofs t).length = 3)
    (c : Nat → ℂ) (z : ℂ) (hz : ∀ p, (functionOf V shapes tri c).value (surfaceNode tri t p) = z) (d : Nat) (p : ℝ × ℝ) :
    (functionOf V shapes tri c).curl d (surfaceNode tri t p) = 0 := by
  have h0 := hz (0, 0)
  have h1 := hz (1, 0)
  have h2 := hz (0, 1)
  unfold functionOf at h0 h1 h2 ⊢
  dsimp only at h0 h1 h2 ⊢
  rw [nodeValue_surface, hl, hn] at h0 h1 h2
  rw [nodeValue_surface, hl, hn]
  simp only [Finset.sum_range_succ, Finset.sum_range_zero, zero_add, linearShapeset, scalarValueT] at h0 h1 h2 ⊢
  norm_num at h0 h1 h2
  rw [h0, h1, h2, ← mul_add, ← mul_add]
  norm_cast
  rcases d with _ | _ | _ | d <;>
    simp [surfaceCurlT, surfaceCurl, comp] <;> right <;> ring

/-- **C99 (constants)** The Laplace hypersingular operator takes functions that are constant on each triangle (on a closed surface the
constants are in the space) to zero; it gives zero against such test functions. -/
theorem C99_constants [DecidableEq addr] (blas : Bool) (hop : s.op = laplaceHypersingular blas)
    (hs : Setup s selector vertexCount testShapeset trialShapeset T U tri tri')
    (hno : NoOverlap selector T.elementCount U.elementCount tri tri') (hin : InsideOrders selector T.elementCount U.elementCount)
    (hT : ∀ e < T.elementCount, s.shapeset (testShapeset e) = linearShapeset)
    (hU : ∀ t < U.elementCount, s.shapeset (trialShapeset t) = linearShapeset)
    (caching : Bool) (out : Option (Mx ℂ)) (h : s.Assembles selector vertexCount testShapeset trialShapeset T U caching out) :
    ∃ M, out = some M ∧
      (∀ c : Nat → ℂ, (∀ t < U.elementCount, ∃ z, ∀ p,
          (functionOf U (fun t => s.shapeset (trialShapeset t)) tri' c).value (surfaceNode tri' t p) = z) →
        ∀ i < M.rows, ∑ j ∈ range M.cols, M.e i j * c j = 0) ∧
      (∀ a : Nat → ℂ, (∀ e < T.elementCount, ∃ z, ∀ p,
          (functionOf T (fun e => s.shapeset (testShapeset e)) tri a).value (surfaceNode tri e p) = z) →
        ∀ j < M.cols, ∑ i ∈ range M.rows, star (a i) * M.e i j = 0) := by
  have hD : Documented s.op (hypersingularForm 0) := hop ▸ Documented.laplaceHypersingular blas
  obtain ⟨rule, -, hf⟩ := C99_forms hD hs hno hin caching
  obtain ⟨M, h1, h2, h3, h4⟩ := hf out h
  refine ⟨M, h1, fun c hc i hi => ?_, fun a ha j hj => ?_⟩
  · have := h4 (fun x => if x = i then (1 : ℂ) else 0) c
    have e1 : ∑ i' ∈ range M.rows, ∑ j ∈ range M.cols, star ((fun x => if x = i then (1 : ℂ) else 0) i') * M.e i' j * c j =
        ∑ j ∈ range M.cols, M.e i j * c j := by
      rw [Finset.sum_eq_single i]
      · simp
      · intro b _ hb; simp [hb]
      · intro h; exact absurd (Finset.mem_range.mpr hi) h
    rw [e1] at this
    rw [this]
    unfold doubleSum pairSum
    refine Finset.sum_eq_zero fun e _ => Finset.sum_eq_zero fun t ht => ?_
    have ht := Finset.mem_range.mp ht
    obtain ⟨z, hz⟩ := hc t ht
    have hk := fun d p => constant_curl (shapes := fun t => s.shapeset (trialShapeset t)) (tri := tri') (hU t ht)
      (by rw [hs.trialSizes t ht, hU t ht]; rfl) c z hz d p
    refine List.sum_eq_zero fun x hx => ?_
    obtain ⟨n, -, rfl⟩ := List.mem_map.mp hx
    unfold hypersingularForm
    rw [hk, hk, hk]
    simp
  · have := h4 a (fun x => if x = j then (1 : ℂ) else 0)
    have e1 : ∑ i ∈ range M.rows, ∑ j' ∈ range M.cols, star (a i) * M.e i j' * (fun x => if x = j then (1 : ℂ) else 0) j' =
        ∑ i ∈ range M.rows, star (a i) * M.e i j := by
      refine Finset.sum_congr rfl fun i _ => ?_
      rw [Finset.sum_eq_single j]
      · simp
      · intro b _ hb; simp [hb]
      · intro h; exact absurd (Finset.mem_range.mpr hj) h
    rw [e1] at this
    rw [this]
    unfold doubleSum pairSum
    refine Finset.sum_eq_zero fun e he => Finset.sum_eq_zero fun t _ => ?_
    have he := Finset.mem_range.mp he
    obtain ⟨z, hz⟩ := ha e he
    have hk := fun d p => constant_curl (shapes := fun e => s.shapeset (testShapeset e)) (tri := tri) (hT e he)
      (by rw [hs.testSizes e he, hT e he]; rfl) a z hz d p
    refine List.sum_eq_zero fun x hx => ?_
    obtain ⟨n, -, rfl⟩ := List.mem_map.mp hx
    unfold hypersingularForm
    rw [hk, hk, hk]
    simp

/-- **C99 (counterexample)** Two grid objects with a triangle in common: the pair is treated as disjoint, and when the orders agree the
rule has nodes whose two points coincide, so that the kernels are evaluated at their singularity. -/
theorem C99_counterexample_two_grids (hs : Setup s selector vertexCount testShapeset trialShapeset T U tri tri')
    (hid : selector.identical = false) (e t : Nat) (he : e < T.elementCount) (ht : t < U.elementCount) (htri : tri' t = tri e)
    (hshape : selector.testShapeOrder e = selector.trialShapeOrder t) :
    ∃ rule, RuleFor selector e t rule ∧ ∃ n ∈ rule.nodes, (surfaceNode tri e n.1).position = (surfaceNode tri' t n.2.1).position := by
  obtain ⟨D, o, h1, h2, -, h4, h5⟩ := Verif.Quad.C63_two_grids selector hid hs.serves e t (-1)
  obtain ⟨rule, ⟨d, h6, h7⟩, -⟩ := C98_rules hs e t he ht
  rw [h1, Option.some.injEq] at h6
  subst h6
  refine ⟨rule, ⟨D, h1, h7⟩, ?_⟩
  have hm := hs.moderate e he t ht (-1) D h1
  unfold Moderate at hm
  rw [if_pos h2] at hm
  obtain ⟨Θ, g1, g2⟩ := topology_triangles hs e t he ht
  rw [descriptor_topology h1, Option.some.injEq] at g1
  subst g1
  have horder : D.testOrder = D.trialOrder := by
    unfold Verif.Quad.QuadOpts.OrderFor at h4 h5
    cases hr : o.relative with
    | true => rw [h4.1 hr, h5.1 hr, hshape]
    | false => rw [h4.2 hr, h5.2 hr]
  obtain ⟨r, a1, a2⟩ := triangle_nonempty D.testOrder hm.1
  unfold fillDouble at h7
  rw [if_pos h2, g2.test, g2.trial, ← horder] at h7
  simp only [Nat.cast_ofNat, a1] at h7
  rw [Outcome.ok.injEq] at h7
  subst h7
  obtain ⟨q, hq⟩ := List.exists_mem_of_ne_nil r a2
  refine ⟨((q.x, q.y), (q.x, q.y), q.w * q.w), ?_, ?_⟩
  · unfold DoubleRule.nodes
    exact List.mem_flatMap.mpr ⟨q, hq, List.mem_map.mpr ⟨q, hq, rfl⟩⟩
  · unfold surfaceNode
    rw [htri]

/-! ### Examples -/

noncomputable section

/-- A mesh of triangles. -/
def meshOf (tri : Triangles) : FMesh where
  cornerCount := fun _ => 3
  getData := fun e _ => getData (tri e).1 (tri e).2.1 (tri e).2.2
  local2global := fun e => refMap (tri e).1 (tri e).2.1 (tri e).2.2
  domainIndex := fun _ => 0

/-- Two triangles with a common edge. -/
def exampleGrid : Verif.Quad.RawGeometry where
  vertex := fun v => if v = 0 then ![0, 0, 0] else if v = 1 then ![1, 0, 0] else if v = 2 then ![0, 1, 0] else ![0, 0, 1]
  corners := fun e => if e = 0 then [0, 1, 2] else [0, 1, 3]
  elementCount := 2

/-- The triangles of another grid: those of the first one, shifted by 9. -/
def shifted : Triangles := fun e => (⟨0, 9, 0⟩, ⟨1, 9, 0⟩, if e = 0 then ⟨0, 10, 0⟩ else ⟨0, 9, 1⟩)

/-- The other grid. -/
def shiftedGrid : Verif.Quad.RawGeometry where
  vertex := fun v => if v = 0 then ![0, 9, 0] else if v = 1 then ![1, 9, 0] else if v = 2 then ![0, 10, 0] else ![0, 9, 1]
  corners := fun e => if e = 0 then [0, 1, 2] else [0, 1, 3]
  elementCount := 2

/-- The default options, for functions of degree one; one grid or two. -/
def exampleSelector (identical : Bool) : Verif.Quad.Selector :=
  ⟨exampleGrid, if identical then exampleGrid else shiftedGrid, identical, fun _ => 1, fun _ => 1, [(⊤, {})], {}⟩

/-- An operator on continuous piecewise linear functions. -/
def exampleSetting (op : BoundaryOperator) (memory : Memory) (tri' : Triangles) : Setting Nat :=
  ⟨op, meshOf exampleTriangles, meshOf tri', fun _ => linearShapeset, memory⟩

theorem example_triangle (e : Nat) : areaVector (exampleTriangles e).1 (exampleTriangles e).2.1 (exampleTriangles e).2.2 ≠ ⟨0, 0, 0⟩ := by
  intro h
  have h1 := congrArg P3.z h
  have h2 := congrArg P3.y h
  by_cases he : e = 0
  · simp [areaVector, P3.sub, P3.cross, exampleTriangles, he] at h1
  · simp [areaVector, P3.sub, P3.cross, exampleTriangles, he] at h2

theorem shifted_triangle (e : Nat) : areaVector (shifted e).1 (shifted e).2.1 (shifted e).2.2 ≠ ⟨0, 0, 0⟩ := by
  intro h
  have h1 := congrArg P3.z h
  have h2 := congrArg P3.y h
  by_cases he : e = 0
  · simp [areaVector, P3.sub, P3.cross, shifted, he] at h1
    norm_num at h1
  · simp [areaVector, P3.sub, P3.cross, shifted, he] at h2

theorem exampleGrid_triangular : exampleGrid.Triangular := by
  unfold Verif.Quad.RawGeometry.Triangular exampleGrid
  decide

theorem example_moderate (identical : Bool) (e t : Nat) (nominal : ℝ) (d : Verif.Quad.Descriptor)
    (h : (exampleSelector identical).descriptor e t nominal = some d) :
    Moderate d ∧ (d.topology.type = .Disjoint → d.testOrder = 1 ∧ d.trialOrder = 1) := by
  unfold Verif.Quad.Selector.descriptor at h
  split at h
  · cases h
  · rename_i Θ hΘ
    split at h
    · rename_i hd
      simp [Verif.Quad.Selector.regularOrders, Verif.Quad.regularOptions, exampleSelector, Verif.Quad.QuadOpts.quadratureOrder] at h
      subst h
      refine ⟨?_, fun _ => ⟨rfl, rfl⟩⟩
      unfold Moderate
      rw [if_pos hd]
      exact ⟨by norm_num, by norm_num⟩
    · rename_i hd
      cases h
      refine ⟨?_, fun h => absurd h hd⟩
      unfold Moderate
      rw [if_neg hd]
      simp [exampleSelector, Verif.Quad.QuadOpts.quadratureOrder]

theorem example_setup (op : BoundaryOperator) (memory : Memory) (identical : Bool) :
    Setup (exampleSetting op memory (if identical then exampleTriangles else shifted)) (exampleSelector identical) 4 id id
      exampleSpace exampleSpace exampleTriangles (if identical then exampleTriangles else shifted) where
  testSpace := exampleSpace_valid
  trialSpace := exampleSpace_valid
  testElements := rfl
  trialElements := by cases identical <;> rfl
  testSizes := by
    intro e he
    have : e < 2 := he
    rcases (by omega : e = 0 ∨ e = 1) with rfl | rfl <;> rfl
  trialSizes := by
    intro e he
    have : e < 2 := he
    rcases (by omega : e = 0 ∨ e = 1) with rfl | rfl <;> rfl
  testTriangles := fun e _ => ⟨⟨rfl, rfl, example_triangle e⟩, fun _ => rfl⟩
  trialTriangles := fun e _ => ⟨⟨rfl, rfl, by cases identical <;> [exact shifted_triangle e; exact example_triangle e]⟩, fun _ => rfl⟩
  serves := Verif.Quad.serves_default
  grids := by
    cases identical with
    | true =>
      refine ⟨rfl, exampleGrid_triangular, ?_⟩
      intro e he
      by_cases h : e = 0 <;> simp [exampleSelector, exampleGrid, h]
    | false =>
      constructor
      · intro e _
        by_cases h : e = 0 <;> simp [exampleSelector, exampleGrid, h]
      · intro e _
        by_cases h : e = 0 <;> simp [exampleSelector, shiftedGrid, h]
  moderate := fun e _ t _ nominal d hd => (example_moderate identical e t nominal d hd).1

theorem example_noOverlap (identical : Bool) :
    NoOverlap (exampleSelector identical) 2 2 exampleTriangles (if identical then exampleTriangles else shifted) where
  same := fun h e => by
    have : identical = true := h
    rw [this]; rfl
  apart := by
    intro e he t ht hne p hp q hq h
    have hy := congrArg P3.y h
    obtain ⟨p1, p2, p3⟩ := hp
    obtain ⟨q1, q2, q3⟩ := hq
    cases identical with
    | true =>
      have hne := hne rfl
      rcases (by omega : e = 0 ∨ e = 1) with rfl | rfl <;> rcases (by omega : t = 0 ∨ t = 1) with rfl | rfl
      · exact hne rfl
      · simp [refMap, exampleTriangles] at hy
        linarith
      · simp [refMap, exampleTriangles] at hy
        linarith
      · exact hne rfl
    | false =>
      rcases (by omega : e = 0 ∨ e = 1) with rfl | rfl <;> rcases (by omega : t = 0 ∨ t = 1) with rfl | rfl <;>
        (simp [refMap, exampleTriangles, shifted] at hy <;> linarith)

/-- Non-vacuity of C98 and C99: for every operator, with one grid of two triangles that touch and with two grids, the hypotheses hold,
there is an execution, and every execution yields a matrix. -/
example (op : BoundaryOperator) (memory : Memory) (realKernel blas : Bool) (k : ℂ) (hop : op ∈ boundaryOperators realKernel blas k)
    (identical caching : Bool) :
    NoOverlap (exampleSelector identical) 2 2 exampleTriangles (if identical then exampleTriangles else shifted) ∧
    InsideOrders (exampleSelector identical) 2 2 ∧
    ∃ out, (exampleSetting op memory (if identical then exampleTriangles else shifted)).Assembles (exampleSelector identical) 4 id id
      exampleSpace exampleSpace caching out ∧ ∃ M, out = some M ∧ M.rows = 4 ∧ M.cols = 4 := by
  refine ⟨example_noOverlap identical, ?_, ?_⟩
  · intro e _ t _ d hd hdj
    obtain ⟨h1, h2⟩ := (example_moderate identical e t (-1) d hd).2 hdj
    rw [h1, h2]
    decide
  · obtain ⟨⟨out, h⟩, h2⟩ := C98_succeeds realKernel blas k hop (example_setup op memory identical) caching
    exact ⟨out, h, h2 out h⟩

/-- The constant function is in the space of the example. -/
example (e : Nat) (he : e < 2) (p : ℝ × ℝ) :
    (functionOf exampleSpace (fun _ => linearShapeset) exampleTriangles fun _ => 1).value (surfaceNode exampleTriangles e p) = 1 := by
  have h : ∀ b < 3, localCoefficient exampleSpace (fun _ => 1) e b = 1 := by
    intro b hb
    unfold localCoefficient
    rw [show exampleSpace.globalDofCount = 4 from rfl]
    rcases (by omega : e = 0 ∨ e = 1) with rfl | rfl <;> rcases (by omega : b = 0 ∨ b = 1 ∨ b = 2) with rfl | rfl | rfl <;>
      (simp only [Finset.sum_range_succ, Finset.sum_range_zero]
       simp [exampleSpace, Assembly.weighted, DofMaps.At, Assembly.ASpace.weight, DofMaps.getGlobalDofs])
  unfold functionOf
  dsimp only
  rw [nodeValue_surface, show (exampleSpace.gdofs e).length = 3 by
    rcases (by omega : e = 0 ∨ e = 1) with rfl | rfl <;> rfl]
  simp only [Finset.sum_range_succ, Finset.sum_range_zero, zero_add, h 0 (by omega), h 1 (by omega), h 2 (by omega), linearShapeset, scalarValueT]
  norm_num
  ring

/-- The same triangles given as two grid objects: some node consists of one point. -/
example (op : BoundaryOperator) (memory : Memory) :
    let selector : Verif.Quad.Selector := ⟨exampleGrid, exampleGrid, false, fun _ => 1, fun _ => 1, [(⊤, {})], {}⟩
    Setup (exampleSetting op memory exampleTriangles) selector 4 id id exampleSpace exampleSpace exampleTriangles exampleTriangles ∧
    ∃ rule, RuleFor selector 0 0 rule ∧ ∃ n ∈ rule.nodes,
      (surfaceNode exampleTriangles 0 n.1).position = (surfaceNode exampleTriangles 0 n.2.1).position := by
  intro selector
  have hs : Setup (exampleSetting op memory exampleTriangles) selector 4 id id exampleSpace exampleSpace exampleTriangles exampleTriangles := by
    have h := example_setup op memory true
    exact { h with
      grids := by
        constructor <;>
        · intro e _
          by_cases h : e = 0 <;> simp [selector, exampleGrid, h]
      moderate := by
        intro e _ t _ nominal d hd
        simp [Verif.Quad.Selector.descriptor, Verif.Quad.Selector.topology, Verif.Quad.Selector.regularOrders, Verif.Quad.regularOptions, selector,
          Verif.Quad.QuadOpts.quadratureOrder] at hd
        subst hd
        unfold Moderate
        rw [if_pos rfl]
        exact ⟨by norm_num, by norm_num⟩ }
  exact ⟨hs, C99_counterexample_two_grids hs rfl 0 0 (by decide) (by decide) rfl rfl⟩

end

end Verif.Bio
