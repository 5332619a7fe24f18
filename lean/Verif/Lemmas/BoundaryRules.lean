import Verif.Lemmas.BoundaryForms
import Verif.Props.Quadrature
import Verif.Props.Duffy
import Verif.Props.Assembly
/-
Quadrature rules exist for all pairs of elements; the matrix that the assembly yields.
-/
namespace Verif.Bio
open Verif.Grid Verif.Space Verif.Shape Verif.SingleQuad Verif.HMat Verif.LocalOps Verif.GridFun Verif.Kernel Verif.Pot Verif.Integral Verif.Integrator
open Finset

/-! ### Rules -/

theorem mapM_range {β : Type} (n : Nat) (f : Nat → Option β) (x : Nat → β) (h : ∀ i < n, f i = some (x i)) :
    (List.range n).mapM f = some ((List.range n).map x) := by
  have : ∀ l : List Nat, (∀ i ∈ l, f i = some (x i)) → l.mapM f = some (l.map x) := by
    intro l hl
    induction l with
    | nil => rfl
    | cons a l ih =>
      rw [List.mapM_cons, hl a (by simp), ih fun i hi => hl i (by simp [hi])]
      rfl
  exact this _ fun i hi => h i (List.mem_range.mp hi)

/-- The basic rule on the square as an argument of the construction of singular rules. -/
noncomputable def squareRule (square : List QPoint) : Verif.Quad.Rule ℝ :=
  ⟨square.length, fun i => ((square.map fun q => (q.x, q.y)).getD i (0, 0)), fun i => (square.map QPoint.w).getD i 0⟩

theorem fillSingularRule_ok (c : Verif.Quad.Config) (hc : c.Valid) (order : Int) (h0 : 0 ≤ order) (h1 : order ≤ 39) :
    ∃ (square : List QPoint) (x y : Nat → ℝ × ℝ), fillSingle 4 order = .ok square ∧
      (∀ col < (Verif.Quad.fillSingular c (squareRule square)).total,
        (Verif.Quad.fillSingular c (squareRule square)).test col = some (x col) ∧
        (Verif.Quad.fillSingular c (squareRule square)).trial col = some (y col)) ∧
      fillSingularRule c order = .ok (.nontensor
        ((List.range (Verif.Quad.fillSingular c (squareRule square)).total).map x)
        ((List.range (Verif.Quad.fillSingular c (squareRule square)).total).map y)
        ((List.range (Verif.Quad.fillSingular c (squareRule square)).total).map
          (Verif.Quad.fillSingular c (squareRule square)).weight)) := by
  obtain ⟨l, hf, -⟩ := fill_quadrangle order h1
  have hN : ¬ Int.tdiv (order + 1 + 1) 2 ≤ 0 := by
    have := (half_spec (order + 1 + 1)).1 (by omega)
    omega
  obtain ⟨x, y, hxy, -⟩ := Verif.Quad.C61_sum c hc (squareRule (l.map rowPoint15)) (fun _ _ => (0 : ℝ))
  refine ⟨_, x, y, hf, hxy, ?_⟩
  have hf' := hf
  unfold fillSingle at hf'
  rw [if_neg (by decide), if_pos rfl] at hf'
  dsimp only at hf'
  rw [max_eq_left (by omega)] at hf'
  unfold fillSingularRule
  dsimp only
  rw [if_neg hN]
  cases ht : tensorRule (Int.tdiv (order + 1 + 1) 2).toNat with
  | undefined => rw [ht] at hf'; cases hf'
  | throws m => rw [ht] at hf'; cases hf'
  | ok rule =>
    rw [ht] at hf'
    dsimp only at hf' ⊢
    rw [hf']
    dsimp only
    change (match (List.range (Verif.Quad.fillSingular c (squareRule (l.map rowPoint15))).total).mapM
        (Verif.Quad.fillSingular c (squareRule (l.map rowPoint15))).test,
      (List.range (Verif.Quad.fillSingular c (squareRule (l.map rowPoint15))).total).mapM
        (Verif.Quad.fillSingular c (squareRule (l.map rowPoint15))).trial with
      | some test, some trial => Outcome.ok (DoubleRule.nontensor test trial _)
      | _, _ => _) = _
    rw [mapM_range _ _ x fun i hi => (hxy i hi).1, mapM_range _ _ y fun i hi => (hxy i hi).2]
    rfl

/-- The topologies of pairs of triangles. -/
structure TriangleTopology (T : Verif.Quad.Topology) : Prop where
  test : T.testVertexCount = 3
  trial : T.trialVertexCount = 3
  config : T.type ≠ .Disjoint → ∃ c, T.config = some c ∧ c.Valid

/-- A rule whose lists have the same length. -/
def DoubleRule.Regular : DoubleRule → Prop
  | .tensor _ _ => True
  | .nontensor test trial weights => test.length = weights.length ∧ trial.length = weights.length

theorem fillDouble_ok (d : Verif.Quad.Descriptor) (hd : TriangleTopology d.topology) (hm : Moderate d) :
    ∃ rule, fillDouble d = .ok rule ∧ rule.Regular := by
  unfold Moderate at hm
  unfold fillDouble
  by_cases h : d.topology.type = .Disjoint
  · rw [if_pos h] at hm ⊢
    obtain ⟨r, -, h1, -⟩ := fill_triangle d.testOrder hm.1
    obtain ⟨r', -, h2, -⟩ := fill_triangle d.trialOrder hm.2
    rw [hd.test, hd.trial]
    simp only [Nat.cast_ofNat, h1, h2]
    exact ⟨_, rfl, trivial⟩
  · rw [if_neg h] at hm ⊢
    obtain ⟨c, hc, hv⟩ := hd.config h
    rw [if_pos ⟨hd.test, hd.trial⟩, hc]
    obtain ⟨square, x, y, -, -, h3⟩ := fillSingularRule_ok c hv _ hm.1 hm.2
    exact ⟨_, h3, by simp [DoubleRule.Regular]⟩

variable {addr : Type} {s : Setting addr} {selector : Verif.Quad.Selector} {vertexCount : Nat} {testShapeset trialShapeset : Nat → addr}
  {T U : Assembly.ASpace ℂ} {tri tri' : Triangles}

theorem topology_triangles (hs : Setup s selector vertexCount testShapeset trialShapeset T U tri tri') (e t : Nat)
    (he : e < T.elementCount) (ht : t < U.elementCount) : ∃ Θ, selector.topology e t = some Θ ∧ TriangleTopology Θ := by
  have hg := hs.grids
  cases hid : selector.identical with
  | false =>
    rw [hid] at hg
    simp only [Bool.false_eq_true, if_false] at hg
    unfold Verif.Quad.Selector.topology
    rw [hid]
    exact ⟨_, rfl, hg.1 e he, hg.2 t ht, fun h => absurd rfl h⟩
  | true =>
    rw [hid] at hg
    simp only [if_true] at hg
    have he' : e < selector.test.elementCount := hs.testElements ▸ he
    have ht' : t < selector.test.elementCount := by rw [← hg.1, ← hs.trialElements]; exact ht
    obtain ⟨Θ, h1, h2, -⟩ := selector.topology_ok hid hg.1 hg.2.1 e t he' ht'
    obtain ⟨-, h3⟩ := Verif.Quad.C62_triangles _ _ (hg.2.1.1 e he').1 (hg.2.1.1 t ht').1 (hg.2.1.1 e he').2 (hg.2.1.1 t ht').2
    obtain ⟨a1, a2, -, -, -, -, a3, -⟩ := h3 Θ (Or.inl h2)
    refine ⟨Θ, h1, a1, a2, fun hne => ?_⟩
    have : ∃ c, Θ.config = some c := by
      unfold Verif.Quad.Topology.config
      cases hty : Θ.type with
      | Disjoint => exact absurd hty hne
      | SharedVertex => exact ⟨_, rfl⟩
      | SharedEdge => exact ⟨_, rfl⟩
      | Coincident => exact ⟨_, rfl⟩
    obtain ⟨c, hc⟩ := this
    exact ⟨c, hc, (a3 c hc).1⟩

theorem descriptor_topology {e t : Nat} {nominal : ℝ} {d : Verif.Quad.Descriptor} (h : selector.descriptor e t nominal = some d) :
    selector.topology e t = some d.topology := by
  unfold Verif.Quad.Selector.descriptor at h
  split at h
  · cases h
  · rename_i Θ hΘ
    rw [hΘ]
    split at h
    · obtain ⟨o, -, rfl⟩ := Option.map_eq_some_iff.mp h
      rfl
    · cases h
      rfl

theorem defaultReady (hs : Setup s selector vertexCount testShapeset trialShapeset T U tri tri') :
    (LocalAsm.defaultAssembler selector vertexCount testShapeset trialShapeset fun _ _ _ _ _ => (⟨0, 0, fun _ _ => 0⟩ : Mx ℂ)).Ready :=
  LocalAsm.C64_default_ready _ _ _ _ _ hs.serves fun hid => by
    have hg := hs.grids
    rw [hid] at hg
    simpa using hg

theorem select_eq (hs : Setup s selector vertexCount testShapeset trialShapeset T U tri tri') (e t : Nat)
    (he : e < T.elementCount) (ht : t < U.elementCount) (nominal : ℝ) :
    ∃ d rule, selector.descriptor e t nominal = some d ∧ fillDouble d = .ok rule ∧ rule.Regular ∧
      (s.assembler selector vertexCount testShapeset trialShapeset).select e t nominal = some d := by
  have := (defaultReady hs).selects e (by rw [hs.testElements] at he; exact he) t (by rw [hs.trialElements] at ht; exact ht) nominal
  obtain ⟨d, hd⟩ := Option.isSome_iff_exists.mp this
  have hd : selector.descriptor e t nominal = some d := hd
  obtain ⟨Θ, h1, h2⟩ := topology_triangles hs e t he ht
  rw [descriptor_topology hd, Option.some.injEq] at h1
  obtain ⟨rule, h3, h4⟩ := fillDouble_ok d (h1 ▸ h2) (hs.moderate e he t ht nominal d hd)
  refine ⟨d, rule, hd, h3, h4, ?_⟩
  unfold Setting.assembler
  simp only [hd, h3]

theorem ready (hs : Setup s selector vertexCount testShapeset trialShapeset T U tri tri') :
    (s.assembler selector vertexCount testShapeset trialShapeset).Ready where
  same := (defaultReady hs).same
  corners := (defaultReady hs).corners
  selects := fun e he t ht nominal => by
    obtain ⟨d, _, _, _, _, h⟩ := select_eq hs e t (hs.testElements ▸ he) (hs.trialElements ▸ ht) nominal
    rw [h]; rfl
  adjacent := fun hid e he t ht htouch nominal => by
    have : selector.descriptor e t nominal = selector.descriptor e t (-1) := (defaultReady hs).adjacent hid e he t ht htouch nominal
    unfold Setting.assembler
    simp only [this]

/-! ### The matrix -/

theorem matrix_eq (hop : s.op.Sound) (rule : DoubleRule) (hr : rule.Regular) (a a' : addr) (e t : Nat) :
    (s.matrix rule a a' e t).rows = (s.shapeset a).size ∧ (s.matrix rule a a' e t).cols = (s.shapeset a').size ∧
    ∀ i < (s.shapeset a).size, ∀ j < (s.shapeset a').size, (s.matrix rule a a' e t).e i j = s.localSum rule.nodes a a' e t i j := by
  cases rule with
  | tensor test trial =>
    exact ⟨rfl, rfl, fun i hi j hj => separable_entries hop test trial a a' none none e t i j hi hj⟩
  | nontensor test trial weights =>
    exact ⟨rfl, rfl, fun i hi j hj => nonseparable_entries hop test trial weights hr.1 hr.2 a a' none none e t i j hi hj⟩

theorem integrals_eq [DecidableEq addr] (hs : Setup s selector vertexCount testShapeset trialShapeset T U tri tri') (e t : Nat)
    (he : e < T.elementCount) (ht : t < U.elementCount) {rule : DoubleRule} (hr : RuleFor selector e t rule) :
    rule.Regular ∧ (s.assembler selector vertexCount testShapeset trialShapeset).integrals e t (-1) =
      some (s.matrix rule (testShapeset e) (trialShapeset t) e t) := by
  obtain ⟨d, rule', h1, h2, h3, h4⟩ := select_eq hs e t he ht (-1)
  obtain ⟨d', g1, g2⟩ := hr
  have : d = d' := by rw [h1] at g1; exact Option.some.inj g1
  subst this
  have : rule' = rule := by rw [h2] at g2; exact Outcome.ok.inj g2
  subst this
  refine ⟨h3, ?_⟩
  unfold LocalAsm.Assembler.integrals
  rw [h4, Option.map_some]
  congr 1
  show (match fillDouble d with
    | .ok rule => s.matrix rule
    | _ => fun _ _ _ _ => ⟨0, 0, fun _ _ => 0⟩) (testShapeset e) (trialShapeset t) e t = _
  rw [h2]

theorem at_contributes {V : Assembly.ASpace ℂ} {e a i : Nat} (h : V.maps.At ⟨e, a⟩ i) : Assembly.contributes (V.gdofs e) = true := by
  unfold Assembly.contributes
  rw [List.any_eq_true]
  exact ⟨i, List.mem_of_getElem? h, by simp⟩

/-- Every outcome is a matrix, with the sums of the local integrals as entries. -/
theorem assembles_entries [DecidableEq addr] (hop : s.op.Sound)
    (hs : Setup s selector vertexCount testShapeset trialShapeset T U tri tri') (caching : Bool)
    (rule : Nat → Nat → DoubleRule) (hrule : ∀ e < T.elementCount, ∀ t < U.elementCount, RuleFor selector e t (rule e t))
    (out : Option (Mx ℂ)) (h : s.Assembles selector vertexCount testShapeset trialShapeset T U caching out) :
    ∃ M, out = some M ∧ M.rows = T.globalDofCount ∧ M.cols = U.globalDofCount ∧ ∀ i j : Nat, i < M.rows → j < M.cols →
      M.e i j = Assembly.weakFormEntry T U
        (fun e t a b => s.localSum (rule e t).nodes (testShapeset e) (trialShapeset t) e t a b) i j := by
  obtain ⟨r, hr, h⟩ := h
  have hA := ready hs
  obtain ⟨cache, rfl, -⟩ := LocalAsm.C64_cache _ hA caching r hr
  dsimp only at h
  have inT : ∀ e ∈ Assembly.testIndices T, e < T.elementCount := fun e he => List.mem_range.mp (List.mem_filter.mp he).1
  have list := fun (t : Nat) (ht : t < U.elementCount) (ord : List (Option (Verif.Quad.Descriptor × addr))) (init : Nat → Mx ℂ)
      (hv : Visits (s.assembler selector vertexCount testShapeset trialShapeset) cache (Assembly.testIndices T) t ord) =>
    LocalAsm.C64_list _ hA caching cache hr .TEST_TRIAL (Assembly.testIndices T) t
    (fun a ha => ⟨show a < selector.test.elementCount from hs.testElements ▸ inT a ha,
      show t < selector.trial.elementCount from hs.trialElements ▸ ht⟩) none (-1) ord hv init
  rcases h with ⟨-, t, ht, order, init, hv, hn⟩ | ⟨form, hform, hrun⟩
  · obtain ⟨r, h1, -⟩ := list t (List.mem_range.mp (List.mem_filter.mp ht).1) order init hv
    rw [hn] at h1
    cases h1
  · obtain ⟨M, h1, h2, h3, h4⟩ := Assembly.C45_dense_assembly T U hs.testSpace hs.trialSpace form out hrun
    refine ⟨M, h1, h2, h3, fun i j hi hj => ?_⟩
    rw [h4 i j hi hj]
    unfold Assembly.weakFormEntry
    refine Finset.sum_congr rfl fun e he => Finset.sum_congr rfl fun a ha => Finset.sum_congr rfl fun t ht =>
      Finset.sum_congr rfl fun b hb => ?_
    have he := Finset.mem_range.mp he
    have ht := Finset.mem_range.mp ht
    have ha := Finset.mem_range.mp ha
    have hb := Finset.mem_range.mp hb
    by_cases hat : T.maps.At ⟨e, a⟩ i ∧ U.maps.At ⟨t, b⟩ j
    · rw [if_pos hat, if_pos hat]
      have ct := at_contributes hat.1
      have cu := at_contributes hat.2
      obtain ⟨order, init, r, hv, hr', hf⟩ := hform t (List.mem_filter.mpr ⟨List.mem_range.mpr ht, cu⟩)
      obtain ⟨r', g1, g2⟩ := list t ht order init hv
      rw [hr', Option.some.injEq] at g1
      subst g1
      obtain ⟨n, hn, hne⟩ := List.getElem_of_mem (show e ∈ Assembly.testIndices T from List.mem_filter.mpr ⟨List.mem_range.mpr he, ct⟩)
      obtain ⟨m, m1, m2⟩ := g2 n hn
      obtain ⟨hreg, hint⟩ := integrals_eq hs e t he ht (hrule e he t ht)
      have m1' : (s.assembler selector vertexCount testShapeset trialShapeset).integrals e t (-1) = some m := by
        rw [← hne]; exact m1
      rw [hint, Option.some.injEq] at m1'
      have := hf n hn a b
      rw [hne] at this
      rw [this, m2]
      unfold LocalAsm.slice
      dsimp only
      rw [← m1', (matrix_eq hop _ hreg _ _ e t).2.2 a (hs.testSizes e he ▸ ha) b (hs.trialSizes t ht ▸ hb)]
    · rw [if_neg hat, if_neg hat]

end Verif.Bio
