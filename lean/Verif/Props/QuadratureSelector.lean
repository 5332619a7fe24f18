import Verif.Model.QuadratureSelector
import Verif.Props.PairTopology
import Mathlib.Tactic.Linarith
import Mathlib.Tactic.NormNum
import Mathlib.Tactic.FinCases
/-
Property C63: the accuracy options and the choice of quadrature rules.
-/
namespace Verif.Quad

/-! ### The accuracy options -/

/-- The lookup in a list sorted by thresholds finds the smallest threshold that is not below the distance. -/
theorem regularOptions_sorted (l : Ranges) (hs : l.Pairwise fun a b => a.1 ≤ b.1) (d : ℝ) (o : QuadOpts)
    (h : regularOptions l d = some o) :
    ∃ p ∈ l, p.2 = o ∧ (d : WithTop ℝ) ≤ p.1 ∧ ∀ q ∈ l, (d : WithTop ℝ) ≤ q.1 → p.1 ≤ q.1 := by
  unfold regularOptions at h
  rw [Option.map_eq_some_iff] at h
  obtain ⟨p, hp, rfl⟩ := h
  refine ⟨p, List.mem_of_find?_eq_some hp, rfl, by simpa using List.find?_some hp, ?_⟩
  obtain ⟨-, as, bs, rfl, has⟩ := List.find?_eq_some_iff_append.mp hp
  intro q hq hd
  rcases List.mem_append.mp hq with hq | hq
  · have := has q hq
    simp [hd] at this
  · rcases List.mem_cons.mp hq with rfl | hq
    · exact le_rfl
    · rw [List.pairwise_append, List.pairwise_cons] at hs
      exact hs.2.1.1 q hq

theorem regularOptions_isSome (l : Ranges) (d : ℝ) (p : WithTop ℝ × QuadOpts) (hp : p ∈ l) (hd : (d : WithTop ℝ) ≤ p.1) :
    ∃ o, regularOptions l d = some o := by
  have : (l.find? fun p => decide ((d : WithTop ℝ) ≤ p.1)).isSome := by
    rw [List.find?_isSome]
    exact ⟨p, hp, by simpa using hd⟩
  obtain ⟨q, hq⟩ := Option.isSome_iff_exists.mp this
  exact ⟨q.2, by rw [regularOptions, hq]; rfl⟩

theorem sortRanges_spec (l l' : Ranges) (h : sortRanges l = some l') :
    l'.Perm l ∧ l'.Pairwise fun a b => a.1 ≤ b.1 := by
  unfold sortRanges at h
  split at h
  · simp only [Option.some.injEq] at h
    subst h
    refine ⟨List.mergeSort_perm _ _, ?_⟩
    have := List.pairwise_mergeSort (le := fun a b : WithTop ℝ × QuadOpts => decide (a.1 ≤ b.1))
      (fun a b c h1 h2 => by simp only [decide_eq_true_eq] at *; exact h1.trans h2)
      (fun a b => by simp only [Bool.or_eq_true, decide_eq_true_eq]; exact le_total _ _) l
    simpa using this
  · simp at h

/-- **C63 (thresholds and orders).**  After `setDoubleRegular(thresholds, orders, relative)` with one order more than
thresholds and distinct finite thresholds, in any order, every distance is served: with the order listed for the smallest
threshold that is not below the distance, and with the last order if all thresholds are below it. -/
theorem C63_set_regular (thresholds : List ℝ) (orders : List Int) (relative : Bool)
    (hlen : thresholds.length + 1 = orders.length) (hnd : thresholds.Nodup) :
    ∃ l, setRegular (thresholds.map fun x : ℝ => (x : WithTop ℝ)) orders relative = .ok l ∧
      ∀ d : ℝ, ∃ i, ∃ hi : i < orders.length, regularOptions l d = some ⟨relative, orders[i]⟩ ∧
        (∀ (hi : i < thresholds.length), d ≤ thresholds[i] ∧ ∀ x ∈ thresholds, d ≤ x → thresholds[i] ≤ x) ∧
        (thresholds.length ≤ i → ∀ x ∈ thresholds, x < d) := by
  set T : List (WithTop ℝ) := thresholds.map fun x : ℝ => (x : WithTop ℝ) with hT
  set O : List QuadOpts := orders.map fun o => ⟨relative, o⟩ with hO
  have hTl : T.length = thresholds.length := by simp [hT]
  have hOl : O.length = orders.length := by simp [hO]
  have hfst : (List.zip (T ++ [⊤]) O).map Prod.fst = T ++ [⊤] := by
    rw [List.map_fst_zip]
    simp [hTl, hOl, hlen]
  have hT' : (T ++ [⊤]).Nodup := by
    rw [List.nodup_append]
    refine ⟨hnd.map fun a b h => by simpa using h, by simp, ?_⟩
    intro a ha b hb e
    simp only [List.mem_singleton] at hb
    obtain ⟨x, -, rfl⟩ := List.mem_map.mp ha
    rw [hb] at e
    exact WithTop.coe_ne_top e
  obtain ⟨l, hl⟩ : ∃ l, sortRanges (List.zip (T ++ [⊤]) O) = some l := by
    unfold sortRanges
    rw [hfst, if_pos hT']
    exact ⟨_, rfl⟩
  refine ⟨l, by rw [setRegular, if_neg (by simp [hTl, hlen]), hl], ?_⟩
  intro d
  obtain ⟨hperm, hsort⟩ := sortRanges_spec _ _ hl
  have hidx : ∀ p, p ∈ l ↔ ∃ i, ∃ hi : i < orders.length,
      p = ((T ++ [⊤]).getD i ⊤, (⟨relative, orders[i]⟩ : QuadOpts)) := by
    intro p
    rw [hperm.mem_iff, List.mem_iff_getElem]
    constructor
    · rintro ⟨i, hi, rfl⟩
      have h2 := hi
      rw [List.length_zip, hOl, List.length_append, hTl] at h2
      simp only [List.length_singleton, hlen, min_self] at h2
      refine ⟨i, h2, ?_⟩
      have h3 : i < (T ++ [⊤]).length := by simp [hTl, hlen, h2]
      rw [List.getElem_zip, List.getD_eq_getElem?_getD, List.getElem?_eq_getElem h3]
      simp [hO]
    · rintro ⟨i, hi, rfl⟩
      have h3 : i < (T ++ [⊤]).length := by simp [hTl, hlen, hi]
      refine ⟨i, by rw [List.length_zip, hOl]; simp only [lt_min_iff]; exact ⟨h3, hi⟩, ?_⟩
      rw [List.getElem_zip, List.getD_eq_getElem?_getD, List.getElem?_eq_getElem h3]
      simp [hO]
  have htop : ((⊤ : WithTop ℝ), (⟨relative, orders[thresholds.length]'(by omega)⟩ : QuadOpts)) ∈ l := by
    rw [hidx]
    refine ⟨thresholds.length, by omega, Prod.ext ?_ rfl⟩
    show ⊤ = (T ++ [⊤]).getD thresholds.length ⊤
    rw [← hTl]; simp
  obtain ⟨o, ho⟩ := regularOptions_isSome l d _ htop le_top
  obtain ⟨p, hp, rfl, hd, hmin⟩ := regularOptions_sorted l hsort d o ho
  obtain ⟨i, hi, rfl⟩ := (hidx p).mp hp
  have hval : ∀ (j : Nat) (hj : j < thresholds.length), (T ++ [⊤]).getD j ⊤ = (thresholds[j] : WithTop ℝ) := by
    intro j hj
    rw [List.getD_eq_getElem?_getD, List.getElem?_append_left (by omega)]
    simp [hT, hj]
  have hmem : ∀ x ∈ thresholds, d ≤ x → (T ++ [⊤]).getD i ⊤ ≤ (x : WithTop ℝ) := by
    intro x hx hdx
    obtain ⟨j, hj, rfl⟩ := List.mem_iff_getElem.mp hx
    have := hmin _ ((hidx _).mpr ⟨j, by omega, rfl⟩)
    simp only [hval j hj] at this
    exact this (WithTop.coe_le_coe.mpr hdx)
  refine ⟨i, hi, ho, ?_, ?_⟩
  · intro hi'
    rw [hval i hi'] at hd hmem
    refine ⟨WithTop.coe_le_coe.mp hd, fun x hx hdx => ?_⟩
    exact WithTop.coe_le_coe.mp (hmem x hx hdx)
  · intro hi' x hx
    by_contra hdx
    have := hmem x hx (not_lt.mp hdx)
    rw [List.getD_eq_getElem?_getD, List.getElem?_append_right (by omega)] at this
    have e : i - T.length = 0 := by omega
    rw [e] at this
    simp at this

/-- **C63 (lengths).**  A wrong number of orders is refused. -/
theorem C63_set_regular_lengths (thresholds : List (WithTop ℝ)) (orders : List Int) (relative : Bool)
    (h : thresholds.length + 1 ≠ orders.length) : setRegular thresholds orders relative = .throw := by
  rw [setRegular, if_pos h]

/-- **C63 (list of ranges).**  After `setDoubleRegular(ranges)` with distinct thresholds and at least one range, the
range with the largest threshold serves all distances that no other range serves, and every other range the distances
between the next smaller threshold and its own. -/
theorem C63_set_ranges (input : Ranges) (hne : input ≠ []) (hnd : (input.map Prod.fst).Nodup) :
    ∃ l, setRegularRange input = .ok l ∧ ∀ d : ℝ, ∃ p ∈ input, regularOptions l d = some p.2 ∧
      (∀ q ∈ input, (d : WithTop ℝ) ≤ q.1 → p.1 ≤ q.1) ∧
      (¬ (d : WithTop ℝ) ≤ p.1 → ∀ q ∈ input, q.1 ≤ p.1) := by
  obtain ⟨s, hs⟩ : ∃ s, sortRanges input = some s := by
    unfold sortRanges
    rw [if_pos hnd]
    exact ⟨_, rfl⟩
  obtain ⟨hperm, hsort⟩ := sortRanges_spec _ _ hs
  have hsne : s ≠ [] := fun e => hne (by rw [e] at hperm; exact hperm.symm.eq_nil)
  obtain ⟨init, last, rfl⟩ : ∃ init last, s = init ++ [last] :=
    ⟨s.dropLast, s.getLast hsne, (List.dropLast_append_getLast hsne).symm⟩
  have hopen : openEnd (init ++ [last]) = .ok (init ++ [(⊤, last.2)]) := by
    have : ∀ l : Ranges, l ≠ [] → openEnd l = .ok (l.modify (l.length - 1) fun p => (⊤, p.2)) := by
      intro l hl
      cases l with
      | nil => exact absurd rfl hl
      | cons a b => rfl
    rw [this _ (by simp)]
    congr 1
    rw [List.length_append, List.length_singleton, Nat.add_sub_cancel]
    clear hs hperm hsort hsne
    induction init with
    | nil => rfl
    | cons a b ih => simp only [List.cons_append, List.length_cons, List.modify_succ_cons, ih]
  refine ⟨init ++ [(⊤, last.2)], by rw [setRegularRange, hs]; exact hopen, ?_⟩
  intro d
  rw [List.pairwise_append] at hsort
  obtain ⟨hs1, -, hs2⟩ := hsort
  have hsort' : (init ++ [((⊤ : WithTop ℝ), last.2)]).Pairwise fun a b => a.1 ≤ b.1 := by
    rw [List.pairwise_append]
    exact ⟨hs1, by simp, fun a _ b hb => by simp only [List.mem_singleton] at hb; rw [hb]; exact le_top⟩
  obtain ⟨o, ho⟩ := regularOptions_isSome (init ++ [((⊤ : WithTop ℝ), last.2)]) d (⊤, last.2) (by simp) le_top
  obtain ⟨p, hp, rfl, hd, hmin⟩ := regularOptions_sorted _ hsort' d o ho
  rcases List.mem_append.mp hp with hp | hp
  · refine ⟨p, hperm.mem_iff.mp (List.mem_append_left _ hp), ho, ?_, fun h => absurd hd h⟩
    intro q hq hdq
    rcases List.mem_append.mp (hperm.mem_iff.mpr hq) with hq | hq
    · exact hmin q (List.mem_append_left _ hq) hdq
    · exact hs2 p hp q hq
  · simp only [List.mem_singleton] at hp
    subst hp
    refine ⟨last, hperm.mem_iff.mp (by simp), ho, ?_, ?_⟩
    · intro q hq hdq
      rcases List.mem_append.mp (hperm.mem_iff.mpr hq) with hq | hq
      · have := hmin q (List.mem_append_left _ hq) hdq
        simp only [top_le_iff] at this
        rw [this]; exact le_top
      · simp only [List.mem_singleton] at hq
        rw [hq]
    · intro _ q hq
      rcases List.mem_append.mp (hperm.mem_iff.mpr hq) with hq | hq
      · exact hs2 q hq last (by simp)
      · simp only [List.mem_singleton] at hq
        rw [hq]

/-- **C63 (counterexamples).**  Equal thresholds and an empty list of ranges are accepted by the interface but lead to
undefined behaviour. -/
theorem C63_counterexample_equal_thresholds (a : ℝ) (o₁ o₂ o₃ : Int) (relative : Bool) :
    setRegular [(a : WithTop ℝ), a] [o₁, o₂, o₃] relative = .undefined ∧ setRegularRange [] = .undefined := by
  constructor
  · simp [setRegular, sortRanges]
  · simp [setRegularRange, sortRanges, openEnd]

/-! ### The descriptor -/

/-- The options serve every distance. -/
def Serves (l : Ranges) : Prop := ∀ d : ℝ, (regularOptions l d).isSome

/-- All elements are triangles with distinct corners, and no two of them have the same corners in different orders. -/
def RawGeometry.Triangular (g : RawGeometry) : Prop :=
  (∀ e < g.elementCount, (g.corners e).length = 3 ∧ (g.corners e).Nodup) ∧
  ∀ e < g.elementCount, ∀ t < g.elementCount, (g.corners e).Perm (g.corners t) → g.corners e = g.corners t

/-- The two elements have a corner in common. -/
def RawGeometry.Touch (g : RawGeometry) (e t : Nat) : Prop := ∃ v, v ∈ g.corners e ∧ v ∈ g.corners t

theorem commonCorners_eq_zero (t u : List Int) : commonCorners t u = 0 ↔ ¬ ∃ v, v ∈ t ∧ v ∈ u := by
  rw [commonCorners, Finset.card_eq_zero, Finset.eq_empty_iff_forall_notMem]
  constructor
  · rintro h ⟨v, hv⟩
    exact h v (by simp [hv.1, hv.2])
  · intro h v hv
    simp only [Finset.mem_inter, List.mem_toFinset] at hv
    exact h ⟨v, hv.2, hv.1⟩

/-- The meaning of an order option (documentation of `QuadratureOptions`): an absolute order replaces the default, a
relative one is an increment of it. -/
def QuadOpts.OrderFor (o : QuadOpts) (default order : Int) : Prop :=
  (o.relative = true → order = default + o.value) ∧ (o.relative = false → order = o.value)

theorem QuadOpts.orderFor (o : QuadOpts) (default : Int) : o.OrderFor default (o.quadratureOrder default) := by
  unfold QuadOpts.OrderFor QuadOpts.quadratureOrder
  constructor <;> intro h <;> simp [h]

/-- The orders for a pair that touches. -/
def Selector.singularOrders (s : Selector) (e t : Nat) : Int × Int :=
  (s.doubleSingular.quadratureOrder (s.testShapeOrder e + 5), s.doubleSingular.quadratureOrder (s.trialShapeOrder t + 5))

/-- The topology on one grid of triangles. -/
theorem Selector.topology_ok (s : Selector) (hid : s.identical = true) (hsame : s.trial = s.test)
    (hg : s.test.Triangular) (e t : Nat) (he : e < s.test.elementCount) (ht : t < s.test.elementCount) :
    ∃ T, s.topology e t = some T ∧ determineTopology (s.test.corners e) (s.test.corners t) = .ok T ∧
      (T.type = .Disjoint ↔ ¬ s.test.Touch e t) := by
  obtain ⟨l1, n1⟩ := hg.1 e he
  obtain ⟨l2, n2⟩ := hg.1 t ht
  obtain ⟨h1, h2⟩ := C62_triangles _ _ l1 l2 n1 n2
  unfold Selector.topology
  rw [if_pos hid, hsame]
  cases hT : determineTopology (s.test.corners e) (s.test.corners t) with
  | ok T =>
    refine ⟨T, rfl, rfl, ?_⟩
    rw [(h2 T (Or.inl hT)).2.2.1, commonCorners_eq_zero]
    rfl
  | throw => exact absurd hT h1
  | assertFails T =>
    have := (h2 T (Or.inr hT)).2.2.2.2.2.2.2 hT
    exact absurd (hg.2 e he t ht this.2) this.1

/-- **C63 (descriptor).**  On one grid of triangles, with options that serve every distance, a descriptor is chosen for
every pair of elements.  If the elements have a corner in common, it is that of a singular rule, with the orders
`order + 5` changed by the options for singular integrals, and the nominal distance has no influence; if not, it is that of a
regular rule with the orders of the shape functions changed by the options for the normalised distance. -/
theorem C63_descriptor (s : Selector) (hid : s.identical = true) (hsame : s.trial = s.test) (hg : s.test.Triangular)
    (hserve : Serves s.doubleRegular) (e t : Nat) (he : e < s.test.elementCount) (ht : t < s.test.elementCount)
    (nominal : ℝ) :
    ∃ D, s.descriptor e t nominal = some D ∧
      (s.test.Touch e t → D.topology.type ≠ .Disjoint ∧
        s.doubleSingular.OrderFor (s.testShapeOrder e + 5) D.testOrder ∧
        s.doubleSingular.OrderFor (s.trialShapeOrder t + 5) D.trialOrder ∧
        ∀ nominal', s.descriptor e t nominal' = some D) ∧
      (¬ s.test.Touch e t → D.topology.type = .Disjoint ∧
        ∃ o, regularOptions s.doubleRegular (s.normalisedDistance e t nominal) = some o ∧
          o.OrderFor (s.testShapeOrder e) D.testOrder ∧
          o.OrderFor (s.trialShapeOrder t) D.trialOrder) := by
  obtain ⟨T, hT, -, htype⟩ := s.topology_ok hid hsame hg e t he ht
  by_cases htouch : s.test.Touch e t
  · have hne : T.type ≠ .Disjoint := fun h => htype.mp h htouch
    have key : ∀ nominal', s.descriptor e t nominal' = some ⟨T, (s.singularOrders e t).1, (s.singularOrders e t).2⟩ := by
      intro nominal'
      simp only [Selector.descriptor, hT]
      rw [if_neg hne]
      rfl
    exact ⟨_, key nominal, fun _ => ⟨hne, QuadOpts.orderFor _ _, QuadOpts.orderFor _ _, key⟩, fun h => absurd htouch h⟩
  · have heq : T.type = .Disjoint := htype.mpr htouch
    obtain ⟨o, ho⟩ := Option.isSome_iff_exists.mp (hserve (s.normalisedDistance e t nominal))
    refine ⟨⟨T, o.quadratureOrder (s.testShapeOrder e), o.quadratureOrder (s.trialShapeOrder t)⟩, ?_,
      fun h => absurd h htouch, fun _ => ⟨heq, o, ho, o.orderFor _, o.orderFor _⟩⟩
    simp only [Selector.descriptor, hT]
    rw [if_pos heq, Selector.regularOrders, ho]
    rfl

/-- **C63 (two grids).**  On two different grids the rule is always a regular one. -/
theorem C63_two_grids (s : Selector) (hid : s.identical = false) (hserve : Serves s.doubleRegular) (e t : Nat)
    (nominal : ℝ) : ∃ D o, s.descriptor e t nominal = some D ∧ D.topology.type = .Disjoint ∧
      regularOptions s.doubleRegular (s.normalisedDistance e t nominal) = some o ∧
      o.OrderFor (s.testShapeOrder e) D.testOrder ∧ o.OrderFor (s.trialShapeOrder t) D.trialOrder := by
  obtain ⟨o, ho⟩ := Option.isSome_iff_exists.mp (hserve (s.normalisedDistance e t nominal))
  refine ⟨⟨{ testVertexCount := (s.test.corners e).length, trialVertexCount := (s.trial.corners t).length },
    o.quadratureOrder (s.testShapeOrder e), o.quadratureOrder (s.trialShapeOrder t)⟩, o, ?_, rfl, ho, o.orderFor _, o.orderFor _⟩
  simp [Selector.descriptor, Selector.topology, hid, Selector.regularOrders, ho]

/-! ### Sizes and distances -/

theorem distSq_nonneg (a b : Point) : 0 ≤ distSq a b := by unfold distSq; positivity

theorem distSq_comm (a b : Point) : distSq a b = distSq b a := by unfold distSq; ring

/-- **C63 (size).**  The size of a triangle is its diameter: the largest distance of two of its corners. -/
theorem C63_triangle_size (g : RawGeometry) (e : Nat) (h : (g.corners e).length = 3) :
    (∀ i < 3, ∀ j < 3, distSq (g.corner e i) (g.corner e j) ≤ g.sizeSq e) ∧
    ∃ i < 3, ∃ j < 3, g.sizeSq e = distSq (g.corner e i) (g.corner e j) := by
  have h1 := distSq_nonneg (g.corner e 1) (g.corner e 0)
  have h2 := distSq_nonneg (g.corner e 2) (g.corner e 1)
  have h3 := distSq_nonneg (g.corner e 0) (g.corner e 2)
  have hself : ∀ a : Point, distSq a a = 0 := fun a => by simp [distSq]
  have key : g.sizeSq e = max (max (distSq (g.corner e 1) (g.corner e 0)) (distSq (g.corner e 2) (g.corner e 1)))
      (distSq (g.corner e 0) (g.corner e 2)) := by
    unfold RawGeometry.sizeSq
    rw [if_pos h]
    simp only [List.range_succ, List.range_zero, List.nil_append, List.cons_append, List.foldl_cons, List.foldl_nil]
    norm_num
    rw [max_eq_right h1]
  have m1 : distSq (g.corner e 1) (g.corner e 0) ≤ g.sizeSq e := by rw [key]; simp
  have m2 : distSq (g.corner e 2) (g.corner e 1) ≤ g.sizeSq e := by rw [key]; simp
  have m3 : distSq (g.corner e 0) (g.corner e 2) ≤ g.sizeSq e := by rw [key]; simp
  constructor
  · intro i hi j hj
    have hi' : i = 0 ∨ i = 1 ∨ i = 2 := by omega
    have hj' : j = 0 ∨ j = 1 ∨ j = 2 := by omega
    rcases hi' with rfl | rfl | rfl <;> rcases hj' with rfl | rfl | rfl <;>
      first
        | (rw [hself]; linarith)
        | assumption
        | (rw [distSq_comm]; assumption)
  · rw [key]
    rcases max_choice (max (distSq (g.corner e 1) (g.corner e 0)) (distSq (g.corner e 2) (g.corner e 1)))
      (distSq (g.corner e 0) (g.corner e 2)) with h | h
    · rcases max_choice (distSq (g.corner e 1) (g.corner e 0)) (distSq (g.corner e 2) (g.corner e 1)) with h' | h'
      · exact ⟨1, by omega, 0, by omega, by rw [h, h']⟩
      · exact ⟨2, by omega, 1, by omega, by rw [h, h']⟩
    · exact ⟨0, by omega, 2, by omega, h⟩

/-- **C63 (symmetry).**  Exchanging the test and trial elements exchanges the two orders of a regular rule, whether the
distance is given or computed. -/
theorem C63_symmetric (s : Selector) (e t : Nat) (nominal : ℝ) :
    let s' : Selector := ⟨s.trial, s.test, s.identical, s.trialShapeOrder, s.testShapeOrder, s.doubleRegular,
      s.doubleSingular⟩
    (s.identical = true → s.trial = s.test) →
    s'.regularOrders t e nominal = (s.regularOrders e t nominal).map Prod.swap := by
  intro s' hid
  have : s'.normalisedDistance t e nominal = s.normalisedDistance e t nominal := by
    unfold Selector.normalisedDistance
    have havg : s'.averageSize = s.averageSize := by
      unfold Selector.averageSize
      show (if s.identical then s.trial.averageSize else (s.trial.averageSize + s.test.averageSize) / 2) = _
      split
      · rename_i h
        rw [hid h]
      · ring
    rw [havg]
    split
    · show √(distSq (s.test.center e) (s.trial.center t) / max (s.trial.sizeSq t) (s.test.sizeSq e)) = _
      rw [distSq_comm, max_comm]
    · rfl
  unfold Selector.regularOrders
  rw [this, Option.map_map]
  rfl

/-- **C63 (scaling).**  Without a nominal distance the choice does not depend on the unit of length: scaling both grids by
the same factor changes no order. -/
theorem C63_scale_invariant (s : Selector) (k : ℝ) (hk : k ≠ 0) (e t : Nat) (nominal : ℝ) (hn : nominal < 0) :
    let s' : Selector := { s with
      test := { s.test with vertex := fun v d => k * s.test.vertex v d }
      trial := { s.trial with vertex := fun v d => k * s.trial.vertex v d } }
    s'.regularOrders e t nominal = s.regularOrders e t nominal := by
  intro s'
  have hc : ∀ (g : RawGeometry) (e : Nat) (d : Fin 3),
      RawGeometry.center { g with vertex := fun v d => k * g.vertex v d } e d = k * g.center e d := by
    intro g e d
    unfold RawGeometry.center
    show ((g.corners e).map fun v => k * g.vertex v d).sum / _ = _
    rw [List.sum_map_mul_left, mul_div_assoc]
  have hd : ∀ a b : Point, distSq (fun d => k * a d) (fun d => k * b d) = k ^ 2 * distSq a b := by
    intro a b; unfold distSq; ring
  have hk2 : 0 < k ^ 2 := by positivity
  have hs : ∀ (g : RawGeometry) (e : Nat),
      RawGeometry.sizeSq { g with vertex := fun v d => k * g.vertex v d } e = k ^ 2 * g.sizeSq e := by
    intro g e
    have hcor : ∀ i, RawGeometry.corner { g with vertex := fun v d => k * g.vertex v d } e i =
        fun d => k * g.corner e i d := fun i => rfl
    have hmax : ∀ a b : ℝ, max (k ^ 2 * a) (k ^ 2 * b) = k ^ 2 * max a b := fun a b =>
      (mul_max_of_nonneg a b hk2.le).symm
    unfold RawGeometry.sizeSq
    show (if (g.corners e).length = 3 then _ else _) = _
    split
    · simp only [hcor, hd, List.range_succ, List.range_zero, List.nil_append, List.cons_append, List.foldl_cons,
        List.foldl_nil]
      have h0 : ∀ x, max (0 : ℝ) (k ^ 2 * x) = k ^ 2 * max 0 x := by
        intro x; rw [← hmax, mul_zero]
      rw [h0, hmax, hmax]
    · simp only [hcor, hd, hmax]
  have hnd : s'.normalisedDistance e t nominal = s.normalisedDistance e t nominal := by
    unfold Selector.normalisedDistance
    rw [if_pos hn, if_pos hn]
    have h1 : s'.trial.center t = fun d => k * s.trial.center t d := funext fun d => hc s.trial t d
    have h2 : s'.test.center e = fun d => k * s.test.center e d := funext fun d => hc s.test e d
    have h3 : s'.test.sizeSq e = k ^ 2 * s.test.sizeSq e := hs s.test e
    have h4 : s'.trial.sizeSq t = k ^ 2 * s.trial.sizeSq t := hs s.trial t
    rw [h1, h2, h3, h4, hd, ← mul_max_of_nonneg _ _ hk2.le, mul_div_mul_left _ _ hk2.ne']
  unfold Selector.regularOrders
  rw [hnd]

/-! ### Examples -/

/-- Thresholds given in decreasing order. -/
example : ∃ l, setRegular (([2, 1] : List ℝ).map fun x : ℝ => (x : WithTop ℝ)) [3, 5, 0] true = .ok l ∧
    regularOptions l 1.5 = some ⟨true, 3⟩ := by
  obtain ⟨l, hl, h⟩ := C63_set_regular [2, 1] [3, 5, 0] true rfl (by norm_num)
  refine ⟨l, hl, ?_⟩
  obtain ⟨i, hi, ho, h1, h2⟩ := h 1.5
  simp only [List.length_cons, List.length_nil] at hi h1 h2
  have : i = 0 ∨ i = 1 ∨ i = 2 := by omega
  rcases this with rfl | rfl | rfl
  · simpa using ho
  · have := (h1 (by omega)).1
    norm_num at this
  · have := h2 (by omega) 2 (by simp)
    norm_num at this

/-- Two triangles with a common edge and one further away. -/
def threeTriangles : RawGeometry where
  vertex := fun v d => if v = 0 then 0 else if v = 1 then (if d = 0 then 1 else 0) else if v = 2 then (if d = 1 then 1 else 0)
    else if v = 3 then (if d = 2 then 0 else 1) else if d = 2 then 9 else v
  corners := fun e => if e = 0 then [0, 1, 2] else if e = 1 then [3, 2, 1] else [4, 5, 6]
  elementCount := 3

theorem threeTriangles_triangular : threeTriangles.Triangular := by
  unfold RawGeometry.Triangular threeTriangles
  decide

theorem serves_default : Serves [(⊤, {})] := by intro d; simp [regularOptions]

/-- The hypotheses of `C63_descriptor` hold, with a pair that touches and one that does not. -/
example : ∃ s : Selector, s.identical = true ∧ s.trial = s.test ∧ s.test.Triangular ∧ Serves s.doubleRegular ∧
    s.test.Touch 0 1 ∧ ¬ s.test.Touch 0 2 :=
  ⟨⟨threeTriangles, threeTriangles, true, fun _ => 1, fun _ => 0, [(⊤, {})], {}⟩, rfl, rfl, threeTriangles_triangular,
    serves_default, ⟨1, by decide⟩, by
      rintro ⟨v, h1, h2⟩
      simp [threeTriangles] at h1 h2
      omega⟩

end Verif.Quad
