import Verif.Lemmas.PotentialOperators
/-
Property C79: evaluation of potential operators.
-/
namespace Verif.Pot
open Verif.Grid Verif.Shape Verif.SingleQuad Verif.Space Verif.HMat Verif.LocalOps Verif.GridFun Verif.Kernel

theorem distance_eq {addr : Type} {A : Assembler addr} {k : ℂ} {tri : Triangles} (hv : A.Valid k tri) (p e : Nat)
    (he : e < A.grid.elementCount) (nominal : ℝ) :
    A.selector.normalisedDistance (A.points p) e nominal = A.distance tri (A.points p) e nominal := by
  unfold Selector.normalisedDistance Assembler.distance Assembler.selector
  dsimp only
  split
  · rw [Real.sqrt_div (Verif.Quad.distSq_nonneg _ _), sizeSq_eq (hv.corners e he), center_eq (hv.corners e he), ← dist_eq]
  · unfold Verif.Quad.RawGeometry.averageSize
    congr 2
    rw [Assembly.sum_list_range]
    exact Finset.sum_congr rfl fun e he => sizeSq_eq (hv.corners e (Finset.mem_range.mp he))

theorem accuracy_exists {addr : Type} {A : Assembler addr} {k : ℂ} {tri : Triangles} (hv : A.Valid k tri) (x : P3 ℝ) (e : Nat)
    (nominal : ℝ) : ∃ n, A.Accuracy tri x e nominal n := by
  obtain ⟨o, ho⟩ := hv.serves (A.distance tri x e nominal)
  exact ⟨_, o, ho, rfl⟩

theorem accuracy_unique {addr : Type} {A : Assembler addr} {tri : Triangles} {x : P3 ℝ} {e : Nat} {nominal : ℝ} {n m : Int}
    (h : A.Accuracy tri x e nominal n) (h' : A.Accuracy tri x e nominal m) : n = m := by
  obtain ⟨o, ho, rfl⟩ := h
  obtain ⟨o', ho', rfl⟩ := h'
  rw [ho] at ho'
  cases ho'
  rfl

theorem rule_unique {addr : Type} {A : Assembler addr} {tri : Triangles} {p e : Nat} {nominal : ℝ} {d d' : Descriptor}
    (h : A.Rule tri p e nominal d) (h' : A.Rule tri p e nominal d') : d = d' := by
  have h2 := accuracy_unique h.2 h'.2
  have h1 := h.1.trans h'.1.symm
  cases d
  cases d'
  cases h1
  cases h2
  rfl

theorem select_eq {addr : Type} {A : Assembler addr} {k : ℂ} {tri : Triangles} (hv : A.Valid k tri) (p e : Nat)
    (he : e < A.grid.elementCount) (nominal : ℝ) (d : Descriptor) (hd : A.Rule tri p e nominal d) :
    A.selectIntegrator p e nominal = match fillSingle 3 d.order with
      | .undefined => .undefined
      | .throws m => .throws m
      | .ok _ => .ok d := by
  obtain ⟨c, n⟩ := d
  obtain ⟨h1, o, ho, hn⟩ := hd
  dsimp only at h1 hn
  subst h1
  obtain ⟨a, b, c, h0, -⟩ := hv.corners e he
  have hdesc : A.selector.descriptor (A.points p) e nominal = .ok ⟨3, n⟩ := by
    unfold Selector.descriptor
    rw [distance_eq hv p e he nominal, show A.selector.singleRegular = A.singleRegular from rfl, ho]
    dsimp only
    have : A.selector.grid.corners e = [a, b, c] := h0
    rw [this, hn]
    rfl
  unfold Assembler.selectIntegrator
  rw [hdesc]
  rfl

/-- The descriptor of the rule. -/
noncomputable def Assembler.rule {addr : Type} (A : Assembler addr) (tri : Triangles) (p e : Nat) (nominal : ℝ) : Descriptor :=
  open Classical in if h : ∃ d, A.Rule tri p e nominal d then h.choose else ⟨3, 0⟩

theorem rule_spec {addr : Type} {A : Assembler addr} {k : ℂ} {tri : Triangles} (hv : A.Valid k tri) (p e : Nat) (nominal : ℝ) :
    A.Rule tri p e nominal (A.rule tri p e nominal) := by
  obtain ⟨n, hn⟩ := accuracy_exists hv (A.points p) e nominal
  have h : ∃ d, A.Rule tri p e nominal d := ⟨⟨3, n⟩, rfl, hn⟩
  unfold Assembler.rule
  rw [dif_pos h]
  exact h.choose_spec

theorem rule_iff {addr : Type} {A : Assembler addr} {k : ℂ} {tri : Triangles} (hv : A.Valid k tri) (p e : Nat) (nominal : ℝ)
    (d : Descriptor) : A.Rule tri p e nominal d ↔ A.rule tri p e nominal = d :=
  ⟨fun h => rule_unique (rule_spec hv p e nominal) h, fun h => h ▸ rule_spec hv p e nominal⟩

theorem points_ok {addr : Type} {A : Assembler addr} {tri : Triangles} {p e : Nat} {nominal : ℝ} {d : Descriptor}
    (hd : A.Rule tri p e nominal d) (hn : d.order ≤ 20) :
    fillSingle 3 d.order = .ok (rulePoints d) ∧ (rulePoints d).length ≠ 0 := by
  obtain ⟨c, n⟩ := d
  obtain ⟨h1, -⟩ := hd
  dsimp only at h1 hn
  subst h1
  obtain ⟨r, hr, hx⟩ := rule_nonempty n hn
  have : rulePoints ⟨3, n⟩ = r := by simp only [rulePoints, hr]
  rw [this]
  exact ⟨hr, hx⟩

/-- **C79 (rule)** Every point and element has exactly one rule, with the order of accuracy requested for the distance of the point from
the centroid in units of the longest side (or for the nominal distance in units of the average longest side); if the order is at most
20 it integrates polynomials of at most that degree over the reference triangle, up to 5e-15 times the sum of the absolute values of the
coefficients, and the assembler selects it. -/
theorem C79_rule {addr : Type} (A : Assembler addr) (k : ℂ) (tri : Triangles) (hv : A.Valid k tri) (p e : Nat)
    (he : e < A.grid.elementCount) (nominal : ℝ) :
    ∃! d, A.Rule tri p e nominal d ∧ (d.order ≤ 20 → A.selectIntegrator p e nominal = .ok d ∧
      ∀ P : MvPolynomial (Fin 2) ℝ, (P.totalDegree : ℤ) ≤ max d.order 1 →
        |quadSum (rulePoints d) (value P) - triangleIntegral (value P)| ≤ 5 / 10 ^ 15 * coeffNorm P) := by
  have hd := rule_spec hv p e nominal
  refine ⟨_, ⟨hd, fun hn => ?_⟩, fun d h => rule_unique h.1 hd⟩
  obtain ⟨h1, -⟩ := points_ok hd hn
  constructor
  · rw [select_eq hv p e he nominal _ hd, h1]
  · obtain ⟨r, hr, hx⟩ := C75_triangle _ hn
    rw [h1] at hr
    cases hr
    exact hx

theorem order_le {addr : Type} {A : Assembler addr} {k : ℂ} {tri : Triangles} (hv : A.Valid k tri) {ps es : List Nat} {nominal : ℝ}
    (hm : A.Moderate tri ps es nominal) {p e : Nat} (hp : p ∈ ps) (he : e ∈ es) : (A.rule tri p e nominal).order ≤ 20 :=
  hm p hp e he _ (rule_spec hv p e nominal).2

theorem select_ok {addr : Type} {A : Assembler addr} {k : ℂ} {tri : Triangles} (hv : A.Valid k tri) {ps es : List Nat} {nominal : ℝ}
    (hm : A.Moderate tri ps es nominal) {p e : Nat} (hp : p ∈ ps) (he : e ∈ es) (hr : e < A.grid.elementCount) :
    A.selectIntegrator p e nominal = .ok (A.rule tri p e nominal) := by
  rw [select_eq hv p e hr nominal _ (rule_spec hv p e nominal), (points_ok (rule_spec hv p e nominal) (order_le hv hm hp he)).1]

theorem atPoints_eq {addr : Type} {A : Assembler addr} {k : ℂ} {tri : Triangles} (hv : A.Valid k tri) (ps : List Nat) (e : Nat)
    (he : e < A.grid.elementCount) (dof : Option Nat) (nominal : ℝ) (order : List Descriptor) (old : List (Mx ℂ))
    (hm : A.Moderate tri ps [e] nominal) (ho : Traversal (fun p d => A.Rule tri p e nominal d) ps order) (hold : old.length = ps.length) :
    A.atPoints ps e dof nominal order old = .ok (ps.map fun p => ⟨A.op.functor.dim, dofCount (A.shapes e) dof, fun c j =>
      A.op.contribution (tri e) (rulePoints (A.rule tri p e nominal)) (A.points p) ((A.shapes e).shape (dofAt dof j)) c⟩) := by
  unfold Assembler.atPoints
  refine evaluate_eq _ _ (fun p => A.rule tri p e nominal) _ ps order old
    (fun p hp => select_ok hv hm hp (by simp) he) ?_ ?_ hold
  · intro v
    rw [ho.2 v]
    simp only [rule_iff hv]
  · intro p hp l hl rs hrs
    unfold PotentialOperator.integratePoints
    rw [if_neg (by rw [hrs]; simp)]
    by_cases hz : l.length = 0
    · rw [if_pos (Or.inl hz)]
      rw [List.length_eq_zero_iff] at hz
      subst hz
      have hrs0 : rs = [] := List.length_eq_zero_iff.mp (by simpa using hrs)
      rw [hrs0]
      rfl
    · rw [if_neg (by
        have := (points_ok (rule_spec hv p e nominal) (order_le hv hm hp (by simp))).2
        tauto)]
      refine congrArg Outcome.ok (List.map_congr_left fun q hq => ?_)
      simp only [integral_eq hv.op A.mesh (tri e) e (hv.triangles e he) (hv.positions e he), (hl q hq).2]
      rfl

theorem overElements_eq {addr : Type} [DecidableEq addr] {A : Assembler addr} {k : ℂ} {tri : Triangles} (hv : A.Valid k tri) (p : Nat)
    (comp : Option Nat) (hc : ∀ c, comp = some c → c < A.op.functor.dim) (es : List Nat) (he : ∀ e ∈ es, e < A.grid.elementCount)
    (nominal : ℝ) (order : List (Descriptor × addr)) (old : List (Mx ℂ)) (hm : A.Moderate tri [p] es nominal)
    (ho : Traversal (fun e v => A.Rule tri p e nominal v.1 ∧ A.trialAt e = v.2) es order) (hold : old.length = es.length) :
    A.overElements p comp es nominal order old = .ok (es.map fun e =>
      match comp with
      | none => ⟨A.op.functor.dim, (A.shapes e).size, fun c j =>
          A.op.contribution (tri e) (rulePoints (A.rule tri p e nominal)) (A.points p) ((A.shapes e).shape j) c⟩
      | some c => ⟨1, (A.shapes e).size, fun _ j =>
          A.op.contribution (tri e) (rulePoints (A.rule tri p e nominal)) (A.points p) ((A.shapes e).shape j) c⟩) := by
  unfold Assembler.overElements
  refine evaluate_eq _ _ (fun e => (A.rule tri p e nominal, A.trialAt e)) _ es order old
    (fun e hin => by rw [select_ok hv hm (by simp) hin (he e hin)]) ?_ ?_ hold
  · intro v
    rw [ho.2 v]
    simp only [rule_iff hv, Prod.ext_iff]
  · intro e hin l hl rs hrs
    unfold PotentialOperator.integrateElements
    rw [if_neg (by rw [hrs]; simp)]
    by_cases hz : l.length = 0
    · rw [if_pos (Or.inl hz)]
      rw [List.length_eq_zero_iff] at hz
      subst hz
      have hrs0 : rs = [] := List.length_eq_zero_iff.mp (by simpa using hrs)
      rw [hrs0]
      rfl
    · have hdim : 0 < A.op.functor.dim := by
        have := hv.op
        simp only [potentialOperators, List.mem_cons, List.not_mem_nil, or_false] at this
        rcases this with h | h | h | h | h | h | h | h | h | h | h | h | h | h <;> rw [h] <;> first | exact Nat.one_pos | exact Nat.succ_pos 2
      rw [if_neg (by
        have := (points_ok (rule_spec hv p e nominal) (order_le hv hm (by simp) hin)).2
        tauto), if_neg (by
        cases comp with
        | none => simpa using hdim.ne'
        | some c => simpa using hc c rfl)]
      refine congrArg Outcome.ok ?_
      rw [elementLoop_eq hv.op A.mesh tri _ _ _ _ _ _ (fun e' h' => hv.triangles e' (he e' (hl e' h').1))
        (fun e' h' => hv.positions e' (he e' (hl e' h').1))]
      refine List.map_congr_left fun e' h' => ?_
      have h2 := (hl e' h').2
      simp only [Prod.mk.injEq] at h2
      simp only [Assembler.shapes, h2.1, h2.2]
      cases comp <;> rfl

theorem onGrid_eq {addr : Type} [DecidableEq addr] {A : Assembler addr} {k : ℂ} {tri : Triangles} (hv : A.Valid k tri) (ps es : List Nat)
    (he : ∀ e ∈ es, e < A.grid.elementCount) (nominal : ℝ) (order : List (Descriptor × addr)) (old : List (Mx ℂ))
    (hm : A.Moderate tri ps es nominal)
    (ho : Traversal (fun (q : Nat × Nat) v => A.Rule tri q.1 q.2 nominal v.1 ∧ A.trialAt q.2 = v.2) (gridPairs ps es) order)
    (hold : old.length = (gridPairs ps es).length) :
    A.onGrid ps es nominal order old = .ok ((gridPairs ps es).map fun q => ⟨A.op.functor.dim, (A.shapes q.2).size, fun c j =>
      A.op.contribution (tri q.2) (rulePoints (A.rule tri q.1 q.2 nominal)) (A.points q.1) ((A.shapes q.2).shape j) c⟩) := by
  have hmem : ∀ q ∈ gridPairs ps es, q.1 ∈ ps ∧ q.2 ∈ es := by
    intro q hq
    unfold gridPairs at hq
    rw [List.mem_flatMap] at hq
    obtain ⟨e, hin, hq⟩ := hq
    rw [List.mem_map] at hq
    obtain ⟨p, hp, rfl⟩ := hq
    exact ⟨hp, hin⟩
  unfold Assembler.onGrid
  refine evaluate_eq _ _ (fun q : Nat × Nat => (A.rule tri q.1 q.2 nominal, A.trialAt q.2)) _ _ order old
    (fun q hq => by rw [select_ok hv hm (hmem q hq).1 (hmem q hq).2 (he _ (hmem q hq).2)]) ?_ ?_ hold
  · intro v
    rw [ho.2 v]
    simp only [rule_iff hv, Prod.ext_iff]
  · intro q hq l hl rs hrs
    unfold PotentialOperator.integratePairs
    rw [if_neg (by rw [hrs]; simp)]
    by_cases hz : l.length = 0
    · rw [if_pos (Or.inl hz)]
      rw [List.length_eq_zero_iff] at hz
      subst hz
      have hrs0 : rs = [] := List.length_eq_zero_iff.mp (by simpa using hrs)
      rw [hrs0]
      rfl
    · rw [if_neg (by
        have := (points_ok (rule_spec hv q.1 q.2 nominal) (order_le hv hm (hmem q hq).1 (hmem q hq).2)).2
        tauto)]
      refine congrArg Outcome.ok ?_
      rw [pairLoop_eq hv.op A.mesh tri _ _ _ _ _ (fun e' h' => hv.triangles e'.2 (he _ (hmem _ (hl e' h').1).2))
        (fun e' h' => hv.positions e'.2 (he _ (hmem _ (hl e' h').1).2))]
      refine List.map_congr_left fun e' h' => ?_
      have h2 := (hl e' h').2
      simp only [Prod.mk.injEq] at h2
      simp only [Assembler.shapes, h2.1, h2.2]

/-- **C79 (one element, many points)** Whatever the list of points (with repetitions) and the order of the set of integrators, the call
returns for each position of the list a matrix with one row for each component of the potential and one column for each function of the
element - or one column, for the function asked for - whose entries are the contributions to the potential at that point, by the rule for
that point and element. -/
theorem C79_points {addr : Type} (A : Assembler addr) (k : ℂ) (tri : Triangles) (hv : A.Valid k tri) (ps : List Nat) (e : Nat)
    (he : e < A.grid.elementCount) (dof : Option Nat) (nominal : ℝ) (order : List Descriptor) (old : List (Mx ℂ))
    (hm : A.Moderate tri ps [e] nominal) (ho : Traversal (fun p d => A.Rule tri p e nominal d) ps order) (hold : old.length = ps.length) :
    ∃ result, A.atPoints ps e dof nominal order old = .ok result ∧ result.length = ps.length ∧
      ∀ (i p : Nat) (d : Descriptor), ps[i]? = some p → A.Rule tri p e nominal d → ∃ m, result[i]? = some m ∧
        m.rows = A.op.functor.dim ∧ (dof = none → m.cols = (A.shapes e).size) ∧ (∀ j, dof = some j → m.cols = 1) ∧
        (dof = none → ∀ c j, m.e c j = A.op.contribution (tri e) (rulePoints d) (A.points p) ((A.shapes e).shape j) c) ∧
        ∀ j, dof = some j → ∀ c, m.e c 0 = A.op.contribution (tri e) (rulePoints d) (A.points p) ((A.shapes e).shape j) c := by
  refine ⟨_, atPoints_eq hv ps e he dof nominal order old hm ho hold, by simp, ?_⟩
  intro i p d hi hd
  refine ⟨_, by rw [List.getElem?_map, hi]; rfl, rfl, fun h => by rw [h]; rfl, fun j h => by rw [h]; rfl, ?_, ?_⟩
  · rintro rfl c j
    dsimp only
    rw [(rule_iff hv p e nominal d).mp hd]
    rfl
  · rintro j rfl c
    dsimp only
    rw [(rule_iff hv p e nominal d).mp hd]
    rfl

/-- **C79 (one point, many elements)** The same for one point and a list of elements, all components or one of them. -/
theorem C79_elements {addr : Type} [DecidableEq addr] (A : Assembler addr) (k : ℂ) (tri : Triangles) (hv : A.Valid k tri) (p : Nat)
    (comp : Option Nat) (hc : ∀ c, comp = some c → c < A.op.functor.dim) (es : List Nat) (he : ∀ e ∈ es, e < A.grid.elementCount)
    (nominal : ℝ) (order : List (Descriptor × addr)) (old : List (Mx ℂ)) (hm : A.Moderate tri [p] es nominal)
    (ho : Traversal (fun e v => A.Rule tri p e nominal v.1 ∧ A.trialAt e = v.2) es order) (hold : old.length = es.length) :
    ∃ result, A.overElements p comp es nominal order old = .ok result ∧ result.length = es.length ∧
      ∀ (i e : Nat) (d : Descriptor), es[i]? = some e → A.Rule tri p e nominal d → ∃ m, result[i]? = some m ∧
        m.cols = (A.shapes e).size ∧ (comp = none → m.rows = A.op.functor.dim) ∧ (∀ c, comp = some c → m.rows = 1) ∧
        (comp = none → ∀ c j, m.e c j = A.op.contribution (tri e) (rulePoints d) (A.points p) ((A.shapes e).shape j) c) ∧
        ∀ c, comp = some c → ∀ j, m.e 0 j = A.op.contribution (tri e) (rulePoints d) (A.points p) ((A.shapes e).shape j) c := by
  refine ⟨_, overElements_eq hv p comp hc es he nominal order old hm ho hold, by simp, ?_⟩
  intro i e d hi hd
  refine ⟨_, by rw [List.getElem?_map, hi]; rfl, ?_, fun h => by rw [h], fun j h => by rw [h], ?_, ?_⟩
  · cases comp <;> rfl
  · rintro rfl c j
    dsimp only
    rw [(rule_iff hv p e nominal d).mp hd]
  · rintro j rfl c
    dsimp only
    rw [(rule_iff hv p e nominal d).mp hd]

theorem gridPairs_get (ps es : List Nat) (i j p e : Nat) (hi : ps[i]? = some p) (hj : es[j]? = some e) :
    (gridPairs ps es)[i + ps.length * j]? = some (p, e) := by
  induction es generalizing j with
  | nil => simp at hj
  | cons e' es ih =>
    have hil : i < ps.length := by
      rw [List.getElem?_eq_some_iff] at hi
      exact hi.1
    have hcons : gridPairs ps (e' :: es) = (ps.map fun p => (p, e')) ++ gridPairs ps es := by simp [gridPairs]
    rw [hcons]
    cases j with
    | zero =>
      rw [List.getElem?_cons_zero] at hj
      cases hj
      rw [List.getElem?_append_left (by simpa using hil), List.getElem?_map, Nat.mul_zero, Nat.add_zero, hi]
      rfl
    | succ j =>
      rw [List.getElem?_cons_succ] at hj
      rw [List.getElem?_append_right (by rw [List.length_map]; nlinarith), List.length_map,
        show i + ps.length * (j + 1) - ps.length = i + ps.length * j by rw [Nat.mul_succ]; omega]
      exact ih j hj

theorem gridPairs_length (ps es : List Nat) : (gridPairs ps es).length = ps.length * es.length := by
  induction es with
  | nil => simp [gridPairs]
  | cons e es ih =>
    have hcons : gridPairs ps (e :: es) = (ps.map fun p => (p, e)) ++ gridPairs ps es := by simp [gridPairs]
    rw [hcons, List.length_append, List.length_map, ih, List.length_cons]
    ring

/-- **C79 (many points and elements)** The same for a list of points and a list of elements: entry (i, j) of the two-dimensional result,
stored by columns, belongs to point number i and element number j of the lists. -/
theorem C79_grid {addr : Type} [DecidableEq addr] (A : Assembler addr) (k : ℂ) (tri : Triangles) (hv : A.Valid k tri) (ps es : List Nat)
    (he : ∀ e ∈ es, e < A.grid.elementCount) (nominal : ℝ) (order : List (Descriptor × addr)) (old : List (Mx ℂ))
    (hm : A.Moderate tri ps es nominal)
    (ho : order.Nodup ∧ ∀ v, v ∈ order ↔ ∃ p ∈ ps, ∃ e ∈ es, A.Rule tri p e nominal v.1 ∧ A.trialAt e = v.2)
    (hold : old.length = ps.length * es.length) :
    ∃ result, A.onGrid ps es nominal order old = .ok result ∧ result.length = ps.length * es.length ∧
      ∀ (i j p e : Nat) (d : Descriptor), ps[i]? = some p → es[j]? = some e → A.Rule tri p e nominal d →
        ∃ m, result[i + ps.length * j]? = some m ∧ m.rows = A.op.functor.dim ∧ m.cols = (A.shapes e).size ∧
          ∀ c j, m.e c j = A.op.contribution (tri e) (rulePoints d) (A.points p) ((A.shapes e).shape j) c := by
  have ho' : Traversal (fun (q : Nat × Nat) v => A.Rule tri q.1 q.2 nominal v.1 ∧ A.trialAt q.2 = v.2) (gridPairs ps es) order := by
    refine ⟨ho.1, fun v => (ho.2 v).trans ⟨?_, ?_⟩⟩
    · rintro ⟨p, hp, e, he, h⟩
      refine ⟨(p, e), ?_, h⟩
      unfold gridPairs
      rw [List.mem_flatMap]
      exact ⟨e, he, List.mem_map.mpr ⟨p, hp, rfl⟩⟩
    · rintro ⟨q, hq, h⟩
      unfold gridPairs at hq
      rw [List.mem_flatMap] at hq
      obtain ⟨e, hin, hq⟩ := hq
      rw [List.mem_map] at hq
      obtain ⟨p, hp, rfl⟩ := hq
      exact ⟨p, hp, e, hin, h⟩
  refine ⟨_, onGrid_eq hv ps es he nominal order old hm ho' (by rw [hold, gridPairs_length]), by simp [gridPairs_length], ?_⟩
  intro i j p e d hi hj hd
  refine ⟨_, by rw [List.getElem?_map, gridPairs_get ps es i j p e hi hj]; rfl, rfl, rfl, ?_⟩
  intro c j
  dsimp only
  rw [(rule_iff hv p e nominal d).mp hd]

/-- Two triangles that share an edge. -/
def exampleTriangles : Triangles := fun e => (⟨0, 0, 0⟩, ⟨1, 0, 0⟩, if e = 0 then ⟨0, 1, 0⟩ else ⟨0, 0, 1⟩)

/-- An assembler that meets the hypotheses, for any operator: the shapesets are linear; the points are not in the planes of the
triangles, and the second one is a unit vector. -/
noncomputable def exampleAssembler (op : PotentialOperator) : Assembler Nat where
  op := op
  mesh := { cornerCount := fun _ => 3
            getData := fun e _ => getData (exampleTriangles e).1 (exampleTriangles e).2.1 (exampleTriangles e).2.2
            local2global := fun e => refMap (exampleTriangles e).1 (exampleTriangles e).2.1 (exampleTriangles e).2.2
            domainIndex := fun _ => 0 }
  points := fun p => if p = 0 then ⟨0, 1, 5⟩ else ⟨0, 3 / 5, 4 / 5⟩
  shapeset := fun _ => linearShapeset
  trialAt := fun e => e
  grid := { vertex := fun v => if v = 0 then ![0, 0, 0] else if v = 1 then ![1, 0, 0] else if v = 2 then ![0, 1, 0] else ![0, 0, 1]
            corners := fun e => if e = 0 then [0, 1, 2] else [0, 1, 3]
            elementCount := 2 }
  singleRegular := [(⊤, {})]
  unset := ⟨0, 0, 0⟩
  blank := fun _ => ⟨fullData ⟨0, 0, 0⟩ ⟨0, 0, 0⟩ ⟨0, 0, 0⟩, ⟨0, 0, 0⟩, 0⟩

theorem exampleOptions (op : PotentialOperator) (d : ℝ) :
    Verif.Quad.regularOptions (exampleAssembler op).singleRegular d = some {} := by
  simp [Verif.Quad.regularOptions, exampleAssembler]

theorem exampleAssembler_valid (k : ℂ) (op : PotentialOperator) (hop : op ∈ potentialOperators k) :
    (exampleAssembler op).Valid k exampleTriangles where
  op := hop
  triangles := fun e _ => ⟨rfl, rfl, by
    intro h
    have h1 := congrArg P3.z h
    have h2 := congrArg P3.y h
    by_cases he : e = 0
    · simp [areaVector, P3.sub, P3.cross, exampleTriangles, he] at h1
    · simp [areaVector, P3.sub, P3.cross, exampleTriangles, he] at h2⟩
  positions := fun _ _ _ => rfl
  corners := by
    intro e _
    by_cases he : e = 0
    · exact ⟨0, 1, 2, by simp [exampleAssembler, he], by simp [exampleAssembler, toPoint, exampleTriangles],
        by simp [exampleAssembler, toPoint, exampleTriangles], by simp [exampleAssembler, toPoint, exampleTriangles, he]⟩
    · exact ⟨0, 1, 3, by simp [exampleAssembler, he], by simp [exampleAssembler, toPoint, exampleTriangles],
        by simp [exampleAssembler, toPoint, exampleTriangles], by simp [exampleAssembler, toPoint, exampleTriangles, he]⟩
  serves := fun d => ⟨{}, exampleOptions op d⟩

theorem exampleAssembler_rule (op : PotentialOperator) (p e : Nat) (nominal : ℝ) :
    (exampleAssembler op).Rule exampleTriangles p e nominal ⟨3, 2⟩ :=
  ⟨rfl, {}, exampleOptions op _, rfl⟩

theorem exampleAssembler_moderate (op : PotentialOperator) (ps es : List Nat) (nominal : ℝ) :
    (exampleAssembler op).Moderate exampleTriangles ps es nominal := by
  intro p _ e _ n hn
  rw [accuracy_unique hn (exampleAssembler_rule op p e nominal).2]
  decide

/-- Non-vacuity of C79: for every operator, a list of two points and elements with a repetition. -/
example (k : ℂ) (op : PotentialOperator) (hop : op ∈ potentialOperators k) :
    ∃ order : List (Descriptor × Nat), (order.Nodup ∧ ∀ v, v ∈ order ↔ ∃ p ∈ [0, 1], ∃ e ∈ [1, 0, 1],
      (exampleAssembler op).Rule exampleTriangles p e (-1) v.1 ∧ (exampleAssembler op).trialAt e = v.2) ∧
    ∃ result, (exampleAssembler op).onGrid [0, 1] [1, 0, 1] (-1) order (List.replicate 6 (Mx.zero 0 0)) = .ok result ∧
      result.length = 6 := by
  have hr := exampleAssembler_rule op
  have hv := exampleAssembler_valid k op hop
  have hord : ([(⟨3, 2⟩, 1), (⟨3, 2⟩, 0)] : List (Descriptor × Nat)).Nodup ∧
      ∀ v, v ∈ ([(⟨3, 2⟩, 1), (⟨3, 2⟩, 0)] : List (Descriptor × Nat)) ↔ ∃ p ∈ [0, 1], ∃ e ∈ [1, 0, 1],
        (exampleAssembler op).Rule exampleTriangles p e (-1) v.1 ∧ (exampleAssembler op).trialAt e = v.2 := by
    refine ⟨by decide, fun v => ⟨fun h => ?_, ?_⟩⟩
    · have : v = (⟨3, 2⟩, 1) ∨ v = (⟨3, 2⟩, 0) := by simpa using h
      rcases this with rfl | rfl
      · exact ⟨0, by simp, 1, by simp, hr _ _ _, rfl⟩
      · exact ⟨0, by simp, 0, by simp, hr _ _ _, rfl⟩
    · rintro ⟨p, -, e, he, h1, h2⟩
      obtain ⟨d, a⟩ := v
      dsimp only at h1 h2
      rw [rule_unique h1 (hr p e (-1)), ← h2]
      have : e = 1 ∨ e = 0 := by
        have h : e = 1 ∨ e = 0 ∨ e = 1 := by simpa using he
        tauto
      rcases this with rfl | rfl <;> simp [exampleAssembler]
  obtain ⟨result, h1, h2, -⟩ := C79_grid (exampleAssembler op) k exampleTriangles hv [0, 1] [1, 0, 1]
    (by intro e he; have h : e = 1 ∨ e = 0 ∨ e = 1 := by simpa using he
        show e < 2; omega) (-1) _ (List.replicate 6 (Mx.zero 0 0)) (exampleAssembler_moderate op _ _ _) hord rfl
  exact ⟨_, hord, result, h1, h2⟩

end Verif.Pot
