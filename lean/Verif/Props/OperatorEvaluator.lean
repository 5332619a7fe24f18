import Verif.Lemmas.OperatorEvaluator
import Verif.Props.PotentialField
/-
Property C120: the evaluator of potential operators.
-/
namespace Verif.Pot
open Verif.Grid Verif.Shape Verif.SingleQuad Verif.Space Verif.HMat Verif.LocalOps Verif.GridFun Verif.Kernel Verif.Assembly
open Finset (range)

section
variable {addr : Type} [DecidableEq addr]

theorem far_exists {E : Evaluator addr} {k : ℂ} {tri : Triangles} (hv : E.Valid k tri) (s : Shapeset) : ∃ n, E.FarOrder s n := by
  obtain ⟨o, ho⟩ : ∃ o, E.singleRegular.getLast? = some o := ⟨_, List.getLast?_eq_getLast_of_ne_nil hv.options⟩
  exact ⟨_, o, ho, rfl⟩

omit [DecidableEq addr] in
theorem far_unique {E : Evaluator addr} {s : Shapeset} {n n' : Int} (h : E.FarOrder s n) (h' : E.FarOrder s n') : n = n' := by
  obtain ⟨o, h1, h2⟩ := h
  obtain ⟨o', h1', h2'⟩ := h'
  rw [h1] at h1'
  cases h1'
  rw [h2, h2']

theorem cornerCount_eq {E : Evaluator addr} {k : ℂ} {tri : Triangles} (hv : E.Valid k tri) (a : addr) (ha : a ∈ E.trialShapesets) :
    E.cornerCount a = 3 := by
  unfold Evaluator.cornerCount
  obtain ⟨e, he, h⟩ := List.getElem_of_mem ha
  cases hf : (List.range E.elementCount).find? fun e => decide (E.trialShapesets[e]? = some a) with
  | none =>
    rw [List.find?_eq_none] at hf
    exact absurd (by simpa using (List.getElem?_eq_getElem he).trans (congrArg some h))
      (hf e (List.mem_range.mpr (by rw [← hv.shapesets]; exact he)))
  | some e' =>
    dsimp only
    have := List.mem_range.mp (List.mem_of_find?_eq_some hf)
    obtain ⟨a, b, c, rest, h1, h2, h3, h4, h5⟩ := hv.corners e' this
    rw [h1]
    simp only [List.takeWhile_cons, h2, h3, h4, decide_true, if_true]
    have : rest.takeWhile (fun i => decide (0 ≤ i)) = [] := by
      cases rest with
      | nil => rfl
      | cons d rest =>
        have := h5 d (List.mem_cons_self ..)
        simp only [List.takeWhile_cons]
        rw [decide_eq_false (by omega)]
        rfl
    rw [this]
    rfl

theorem rule_eq {E : Evaluator addr} {k : ℂ} {tri : Triangles} (hv : E.Valid k tri) {a : addr} (ha : a ∈ E.trialShapesets) {n : Int}
    (hn : E.FarOrder (E.shapeset a) n) : E.rule a = fillSingle 3 n := by
  obtain ⟨o, h1, h2⟩ := hn
  unfold Evaluator.rule Evaluator.farField
  rw [h1, cornerCount_eq hv a ha]
  dsimp only
  rw [h2]
  rfl

/-- The cached data. -/
theorem construct_eq {E : Evaluator addr} {k : ℂ} {tri : Triangles} (hv : E.Valid k tri) (hm : E.Moderate) (order : List addr)
    (ho : E.Unique order) :
    ∃ rule : addr → List QPoint, (∀ a ∈ E.trialShapesets, ∀ n, E.FarOrder (E.shapeset a) n → rule a = rulePoints ⟨3, n⟩ ∧
        (rule a).length ≠ 0) ∧
      E.construct order = .ok ⟨(List.range E.elementCount).flatMap (E.cols rule), (List.range E.elementCount).flatMap (E.cols rule)⟩ := by
  have hrule : ∀ a ∈ E.trialShapesets, ∀ n, E.FarOrder (E.shapeset a) n →
      E.rule a = .ok (rulePoints ⟨3, n⟩) ∧ (rulePoints ⟨3, n⟩).length ≠ 0 := by
    intro a ha n hn
    obtain ⟨e, he, h⟩ := List.getElem_of_mem ha
    have hle := hm e (by rw [← hv.shapesets]; exact he) (E.shapeset a) n ⟨a, by rw [List.getElem?_eq_getElem he, h], rfl⟩ hn
    obtain ⟨r, hr, hx⟩ := rule_nonempty n hle
    have h3 : rulePoints ⟨3, n⟩ = r := by simp only [rulePoints, hr]
    rw [rule_eq hv ha hn, h3]
    exact ⟨hr, hx⟩
  refine ⟨fun a => rulePoints ⟨3, (far_exists hv (E.shapeset a)).choose⟩, ?_, ?_⟩
  · intro a ha n hn
    rw [far_unique hn (far_exists hv (E.shapeset a)).choose_spec]
    exact ⟨rfl, (hrule a ha _ (far_exists hv (E.shapeset a)).choose_spec).2⟩
  · unfold Evaluator.construct
    rw [if_neg (by rcases hv.aux with h | h <;> omega), if_neg (by rw [hv.shapesets]; simp), if_neg]
    · rw [calcTrialData_eq hv _ order ho fun a ha => (hrule a ((ho.2 a).mp ha) _ (far_exists hv (E.shapeset a)).choose_spec).1]
    · have hop := hv.op
      revert hop
      generalize E.op = op
      intro hop
      simp only [potentialOperators, List.mem_cons, List.not_mem_nil, or_false] at hop
      rcases hop with rfl | rfl | rfl | rfl | rfl | rfl | rfl | rfl | rfl | rfl | rfl | rfl | rfl | rfl <;> exact Bool.false_ne_true

theorem valueAt_eq {E : Evaluator addr} {k : ℂ} {tri : Triangles} (hv : E.Valid k tri) (rule : addr → List QPoint)
    (hr : ∀ a ∈ E.trialShapesets, ∀ n, E.FarOrder (E.shapeset a) n → rule a = rulePoints ⟨3, n⟩) (x : P3 ℝ) (c : Nat) :
    E.Potential tri x c (E.valueAt ((List.range E.elementCount).flatMap (E.cols rule)) x c) := by
  have ha : ∀ e < E.elementCount, ∃ a, E.trialShapesets[e]? = some a := fun e he =>
    ⟨_, List.getElem?_eq_getElem (by rw [hv.shapesets]; exact he)⟩
  rcases Nat.eq_zero_or_pos E.elementCount with h0 | h0
  · refine ⟨fun _ => ⟨0, 0, fun _ _ => ⟨0, 0, 0, 0, 0, 0⟩⟩, fun _ => 0, fun e he => absurd he (by omega), ?_⟩
    rw [h0]
    rfl
  haveI : Nonempty addr := ⟨(ha 0 h0).choose⟩
  choose! a ha using ha
  choose n hn using fun e => far_exists hv (E.shapeset (a e))
  refine ⟨fun e => E.shapeset (a e), n, fun e he => ⟨⟨a e, ha e he, rfl⟩, hn e⟩, ?_⟩
  unfold Evaluator.valueAt
  rw [foldl_sumC, zero_add, sum_flatMap_map, sum_list_range]
  refine Finset.sum_congr rfl fun e he => ?_
  have he := Finset.mem_range.mp he
  obtain ⟨co, hco⟩ : ∃ co, E.coefficients[e]? = some co := ⟨_, List.getElem?_eq_getElem (by rw [hv.coefficients]; exact he)⟩
  have hcols : E.cols rule e = (rulePoints ⟨3, n e⟩).map (E.column e (E.shapeset (a e)) co) := by
    unfold Evaluator.cols
    rw [ha e he, hco]
    dsimp only
    rw [hr (a e) (List.mem_of_getElem? (ha e he)) (n e) (hn e)]
  rw [hcols, List.map_map]
  have hc : ∀ b, E.coefficient e b = co.getD b 0 := fun b => by
    unfold Evaluator.coefficient
    have : E.coefficients.getD e [] = co := by rw [List.getD_eq_getElem?_getD, hco]; rfl
    rw [this]
  simp only [hc]
  unfold PotentialOperator.contribution
  simp only [← List.sum_map_mul_left]
  rw [list_sum_comm]
  refine congrArg List.sum (List.map_congr_left fun q _ => ?_)
  exact column_value hv.op (tri e) e (E.shapeset (a e)) co q (hv.triangles e he) (hv.positions e he (q.x, q.y)) x c

/-- **C120 (value)** In whatever order the set of shapesets is traversed, the evaluator is made; and in whatever order the chunks of points
are treated, for both regions, any number of points and any positions, every component at every point is the sum over the elements and
their functions of the coefficient times the integral over the triangle, by the rule of the order that the options request for great
distances. -/
theorem C120_value (E : Evaluator addr) (k : ℂ) (tri : Triangles) (hv : E.Valid k tri) (hm : E.Moderate) (hne : 0 < E.elementCount)
    (order : List addr) (ho : E.Unique order) :
    ∃ cached, E.construct order = .ok cached ∧ ∀ (region : Region) (n : Nat) (points : Nat → P3 ℝ),
      (∃ out, E.Run cached region n points out) ∧ ∀ out, E.Run cached region n points out → ∃ M, out = .ok M ∧
        M.rows = E.op.functor.dim ∧ M.cols = n ∧ ∀ c < M.rows, ∀ p < n, ∀ z, M.e c p = z ↔ E.Potential tri (points p) c z := by
  obtain ⟨rule, hr, hc⟩ := construct_eq hv hm order ho
  refine ⟨_, hc, fun region n points => ?_⟩
  have hreg : ∀ l : List Column, (Cached.mk l l).region region = l := fun l => by cases region <;> rfl
  unfold Evaluator.Run
  rw [hreg]
  have hlen : 0 < ((List.range E.elementCount).flatMap (E.cols rule)).length := by
    rw [List.length_pos_iff]
    intro h0
    rw [List.flatMap_eq_nil_iff] at h0
    have h1 := h0 0 (List.mem_range.mpr hne)
    have hlt : 0 < E.trialShapesets.length := by rw [hv.shapesets]; exact hne
    have hlc : 0 < E.coefficients.length := by rw [hv.coefficients]; exact hne
    obtain ⟨m, hm'⟩ := far_exists hv (E.shapeset E.trialShapesets[0])
    have h2 := (hr _ (List.getElem_mem hlt) m hm').2
    unfold Evaluator.cols at h1
    rw [List.getElem?_eq_getElem hlt, List.getElem?_eq_getElem hlc] at h1
    dsimp only at h1
    rw [List.map_eq_nil_iff] at h1
    exact h2 (by rw [h1]; rfl)
  generalize hL : (List.range E.elementCount).flatMap (E.cols rule) = L at hlen
  unfold Evaluator.chunkSize
  rw [if_neg (Nat.mul_pos hlen hv.kernels).ne']
  dsimp only
  generalize hsz : max 1 (10 * 1024 * 1024 / (L.length * E.sizeOfKernel)) = size
  have hpos : 0 < size := by rw [← hsz]; exact Nat.lt_of_lt_of_le Nat.one_pos (Nat.le_max_left _ _)
  refine ⟨⟨_, _, List.Perm.refl _, rfl⟩, ?_⟩
  rintro out ⟨sched, hs, rfl⟩
  refine ⟨_, rfl, rfl, rfl, fun c _ p hp z => ?_⟩
  dsimp only
  rw [foldl_task, if_pos]
  · have h1 := valueAt_eq hv rule (fun a ha n hn => (hr a ha n hn).1) (points p) c
    rw [hL] at h1
    constructor
    · rintro rfl; exact h1
    · rintro ⟨s, m, hsn, rfl⟩
      obtain ⟨s', m', hsn', h⟩ := h1
      rw [h]
      refine Finset.sum_congr rfl fun e he => ?_
      have he := Finset.mem_range.mp he
      have hse : s' e = s e := by
        obtain ⟨⟨b, hb, e1⟩, -⟩ := hsn e he
        obtain ⟨⟨b', hb', e1'⟩, -⟩ := hsn' e he
        rw [hb] at hb'
        cases hb'
        rw [e1, e1']
      have hme : m' e = m e := far_unique (hse ▸ (hsn' e he).2) (hsn e he).2
      rw [hse, hme]
  · obtain ⟨t, h1, h2⟩ := (mem_tasks (n := n) hpos).mpr hp
    exact ⟨t, hs.mem_iff.mpr h1, h2⟩

omit [DecidableEq addr] in
/-- **C120 (agreement with the assembled operator)** If the accuracy options give for the distances of a point from all elements what they
give for the greatest distances, then the value of the evaluator at the point is the one that a caller gets who assembles the operator
at points among which it is, and applies the result to the coefficients of the argument. -/
theorem C120_same_as_assembled {addr' : Type} (E : Evaluator addr) (A : Assembler addr') (k : ℂ) (tri : Triangles) (U : ASpace ℂ)
    (n : Nat) (hs : A.Setup k tri U n) (a : Nat → ℂ) (hE : E.Agrees A U a) (p c : Nat) (hp : p < n) (hc : c < A.op.functor.dim)
    (far : ∀ e < U.elementCount, ∀ o, Verif.Quad.regularOptions A.singleRegular (A.distance tri (A.points p) e (-1)) = some o →
      A.singleRegular.getLast?.map Prod.snd = some o) (z : ℂ) :
    E.Potential tri (A.points p) c z ↔ A.Computes tri U n a p c z := by
  rw [computes_iff hs a p c z]
  have hrule : ∀ e < U.elementCount, ∀ m, E.FarOrder (A.shapes e) m → A.rule tri p e (-1) = ⟨3, m⟩ := by
    rintro e he m ⟨o, ho, rfl⟩
    rw [hE.options] at ho
    refine (rule_iff hs.valid p e (-1) _).mp ⟨rfl, ?_⟩
    obtain ⟨o', ho'⟩ := hs.valid.serves (A.distance tri (A.points p) e (-1))
    have h := far e he o' ho'
    rw [ho] at h
    have h' : o.2 = o' := by simpa using h
    subst h'
    exact ⟨o.2, ho', rfl⟩
  have hval : ∀ (s : Nat → Shapeset) (m : Nat → Int), (∀ e < E.elementCount, E.HasShapeset e (s e) ∧ E.FarOrder (s e) (m e)) →
      ∑ e ∈ range E.elementCount, ∑ b ∈ range (s e).size, E.coefficient e b *
        E.op.contribution (tri e) (rulePoints ⟨3, m e⟩) (A.points p) ((s e).shape b) c = A.computed tri U a p c := by
    intro s m h
    unfold Assembler.computed
    rw [hE.elements]
    refine Finset.sum_congr rfl fun e he => ?_
    have he := Finset.mem_range.mp he
    have hse : s e = A.shapes e := by
      obtain ⟨⟨b, hb, e1⟩, -⟩ := h e (by rw [hE.elements]; exact he)
      obtain ⟨b', hb', e1'⟩ := hE.shapesets e he
      rw [hb] at hb'
      cases hb'
      rw [e1, e1']
    have hm := hrule e he (m e) (hse ▸ (h e (by rw [hE.elements]; exact he)).2)
    rw [hse, hs.sizes e he]
    refine Finset.sum_congr rfl fun b hb => ?_
    rw [hE.coefficients e he b (Finset.mem_range.mp hb)]
    unfold Assembler.entry
    rw [hm, hE.op]
  constructor
  · rintro ⟨s, m, h, rfl⟩
    exact ⟨hp, hc, hval s m h⟩
  · rintro ⟨-, -, rfl⟩
    have hopt : ∃ o, A.singleRegular.getLast? = some o := by
      obtain ⟨o, ho⟩ := hs.valid.serves 0
      have : A.singleRegular ≠ [] := by
        intro h
        rw [h] at ho
        simp [Verif.Quad.regularOptions] at ho
      exact ⟨_, List.getLast?_eq_getLast_of_ne_nil this⟩
    obtain ⟨o, ho⟩ := hopt
    have h : ∀ e < E.elementCount, E.HasShapeset e (A.shapes e) ∧ E.FarOrder (A.shapes e)
        (if o.2.relative then 2 * (A.shapes e).order + o.2.value else o.2.value) := fun e he =>
      ⟨hE.shapesets e (by rw [← hE.elements]; exact he), o, by rw [hE.options]; exact ho, rfl⟩
    exact ⟨A.shapes, _, h, (hval _ _ h).symm⟩

/-- **C120 (errors)** Auxiliary data or shapesets for another number of elements are refused, and so are operators whose kernels depend on
the normal at the point and orders for which there is no rule. -/
theorem C120_errors (E : Evaluator addr) (order : List addr) :
    (0 < E.auxRows → E.auxCols ≠ E.elementCount → ∃ m, E.construct order = .throws m) ∧
    (E.trialShapesets.length ≠ E.elementCount → ∃ m, E.construct order = .throws m) ∧
    (E.op.kernels.testNormals = true → ∃ m, E.construct order = .throws m) ∧
    (∀ k tri, E.Valid k tri → E.Unique order → ∀ cached, E.construct order = .ok cached →
      ∀ e < E.elementCount, ∀ s n, E.HasShapeset e s → E.FarOrder s n → ∃ r, fillSingle 3 n = .ok r) := by
  refine ⟨fun h h' => ?_, fun h => ?_, fun h => ?_, ?_⟩
  · unfold Evaluator.construct
    rw [if_pos ⟨h, h'⟩]
    exact ⟨_, rfl⟩
  · unfold Evaluator.construct
    rw [if_pos h]
    split <;> exact ⟨_, rfl⟩
  · unfold Evaluator.construct
    rw [if_pos h]
    split
    · exact ⟨_, rfl⟩
    · split <;> exact ⟨_, rfl⟩
  · intro k tri hv ho cached hc e he s n ⟨a, ha, hs⟩ hn
    subst hs
    have hmem := List.mem_of_getElem? ha
    rw [← rule_eq hv hmem hn]
    have hloop : ∀ (l : List addr) st st', E.shapesetLoop l st = .ok st' → ∀ a ∈ l, ∃ r, E.rule a = .ok r := by
      intro l
      induction l with
      | nil => intro _ _ _ a ha; cases ha
      | cons b l ih =>
        intro st st' h a ha
        unfold Evaluator.shapesetLoop at h
        cases hb : E.rule b with
        | undefined => rw [hb] at h; cases h
        | throws m => rw [hb] at h; cases h
        | ok r =>
          rw [hb] at h
          dsimp only at h
          cases hl : E.elementLoop b r (List.range E.elementCount) st with
          | undefined => rw [hl] at h; cases h
          | throws m => rw [hl] at h; cases h
          | ok st1 =>
            rw [hl] at h
            rcases List.mem_cons.mp ha with rfl | ha
            · exact ⟨r, hb⟩
            · exact ih _ _ h a ha
    unfold Evaluator.construct at hc
    split at hc
    · cases hc
    split at hc
    · cases hc
    split at hc
    · cases hc
    unfold Evaluator.calcTrialData at hc
    cases hl : E.shapesetLoop order (fun _ => [], 0) with
    | undefined => rw [hl] at hc; cases hc
    | throws m => rw [hl] at hc; cases hc
    | ok st => exact hloop _ _ _ hl a ((ho.2 a).mpr hmem)

theorem elementLoop_ne_throws (E : Evaluator addr) (a : addr) (rule : List QPoint) (es : List Nat)
    (st : (Nat → List Column) × Nat) (m : String) : E.elementLoop a rule es st ≠ .throws m := by
  induction es generalizing st with
  | nil => unfold Evaluator.elementLoop; intro h; cases h
  | cons e0 es ih =>
    unfold Evaluator.elementLoop
    split
    · split
      · intro h; cases h
      · split
        · intro h; cases h
        · exact ih _
    · exact ih _

theorem elementLoop_undefined (E : Evaluator addr) (a : addr) (rule : List QPoint) (es : List Nat)
    (h : ∃ e ∈ es, E.trialShapesets[e]? = some a ∧ ∀ co, E.coefficients[e]? = some co → co.length < (E.shapeset a).size)
    (st : (Nat → List Column) × Nat) : E.elementLoop a rule es st = .undefined := by
  induction es generalizing st with
  | nil => obtain ⟨e, he, _⟩ := h; exact absurd he List.not_mem_nil
  | cons e0 es ih =>
    obtain ⟨e, he, h1, h2⟩ := h
    unfold Evaluator.elementLoop
    by_cases h0 : e = e0
    · subst h0
      rw [if_pos h1]
      split
      · rfl
      · rename_i co hco
        rw [if_pos (h2 co hco)]
    · have he' : e ∈ es := by
        rcases List.mem_cons.1 he with h | h
        · exact absurd h h0
        · exact h
      split
      · split
        · rfl
        · split
          · rfl
          · exact ih ⟨e, he', h1, h2⟩ _
      · exact ih ⟨e, he', h1, h2⟩ _

/-- **C120 (preconditions).**  Without accuracy options, and with a missing list of coefficients or one that is too short for its element,
the behaviour is undefined. -/
theorem C120_undefined (E : Evaluator addr) (order : List addr) :
    (E.singleRegular = [] → order ≠ [] → E.calcTrialData order = .undefined) ∧
    ((∀ a ∈ order, ∃ r, E.rule a = .ok r) →
      (∃ a ∈ order, ∃ e < E.elementCount, E.trialShapesets[e]? = some a ∧
        ∀ co, E.coefficients[e]? = some co → co.length < (E.shapeset a).size) → E.calcTrialData order = .undefined) := by
  constructor
  · intro hs hne
    obtain ⟨a, order, rfl⟩ := List.exists_cons_of_ne_nil hne
    have hr : E.rule a = .undefined := by unfold Evaluator.rule Evaluator.farField; rw [hs]; rfl
    unfold Evaluator.calcTrialData Evaluator.shapesetLoop
    rw [hr]
  · intro hr hbad
    have key : ∀ st, E.shapesetLoop order st = .undefined := by
      induction order with
      | nil => obtain ⟨a, ha, _⟩ := hbad; exact absurd ha List.not_mem_nil
      | cons a0 order ih =>
        intro st
        obtain ⟨r, h0⟩ := hr a0 (by simp)
        obtain ⟨a, ha, e, he, h1, h2⟩ := hbad
        unfold Evaluator.shapesetLoop
        rw [h0]
        dsimp only
        by_cases haa : a = a0
        · subst haa
          rw [elementLoop_undefined E a r _ ⟨e, List.mem_range.2 he, h1, h2⟩]
        · have ha' : a ∈ order := by
            rcases List.mem_cons.1 ha with h | h
            · exact absurd h haa
            · exact h
          have hi := ih (fun b hb => hr b (List.mem_cons_of_mem _ hb)) ⟨a, ha', e, he, h1, h2⟩
          split
          · rfl
          · rename_i m hm
            exact absurd hm (elementLoop_ne_throws E a0 r _ _ m)
          · exact hi _
    unfold Evaluator.calcTrialData
    rw [key]

/-- **C120 (counterexample)** On a grid without elements the constructor succeeds and `evaluate` divides by zero, even if there are no
points. -/
theorem C120_counterexample_empty (E : Evaluator addr) (k : ℂ) (tri : Triangles) (hv : E.Valid k tri) (h0 : E.elementCount = 0) :
    ∃ cached, E.construct [] = .ok cached ∧ ∀ region n points out, E.Run cached region n points out ↔ out = .undefined := by
  have hnil : E.trialShapesets = [] := List.length_eq_zero_iff.mp (by rw [hv.shapesets, h0])
  obtain ⟨rule, -, hc⟩ := construct_eq hv (fun e he => by omega) [] ⟨List.nodup_nil, by simp [hnil]⟩
  refine ⟨_, hc, fun region n points out => ?_⟩
  have hreg : ∀ l : List Column, (Cached.mk l l).region region = l := fun l => by cases region <;> rfl
  unfold Evaluator.Run
  rw [hreg, h0]
  simp [Evaluator.chunkSize]

end

/-- An evaluator that meets the hypotheses: two triangles with linear shapesets at different addresses. -/
noncomputable def exampleEvaluator (op : PotentialOperator) : Evaluator Nat where
  op := op
  mesh := (exampleAssembler op).mesh
  elementCount := 2
  corners := fun e => if e = 0 then [0, 1, 2, -1] else [0, 1, 3, -1]
  auxRows := 0
  auxCols := 0
  trialShapesets := [0, 1]
  shapeset := fun _ => linearShapeset
  coefficients := [[1, 2, Complex.I], [3, 4, 5]]
  singleRegular := [(⊤, {})]
  sizeOfKernel := 8
  unset := ⟨0, 0, 0⟩
  blank := (exampleAssembler op).blank 0

theorem exampleEvaluator_valid (k : ℂ) (op : PotentialOperator) (hop : op ∈ potentialOperators k) :
    (exampleEvaluator op).Valid k exampleTriangles where
  op := hop
  aux := Or.inl rfl
  triangles := fun e he => (exampleAssembler_valid k op hop).triangles e he
  positions := fun e he => (exampleAssembler_valid k op hop).positions e he
  corners := by
    intro e _
    by_cases he : e = 0
    · exact ⟨0, 1, 2, [-1], by simp [exampleEvaluator, he], by decide, by decide, by decide, by simp⟩
    · exact ⟨0, 1, 3, [-1], by simp [exampleEvaluator, he], by decide, by decide, by decide, by simp⟩
  shapesets := rfl
  coefficients := rfl
  sizes := by
    rintro e a co - h
    have hm := List.mem_of_getElem? h
    have : co = [1, 2, Complex.I] ∨ co = [3, 4, 5] := by simpa [exampleEvaluator] using hm
    rcases this with rfl | rfl <;> rfl
  options := by simp [exampleEvaluator]
  kernels := Nat.succ_pos 7

/-- Non-vacuity of C120: for every operator, with the set traversed from the second address to the first. -/
example (k : ℂ) (op : PotentialOperator) (hop : op ∈ potentialOperators k) :
    (exampleEvaluator op).Valid k exampleTriangles ∧ (exampleEvaluator op).Moderate ∧ 0 < (exampleEvaluator op).elementCount ∧
      (exampleEvaluator op).Unique [1, 0] := by
  refine ⟨exampleEvaluator_valid k op hop, ?_, Nat.succ_pos 1, by decide, fun a => ?_⟩
  · rintro e he s n ⟨a, -, rfl⟩ ⟨o, ho, rfl⟩
    have : o = (⊤, {}) := by simpa [exampleEvaluator] using ho.symm
    subst this
    show (2 : Int) * 1 + 0 ≤ 20
    decide
  · simp [exampleEvaluator]
    tauto

end Verif.Pot
