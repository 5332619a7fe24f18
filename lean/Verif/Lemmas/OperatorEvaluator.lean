import Verif.Spec.OperatorEvaluator
import Verif.Lemmas.PotentialNodes
import Mathlib.Order.Nat
/-
Lemmas on the evaluator of potential operators.
-/
namespace Verif.Pot
open Verif.Grid Verif.Shape Verif.SingleQuad Verif.Space Verif.HMat Verif.LocalOps Verif.GridFun Verif.Kernel Verif.Assembly
open Finset (range)

/-! ### The argument -/

theorem foldl_sumR {α : Type} (f : α → ℝ) (l : List α) (a : ℝ) : l.foldl (fun s x => s + f x) a = a + (l.map f).sum := by
  induction l generalizing a with
  | nil => simp
  | cons x l ih => simp [ih, add_assoc]

theorem sum_list_rangeR (n : Nat) (f : Nat → ℝ) : ((List.range n).map f).sum = ∑ i ∈ range n, f i := by
  induction n with
  | zero => simp
  | succ n ih => rw [List.range_succ, List.map_append, List.sum_append, ih, Finset.sum_range_succ]; simp

theorem superpose_eq (s : Shapeset) (co : List ℝ) (p : ℝ × ℝ) :
    superpose s co p = ⟨∑ b ∈ range s.size, (s.shape b p).v0 * co.getD b 0, ∑ b ∈ range s.size, (s.shape b p).v1 * co.getD b 0,
      ∑ b ∈ range s.size, (s.shape b p).d00 * co.getD b 0, ∑ b ∈ range s.size, (s.shape b p).d01 * co.getD b 0,
      ∑ b ∈ range s.size, (s.shape b p).d10 * co.getD b 0, ∑ b ∈ range s.size, (s.shape b p).d11 * co.getD b 0⟩ := by
  unfold superpose
  simp only [foldl_sumR, sum_list_rangeR, zero_add]

/-- The transformations of the operators. -/
noncomputable def operatorTransformations : List (List Transformation) := [[scalarValueT], [hdivT, surfaceDivT], [hdivT]]

theorem transformations_mem {k : ℂ} {op : PotentialOperator} (hop : op ∈ potentialOperators k) :
    op.transformations ∈ operatorTransformations := by
  simp only [potentialOperators, List.mem_cons, List.not_mem_nil, or_false] at hop
  rcases hop with rfl | rfl | rfl | rfl | rfl | rfl | rfl | rfl | rfl | rfl | rfl | rfl | rfl | rfl <;>
    simp [operatorTransformations, laplaceSingle, laplaceDouble, laplaceSingleGradient, laplaceDoubleGradient, modifiedHelmholtzSingle,
      modifiedHelmholtzDouble, helmholtzSingle, helmholtzDouble, helmholtzFarSingle, helmholtzFarDouble, maxwellSingle, maxwellDouble,
      maxwellFarSingle, maxwellFarDouble]

theorem scalarValueT_superpose (s : Shapeset) (co : List ℝ) (p : ℝ × ℝ) (g : GeomData) (d : Nat) :
    scalarValueT.evaluate (superpose s co p) g d = ∑ b ∈ range s.size, co.getD b 0 * scalarValueT.evaluate (s.shape b p) g d := by
  rw [superpose_eq]
  unfold scalarValueT
  dsimp only
  exact Finset.sum_congr rfl fun b _ => mul_comm ((s.shape b p).v0) (co.getD b 0)

theorem lin2 (n : Nat) (x y : ℝ) (u v w : Nat → ℝ) (z : ℝ) :
    (x * (∑ b ∈ range n, u b * w b) + y * (∑ b ∈ range n, v b * w b)) / z = ∑ b ∈ range n, w b * ((x * u b + y * v b) / z) := by
  rw [Finset.mul_sum, Finset.mul_sum, ← Finset.sum_add_distrib, Finset.sum_div]
  exact Finset.sum_congr rfl fun b _ => by ring

theorem hdivT_superpose (s : Shapeset) (co : List ℝ) (p : ℝ × ℝ) (g : GeomData) (d : Nat) :
    hdivT.evaluate (superpose s co p) g d = ∑ b ∈ range s.size, co.getD b 0 * hdivT.evaluate (s.shape b p) g d := by
  rw [superpose_eq]
  unfold hdivT hdivValue comp
  dsimp only
  split
  · exact lin2 _ _ _ _ _ _ _
  · split <;> exact lin2 _ _ _ _ _ _ _

theorem surfaceDivT_superpose (s : Shapeset) (co : List ℝ) (p : ℝ × ℝ) (g : GeomData) (d : Nat) :
    surfaceDivT.evaluate (superpose s co p) g d = ∑ b ∈ range s.size, co.getD b 0 * surfaceDivT.evaluate (s.shape b p) g d := by
  rw [superpose_eq]
  unfold surfaceDivT surfaceDiv
  dsimp only
  rw [← Finset.sum_add_distrib, Finset.sum_div]
  exact Finset.sum_congr rfl fun b _ => by ring

theorem transformed_superpose {ts : List Transformation} (ht : ts ∈ operatorTransformations) (s : Shapeset) (co : List ℝ) (p : ℝ × ℝ)
    (g : GeomData) (i d : Nat) :
    transformed ts (superpose s co p) g i d = ∑ b ∈ range s.size, ((co.getD b 0 : ℝ) : ℂ) * transformed ts (s.shape b p) g i d := by
  unfold transformed
  have key : ∀ t : Transformation, (∀ d, t.evaluate (superpose s co p) g d = ∑ b ∈ range s.size, co.getD b 0 * t.evaluate (s.shape b p) g d) →
      ((t.evaluate (superpose s co p) g d : ℝ) : ℂ) = ∑ b ∈ range s.size, ((co.getD b 0 : ℝ) : ℂ) * ((t.evaluate (s.shape b p) g d : ℝ) : ℂ) := by
    intro t h
    rw [h]
    push_cast
    rfl
  have kS := key scalarValueT fun d => scalarValueT_superpose s co p g d
  have kH := key hdivT fun d => hdivT_superpose s co p g d
  have kD := key surfaceDivT fun d => surfaceDivT_superpose s co p g d
  simp only [operatorTransformations, List.mem_cons, List.not_mem_nil, or_false] at ht
  rcases ht with rfl | rfl | rfl
  · rcases i with _ | i
    · simpa using kS
    · simp
  · rcases i with _ | _ | i
    · simpa using kH
    · simpa using kD
    · simp
  · rcases i with _ | i
    · simpa using kH
    · simp

theorem getD_map_re (co : List ℂ) (b : Nat) : (co.map Complex.re).getD b 0 = (co.getD b 0).re := by
  rw [List.getD_eq_getElem?_getD, List.getD_eq_getElem?_getD, List.getElem?_map]
  cases co[b]? <;> simp

theorem getD_map_im (co : List ℂ) (b : Nat) : (co.map Complex.im).getD b 0 = (co.getD b 0).im := by
  rw [List.getD_eq_getElem?_getD, List.getD_eq_getElem?_getD, List.getElem?_map]
  cases co[b]? <;> simp

theorem transformed_complex {ts : List Transformation} (ht : ts ∈ operatorTransformations) (s : Shapeset) (co : List ℂ) (p : ℝ × ℝ)
    (g : GeomData) (i d : Nat) :
    transformed ts (superpose s (co.map Complex.re) p) g i d + transformed ts (superpose s (co.map Complex.im) p) g i d * Complex.I =
      ∑ b ∈ range s.size, co.getD b 0 * transformed ts (s.shape b p) g i d := by
  rw [transformed_superpose ht, transformed_superpose ht, Finset.sum_mul, ← Finset.sum_add_distrib]
  refine Finset.sum_congr rfl fun b _ => ?_
  rw [getD_map_re, getD_map_im]
  conv_rhs => rw [← Complex.re_add_im (co.getD b 0)]
  ring

/-! ### One column -/

section
variable {addr : Type} {E : Evaluator addr} {k : ℂ} {tri : Triangles}

theorem column_value (hop : E.op ∈ potentialOperators k) (T : P3 ℝ × P3 ℝ × P3 ℝ) (e : Nat) (s : Shapeset) (co : List ℂ)
    (q : QPoint) (hT : IsTriangle E.mesh.toMesh e T.1 T.2.1 T.2.2)
    (hp : E.mesh.local2global e (q.x, q.y) = refMap T.1 T.2.1 T.2.2 (q.x, q.y)) (x : P3 ℝ) (c : Nat) :
    let col := E.column e s co q
    E.op.functor.evaluate col.data (kernelValues E.op.kernels ⟨x, E.unset⟩ ⟨col.data.global, col.data.geom.normal⟩) col.values c *
      (col.weight : ℂ) =
    ∑ b ∈ range s.size, co.getD b 0 *
      (((2 * area T.1 T.2.1 T.2.2 : ℝ) : ℂ) * ((q.w : ℂ) * E.op.integrand T x (s.shape b (q.x, q.y)) (q.x, q.y) c)) := by
  intro col
  have hval : col.values = fun i d => ∑ b ∈ range s.size, co.getD b 0 *
      transformed E.op.transformations (s.shape b (q.x, q.y)) (E.mesh.fill e (q.x, q.y) E.geomDeps E.blank).geom i d :=
    funext fun i => funext fun d => transformed_complex (transformations_mem hop) s co (q.x, q.y) _ i d
  rw [hval, functor_linear hop, Finset.sum_mul]
  refine Finset.sum_congr rfl fun b _ => ?_
  have hw : (col.weight : ℂ) = (q.w : ℂ) * ((2 * area T.1 T.2.1 T.2.2 : ℝ) : ℂ) := by
    rw [← ie_eq, ← Complex.ofReal_mul]
    refine congrArg _ ?_
    show q.w * _ = q.w * _
    refine congrArg _ ?_
    obtain ⟨A, B, C⟩ := T
    obtain ⟨-, hd, hA⟩ := hT
    dsimp only at hd
    unfold FMesh.fill Evaluator.geomDeps
    dsimp only
    rw [hd]
    revert hop
    generalize E.op = op
    intro hop
    simp only [potentialOperators, List.mem_cons, List.not_mem_nil, or_false] at hop
    rcases hop with rfl | rfl | rfl | rfl | rfl | rfl | rfl | rfl | rfl | rfl | rfl | rfl | rfl | rfl <;> rfl
  have hi : E.op.functor.evaluate col.data (kernelValues E.op.kernels ⟨x, E.unset⟩ ⟨col.data.global, col.data.geom.normal⟩)
      (transformed E.op.transformations (s.shape b (q.x, q.y)) (E.mesh.fill e (q.x, q.y) E.geomDeps E.blank).geom) c =
      E.op.integrand T x (s.shape b (q.x, q.y)) (q.x, q.y) c := by
    obtain ⟨A, B, C⟩ := T
    obtain ⟨-, hd, hA⟩ := hT
    dsimp only at hd hA hp
    show E.op.functor.evaluate (E.column e s co q).data (kernelValues E.op.kernels ⟨x, E.unset⟩
      ⟨(E.column e s co q).data.global, (E.column e s co q).data.geom.normal⟩) _ c = _
    unfold PotentialOperator.integrand Evaluator.column FMesh.fill Evaluator.geomDeps
    dsimp only
    rw [unitNormal_eq A B C hA, hd, hp]
    revert hop
    generalize E.op = op
    intro hop
    simp only [potentialOperators, List.mem_cons, List.not_mem_nil, or_false] at hop
    rcases hop with rfl | rfl | rfl | rfl | rfl | rfl | rfl | rfl | rfl | rfl | rfl | rfl | rfl | rfl <;> rfl
  rw [hi, hw]
  ring

/-! ### The loops -/

/-- What is kept of element `e` whose shapeset is at `a`, with the rule of `a`. -/
noncomputable def Evaluator.cols (E : Evaluator addr) (rule : addr → List QPoint) (e : Nat) : List Column :=
  match E.trialShapesets[e]?, E.coefficients[e]? with
  | some a, some co => (rule a).map (E.column e (E.shapeset a) co)
  | _, _ => []

variable [DecidableEq addr]

theorem elementLoop_spec (hv : E.Valid k tri) (rule : addr → List QPoint) (a : addr) (es : List Nat) (he : ∀ e ∈ es, e < E.elementCount)
    (hn : es.Nodup) (f : Nat → List Column) (n : Nat) :
    ∃ f', E.elementLoop a (rule a) es (f, n) = .ok (f', n + ((es.filter fun e => decide (E.trialShapesets[e]? = some a)).map fun e =>
      (E.cols rule e).length).sum) ∧ ∀ e, f' e = if e ∈ es ∧ E.trialShapesets[e]? = some a then E.cols rule e else f e := by
  induction es generalizing f n with
  | nil => exact ⟨f, by simp [Evaluator.elementLoop], by simp⟩
  | cons e es ih =>
    have hlt := he e (List.mem_cons_self ..)
    unfold Evaluator.elementLoop
    by_cases h : E.trialShapesets[e]? = some a
    · rw [if_pos h]
      have hlc : e < E.coefficients.length := by rw [hv.coefficients]; exact hlt
      have hco : E.coefficients[e]? = some E.coefficients[e] := List.getElem?_eq_getElem hlc
      have hs := hv.sizes e a _ h hco
      simp only [hco]
      rw [if_neg (by omega)]
      have hcols : E.cols rule e = (rule a).map (E.column e (E.shapeset a) E.coefficients[e]) := by
        unfold Evaluator.cols; rw [h, hco]
      obtain ⟨f', h1, h2⟩ := ih (fun e' h' => he e' (List.mem_cons_of_mem _ h')) (List.nodup_cons.mp hn).2
        (Function.update f e ((rule a).map (E.column e (E.shapeset a) E.coefficients[e]))) (n + (rule a).length)
      refine ⟨f', ?_, ?_⟩
      · rw [h1, List.filter_cons, if_pos (by simpa using h), List.map_cons, List.sum_cons, hcols, List.length_map, Nat.add_assoc]
      · intro e'
        rw [h2 e']
        by_cases h3 : e' = e
        · subst h3
          rw [if_neg (fun h4 => (List.nodup_cons.mp hn).1 h4.1), if_pos ⟨List.mem_cons_self .., h⟩, Function.update_self, hcols]
        · rw [Function.update_of_ne h3]
          by_cases h4 : e' ∈ es <;> simp [h3, h4]
    · rw [if_neg h]
      obtain ⟨f', h1, h2⟩ := ih (fun e' h' => he e' (List.mem_cons_of_mem _ h')) (List.nodup_cons.mp hn).2 f n
      refine ⟨f', ?_, ?_⟩
      · rw [h1, List.filter_cons, if_neg (by simpa using h)]
      · intro e'
        rw [h2 e']
        by_cases h3 : e' = e
        · subst h3; simp [h]
        · simp [h3]

theorem shapesetLoop_spec (hv : E.Valid k tri) (rule : addr → List QPoint) (order : List addr)
    (hr : ∀ a ∈ order, E.rule a = .ok (rule a)) (ho : order.Nodup) (f : Nat → List Column) (n : Nat) :
    ∃ f', E.shapesetLoop order (f, n) = .ok (f', n + (order.map fun a => (((List.range E.elementCount).filter fun e =>
      decide (E.trialShapesets[e]? = some a)).map fun e => (E.cols rule e).length).sum).sum) ∧
      ∀ e, f' e = if e < E.elementCount ∧ ∃ a ∈ order, E.trialShapesets[e]? = some a then E.cols rule e else f e := by
  induction order generalizing f n with
  | nil => exact ⟨f, by simp [Evaluator.shapesetLoop], by simp⟩
  | cons a order ih =>
    unfold Evaluator.shapesetLoop
    rw [hr a (List.mem_cons_self ..)]
    dsimp only
    obtain ⟨g, g1, g2⟩ := elementLoop_spec hv rule a (List.range E.elementCount) (fun e h => List.mem_range.mp h) List.nodup_range f n
    rw [g1]
    dsimp only
    obtain ⟨f', h1, h2⟩ := ih (fun b hb => hr b (List.mem_cons_of_mem _ hb)) (List.nodup_cons.mp ho).2 g _
    refine ⟨f', ?_, ?_⟩
    · rw [h1, List.map_cons, List.sum_cons, Nat.add_assoc]
    · intro e
      rw [h2 e, g2 e]
      simp only [List.mem_range, List.mem_cons, exists_eq_or_imp]
      by_cases h3 : e < E.elementCount
      · by_cases h4 : E.trialShapesets[e]? = some a
        · by_cases h5 : ∃ b ∈ order, E.trialShapesets[e]? = some b <;> simp [h3, h4]
        · simp [h3, h4]
      · simp [h3]

theorem sum_partition (order : List addr) (ho : order.Nodup) (l : List Nat) (key : Nat → Option addr) (w : Nat → Nat)
    (hk : ∀ e ∈ l, ∃ a ∈ order, key e = some a) :
    (order.map fun a => ((l.filter fun e => decide (key e = some a)).map w).sum).sum = (l.map w).sum := by
  induction l with
  | nil => simp
  | cons e l ih =>
    obtain ⟨a, ha, hka⟩ := hk e (List.mem_cons_self ..)
    rw [List.map_cons, List.sum_cons, ← ih fun e' h' => hk e' (List.mem_cons_of_mem _ h')]
    clear ih hk
    induction order with
    | nil => cases ha
    | cons b order ih =>
      obtain ⟨hb, ho⟩ := List.nodup_cons.mp ho
      simp only [List.map_cons, List.sum_cons]
      by_cases h : b = a
      · subst h
        have hrest : (order.map fun a => (((e :: l).filter fun e => decide (key e = some a)).map w).sum) =
            order.map fun a => ((l.filter fun e => decide (key e = some a)).map w).sum := by
          refine List.map_congr_left fun c hc => ?_
          rw [List.filter_cons, if_neg]
          rw [hka]
          simp only [Option.some.injEq, decide_eq_true_eq]
          rintro rfl
          exact hb hc
        rw [hrest, List.filter_cons, if_pos (by simp [hka]), List.map_cons, List.sum_cons, Nat.add_assoc]
      · have hmem : a ∈ order := (List.mem_cons.mp ha).resolve_left fun h' => h h'.symm
        rw [ih ho hmem, List.filter_cons, if_neg (by rw [hka]; simp [Ne.symm h])]
        omega

omit [DecidableEq addr] in
theorem copyAt_eq (cols : List Column) (start : Nat) (big : List Column) (h : start + cols.length ≤ big.length) :
    copyAt start cols big = big.take start ++ cols ++ big.drop (start + cols.length) := by
  unfold copyAt
  induction cols using List.reverseRecOn with
  | nil => simp
  | append_singleton cols c ih =>
    rw [List.length_append, List.length_singleton] at h
    rw [List.zipIdx_append, List.foldl_append, ih (by omega)]
    simp only [List.zipIdx_cons, List.zipIdx_nil, List.foldl_cons, List.foldl_nil, Nat.zero_add]
    have hl : (big.take start ++ cols).length = start + cols.length := by
      rw [List.length_append, List.length_take]; omega
    rw [List.set_append_right _ _ (by omega), hl, Nat.sub_self]
    have hd : big.drop (start + cols.length) = big[start + cols.length] :: big.drop (start + cols.length + 1) :=
      List.drop_eq_getElem_cons (by omega)
    rw [hd, List.set_cons_zero]
    simp [Nat.add_assoc]

omit [DecidableEq addr] in
theorem concatLoop_eq (f : Nat → List Column) (es : List Nat) (done big : List Column)
    (h : big.length = done.length + (es.map fun e => (f e).length).sum) (ht : big.take done.length = done) :
    concatLoop f es done.length big = done ++ es.flatMap f := by
  induction es generalizing done big with
  | nil =>
    have : big.length = done.length := by simpa using h
    simp only [concatLoop, List.flatMap_nil, List.append_nil]
    rw [← ht, ← this, List.take_length]
  | cons e es ih =>
    rw [List.map_cons, List.sum_cons] at h
    unfold concatLoop
    rw [copyAt_eq _ _ _ (by omega), ht]
    have := ih (done ++ f e) (done ++ f e ++ big.drop (done.length + (f e).length))
      (by rw [List.length_append, List.length_append, List.length_drop]; omega)
      (by rw [List.take_left'  rfl])
    rw [List.length_append] at this
    rw [this, List.flatMap_cons, List.append_assoc]

theorem calcTrialData_eq (hv : E.Valid k tri) (rule : addr → List QPoint) (order : List addr) (ho : E.Unique order)
    (hr : ∀ a ∈ order, E.rule a = .ok (rule a)) :
    E.calcTrialData order = .ok ((List.range E.elementCount).flatMap (E.cols rule)) := by
  unfold Evaluator.calcTrialData
  obtain ⟨f', h1, h2⟩ := shapesetLoop_spec hv rule order hr ho.1 (fun _ => []) 0
  rw [h1]
  dsimp only
  have hk : ∀ e ∈ List.range E.elementCount, ∃ a ∈ order, E.trialShapesets[e]? = some a := by
    intro e he
    have hlt : e < E.trialShapesets.length := by rw [hv.shapesets]; exact List.mem_range.mp he
    exact ⟨_, (ho.2 _).mpr (List.getElem_mem hlt), List.getElem?_eq_getElem hlt⟩
  have hf : ∀ e ∈ List.range E.elementCount, f' e = E.cols rule e := fun e he => by
    rw [h2 e, if_pos ⟨List.mem_range.mp he, hk e he⟩]
  have ht := transformations_mem hv.op
  have hne : E.op.transformations.length ≠ 0 := by
    simp only [operatorTransformations, List.mem_cons, List.not_mem_nil, or_false] at ht
    rcases ht with h | h | h <;> simp [h]
  rw [if_neg (fun h => hne h.2), sum_partition order ho.1 _ _ _ hk]
  have hmap : (List.range E.elementCount).flatMap f' = (List.range E.elementCount).flatMap (E.cols rule) := by
    rw [List.flatMap_def, List.flatMap_def, List.map_congr_left hf]
  rw [← hmap]
  refine congrArg _ ?_
  have := concatLoop_eq f' (List.range E.elementCount) [] (List.replicate
    (0 + ((List.range E.elementCount).map fun e => (E.cols rule e).length).sum) ⟨E.blank, fun _ _ => 0, 0⟩)
    (by
      rw [List.length_replicate]
      simp only [List.length_nil]
      rw [List.map_congr_left fun e he => by rw [← hf e he]])
    (by simp)
  simpa using this

/-! ### The chunks -/

omit [DecidableEq addr] in
theorem foldl_task (columns : List Column) (size : Nat) (points : Nat → P3 ℝ) (order : List (Nat × Nat)) (r : Nat → Nat → ℂ)
    (dim p : Nat) :
    (order.foldl (E.task columns size points) r) dim p =
      if ∃ t ∈ order, p = size * t.1 + t.2 then E.valueAt columns (points p) dim else r dim p := by
  induction order generalizing r with
  | nil => simp
  | cons t order ih =>
    rw [List.foldl_cons, ih]
    unfold Evaluator.task
    by_cases h : ∃ t ∈ order, p = size * t.1 + t.2
    · rw [if_pos h, if_pos]
      obtain ⟨t', h1, h2⟩ := h
      exact ⟨t', List.mem_cons_of_mem _ h1, h2⟩
    · rw [if_neg h]
      by_cases h' : p = size * t.1 + t.2
      · rw [if_pos h', if_pos ⟨t, List.mem_cons_self .., h'⟩]
      · rw [if_neg h', if_neg]
        rintro ⟨t', h1, h2⟩
        rcases List.mem_cons.mp h1 with rfl | h1
        · exact h' h2
        · exact h ⟨t', h1, h2⟩

theorem mem_tasks {size n p : Nat} (hs : 0 < size) : (∃ t ∈ tasks size n, p = size * t.1 + t.2) ↔ p < n := by
  unfold tasks
  constructor
  · rintro ⟨t, ht, rfl⟩
    rw [List.mem_flatMap] at ht
    obtain ⟨i, -, ht⟩ := ht
    rw [List.mem_map] at ht
    obtain ⟨j, hj, rfl⟩ := ht
    have := List.mem_range.mp hj
    dsimp only
    omega
  · intro h
    have hd := Nat.div_add_mod p size
    have hm := Nat.mod_lt p hs
    refine ⟨(p / size, p % size), ?_, hd.symm⟩
    rw [List.mem_flatMap]
    refine ⟨p / size, ?_, ?_⟩
    · rw [List.mem_range, Nat.div_lt_iff_lt_mul hs]
      have h1 : n ≤ (n + size - 1) / size * size := by
        have h2 := Nat.div_add_mod (n + size - 1) size
        have h3 := Nat.mod_lt (n + size - 1) hs
        rw [Nat.mul_comm]
        omega
      omega
    · rw [List.mem_map]
      refine ⟨p % size, ?_, rfl⟩
      rw [List.mem_range]
      omega

end
end Verif.Pot
