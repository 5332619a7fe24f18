import Verif.Spec.GridFunctions
import Verif.Props.LocalOperators
import Verif.Lemmas.Assembly
/-
Lemmas for projections of functions.
-/
namespace Verif.GridFun
open Verif.Grid Verif.Shape Verif.SingleQuad Verif.Space Verif.HMat Verif.LocalOps Verif.Assembly MvPolynomial

/-- The weighted sum of complex values. -/
noncomputable def quadSumC (rule : List QPoint) (f : ℝ → ℝ → ℂ) : ℂ := (rule.map fun q => (q.w : ℂ) * f q.x q.y).sum

theorem quadSumC_re (rule : List QPoint) (f : ℝ → ℝ → ℂ) : (quadSumC rule f).re = quadSum rule fun x y => (f x y).re := by
  unfold quadSumC quadSum
  induction rule with
  | nil => rfl
  | cons q l ih => simp only [List.map_cons, List.sum_cons, Complex.add_re, ih, Complex.re_ofReal_mul]

theorem quadSumC_im (rule : List QPoint) (f : ℝ → ℝ → ℂ) : (quadSumC rule f).im = quadSum rule fun x y => (f x y).im := by
  unfold quadSumC quadSum
  induction rule with
  | nil => rfl
  | cons q l ih => simp only [List.map_cons, List.sum_cons, Complex.add_im, ih, Complex.im_ofReal_mul]

theorem quadSumC_add (rule : List QPoint) (f g : ℝ → ℝ → ℂ) (a b : ℂ) :
    quadSumC rule (fun x y => a * f x y + b * g x y) = a * quadSumC rule f + b * quadSumC rule g := by
  unfold quadSumC
  induction rule with
  | nil => simp
  | cons q l ih => simp only [List.map_cons, List.sum_cons, ih]; ring

theorem foldl_range (f : Nat → ℂ) (n : Nat) (a : ℂ) :
    (List.range n).foldl (fun s d => s + f d) a = a + ∑ d ∈ Finset.range n, f d := by
  induction n with
  | zero => simp
  | succ n ih => rw [List.range_succ, List.foldl_append, ih, Finset.sum_range_succ]; simp [add_assoc]

theorem foldl_sumC {α : Type} (f : α → ℂ) (l : List α) (a : ℂ) : l.foldl (fun s x => s + f x) a = a + (l.map f).sum := by
  induction l generalizing a with
  | nil => simp
  | cons x l ih => rw [List.foldl_cons, ih, List.map_cons, List.sum_cons]; ring

theorem unitNormal_eq (A B C : P3 ℝ) (h : areaVector A B C ≠ ⟨0, 0, 0⟩) : unitNormal A B C = (fullData A B C).normal := by
  rw [normal_eq A B C h, ie_eq]
  unfold unitNormal area P3.smul
  simp only [P3.mk.injEq]
  refine ⟨?_, ?_, ?_⟩ <;> (generalize Real.sqrt _ = r; rw [mul_div_cancel₀ r (by norm_num : (2 : ℝ) ≠ 0)]; ring)

/-- With all the data. -/
noncomputable def fullAt (mesh : FMesh) (A B C : P3 ℝ) (e : Nat) (p : ℝ × ℝ) : Data :=
  ⟨fullData A B C, refMap A B C p, mesh.domainIndex e⟩

/-- The function depends only on the data asked for. -/
theorem function_honest {dim : Nat} {F : UserFunction} {f : P3 ℝ → P3 ℝ → Int → Nat → ℂ} (hF : FunctionClass dim F f)
    (mesh : FMesh) (A B C : P3 ℝ) (h : areaVector A B C ≠ ⟨0, 0, 0⟩) (e : Nat) (p : ℝ × ℝ) (old : Data) (test : Transformation)
    (hd : mesh.getData e = fun _ => getData A B C) (hp : mesh.local2global e p = refMap A B C p) :
    F.evaluate (mesh.fill e p (geomDeps test F) old) = f (refMap A B C p) (unitNormal A B C) (mesh.domainIndex e) := by
  rw [unitNormal_eq A B C h]
  unfold FMesh.fill geomDeps
  rw [hd, hp]
  generalize test.deps = t
  obtain ⟨t1, t2, t3, t4⟩ := t
  cases hF with
  | position f => rfl
  | normal f => cases t1 <;> cases t2 <;> cases t3 <;> cases t4 <;> rfl
  | domain f => rfl
  | both f => cases t1 <;> cases t2 <;> cases t3 <;> cases t4 <;> rfl

theorem function_dim {dim : Nat} {F : UserFunction} {f : P3 ℝ → P3 ℝ → Int → Nat → ℂ} (hF : FunctionClass dim F f) : F.dim = dim := by
  cases hF <;> rfl

theorem test_honest {test : Transformation} (ht : test.Honest) (F : UserFunction)
    (mesh : FMesh) (A B C : P3 ℝ) (e : Nat) (p : ℝ × ℝ) (old : Data) (hd : mesh.getData e = fun _ => getData A B C) (b : BasisAt) :
    test.evaluate b (mesh.fill e p (geomDeps test F) old).geom = test.evaluate b (fullData A B C) ∧
    (mesh.fill e p (geomDeps test F) old).geom.integrationElement = (fullData A B C).integrationElement := by
  unfold FMesh.fill geomDeps Deps.or
  rw [hd]
  constructor
  · show test.evaluate b (getData A B C ((GeomDeps.or _ test.deps).or F.deps.geom) old.geom) = _
    rw [LocalOps.or_comm _ test.deps, LocalOps.or_assoc]
    exact ht _ _ _ _ _ _
  · generalize test.deps = t
    generalize F.deps.geom = u
    obtain ⟨t1, t2, t3, t4⟩ := t
    obtain ⟨u1, u2, u3, u4⟩ := u
    cases t1 <;> cases t2 <;> cases t3 <;> cases t4 <;> cases u1 <;> cases u2 <;> cases u3 <;> cases u4 <;> rfl

theorem weakForm_eq {test : Transformation} (F : UserFunction) (points : List QPoint) (s : Shapeset) (geomData : Nat → Data)
    (i : Nat) (ie : ℝ) (t : ℝ × ℝ → Nat → ℝ) (f : ℝ × ℝ → Nat → ℂ)
    (hg : ∀ n (hn : n < points.length), (geomData n).geom.integrationElement = ie ∧
      test.evaluate (s.shape i (points[n].x, points[n].y)) (geomData n).geom = t (points[n].x, points[n].y) ∧
      F.evaluate (geomData n) = f (points[n].x, points[n].y)) :
    weakForm test F points s geomData i = (ie : ℂ) *
      quadSumC points fun x y => ∑ d ∈ Finset.range test.dim, ((t (x, y) d : ℝ) : ℂ) * f (x, y) d := by
  unfold weakForm
  simp only [foldl_range]
  rw [foldl_sumC, zero_add]
  unfold quadSumC
  rw [← List.sum_map_mul_left]
  refine congrArg List.sum ?_
  apply List.ext_getElem
  · simp
  · intro n a b
    have hn : n < points.length := by simpa using b
    obtain ⟨h1, h2, h3⟩ := hg n hn
    simp only [List.getElem_map, List.getElem_zipIdx, zero_add, h1, h2, h3]
    rw [Finset.mul_sum, Finset.mul_sum]
    refine Finset.sum_congr rfl fun d _ => ?_
    rw [show star ((t (points[n].x, points[n].y) d : ℝ) : ℂ) = ((t (points[n].x, points[n].y) d : ℝ) : ℂ) from Complex.conj_ofReal _]
    ring

theorem elementLoop_eq {test : Transformation} (ht : test.Honest) {F : UserFunction} {f : P3 ℝ → P3 ℝ → Int → Nat → ℂ}
    (hF : FunctionClass test.dim F f) (mesh : FMesh) (tri : Nat → P3 ℝ × P3 ℝ × P3 ℝ) (points : List QPoint) (s : Shapeset)
    (es : List Nat) (hm : ∀ e ∈ es, IsTriangle mesh.toMesh e (tri e).1 (tri e).2.1 (tri e).2.2)
    (hp : ∀ e ∈ es, ∀ p, mesh.local2global e p = refMap (tri e).1 (tri e).2.1 (tri e).2.2 p) (geomData : Nat → Data) :
    elementLoop test F mesh points s es geomData = es.map fun e => ⟨s.size, fun i =>
      ((fullData (tri e).1 (tri e).2.1 (tri e).2.2).integrationElement : ℂ) *
        quadSumC points fun x y => ∑ d ∈ Finset.range test.dim,
          ((test.evaluate (s.shape i (x, y)) (fullData (tri e).1 (tri e).2.1 (tri e).2.2) d : ℝ) : ℂ) *
          f (refMap (tri e).1 (tri e).2.1 (tri e).2.2 (x, y)) (unitNormal (tri e).1 (tri e).2.1 (tri e).2.2) (mesh.domainIndex e) d⟩ := by
  induction es generalizing geomData with
  | nil => rfl
  | cons e es ih =>
    rw [elementLoop, List.map_cons]
    rw [ih (fun e' he' => hm e' (by simp [he'])) (fun e' he' => hp e' (by simp [he']))]
    congr 2
    funext i
    obtain ⟨-, hd, hA⟩ := hm e (by simp)
    refine weakForm_eq F points s _ i _
      (fun p d => test.evaluate (s.shape i p) (fullData (tri e).1 (tri e).2.1 (tri e).2.2) d)
      (fun p d => f (refMap (tri e).1 (tri e).2.1 (tri e).2.2 p) (unitNormal (tri e).1 (tri e).2.1 (tri e).2.2) (mesh.domainIndex e) d) ?_
    intro n hn
    rw [List.getElem?_eq_getElem hn]
    exact ⟨(test_honest ht F mesh _ _ _ e _ _ hd ⟨0, 0, 0, 0, 0, 0⟩).2, (test_honest ht F mesh _ _ _ e _ _ hd _).1,
      function_honest hF mesh _ _ _ hA e _ _ test hd (hp e (by simp) _)⟩

theorem loop_ok {V M : Type} [DecidableEq V] (integrate : V → List Nat → Outcome (List M)) (integrate' : V → List Nat → List M)
    (es : List Nat) (vs : List V) (order : List V)
    (h : ∀ v ∈ order, ∀ l : List Nat, l = ((es.zip vs).filter fun p => decide (p.2 = v)).map Prod.fst → integrate v l = .ok (integrate' v l))
    (rs : List M) : variantLoop integrate es vs order rs =
      match LocalOps.variantLoop integrate' es vs order rs with
      | some r => .ok r
      | none => .undefined := by
  induction order generalizing rs with
  | nil => rfl
  | cons v order ih =>
    simp only [variantLoop, LocalOps.variantLoop]
    rw [h v (by simp) _ rfl]
    cases hd : distribute v vs rs (integrate' v (((es.zip vs).filter fun p => decide (p.2 = v)).map Prod.fst)) with
    | none => simp only [hd, Option.bind_none]
    | some r => simp only [hd, Option.bind_some]; exact ih (fun w hw => h w (by simp [hw])) r

theorem loop_throws {V M : Type} [DecidableEq V] (integrate : V → List Nat → Outcome (List M)) (es : List Nat) (vs : List V) (msg : String)
    (v : V) (order : List V) (rs : List M)
    (h : integrate v (((es.zip vs).filter fun p => decide (p.2 = v)).map Prod.fst) = .throws msg) :
    variantLoop integrate es vs (v :: order) rs = .throws msg := by
  simp only [variantLoop]
  rw [h]

/-- A rule has points. -/
theorem rule_nonempty (order : Int) (h : order ≤ 20) : ∃ r, fillSingle 3 order = .ok r ∧ r.length ≠ 0 := by
  obtain ⟨r, hr, hx⟩ := C75_triangle order h
  refine ⟨r, hr, fun h0 => ?_⟩
  have h1 := hx (monomial (expo 0 0) 1) (by
    have := degree_monomial 0 0 0 1 (by right; rfl)
    have h2 : (monomial (expo 0 0) (1 : ℝ)).totalDegree = 0 := by omega
    rw [h2]
    have := le_max_right order 1
    push_cast
    omega)
  rw [List.length_eq_zero_iff] at h0
  subst h0
  rw [triangleIntegral_monomial, expo_zero, expo_one] at h1
  have h3 := coeffNorm_monomial (expo 0 0) 1
  rw [abs_one] at h3
  have h4 : quadSum [] (value (monomial (expo 0 0) 1)) = 0 := rfl
  rw [h4] at h1
  norm_num [Nat.factorial] at h1
  linarith

theorem contrib_projectionUpdates (sp : ASpace ℂ) (form : Nat → Nat → ℂ) (i : Nat) :
    contrib (projectionUpdates sp form) i 0 = projectionEntry sp form i := by
  unfold projectionUpdates projectionEntry
  rw [contrib_flatMap, sum_list_range]
  refine Finset.sum_congr rfl fun e _ => ?_
  rw [contrib_flatMap, sum_zipIdx _ (-1)]
  refine Finset.sum_congr rfl fun a ha => ?_
  have ha' := Finset.mem_range.mp ha
  have hget : (sp.gdofs e)[a]? = some ((sp.gdofs e).getD a (-1)) := by
    rw [List.getElem?_eq_getElem ha', List.getD_eq_getElem _ _ ha']
  have hat : sp.maps.At ⟨e, a⟩ i ↔ (sp.gdofs e).getD a (-1) = i := by
    rw [ASpace.at_iff, hget]; exact Option.some_inj
  by_cases h : (sp.gdofs e).getD a (-1) = i
  · rw [if_pos (hat.mpr h), h]
    simp [Assembly.contrib]
  · rw [if_neg (fun hh => h (hat.mp hh))]
    by_cases hn : (sp.gdofs e).getD a (-1) ≥ 0
    · simp only [if_pos hn]; rw [List.getD_eq_getElem?_getD] at h; simp [Assembly.contrib, h]
    · simp only [if_neg hn]; rfl

end Verif.GridFun
