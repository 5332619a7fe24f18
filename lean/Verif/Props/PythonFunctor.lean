import Verif.Spec.PythonFunctor
/-
Property C78: functions defined in Python.
-/
namespace Verif.PyFun
open Verif.Grid

theorem incref_pos (n : Nat) (h : n ≠ 0) : incref n = some (n + 1) := if_neg h
theorem decref_pos (n : Nat) (h : n ≠ 0) : decref n = some (n - 1) := if_neg h

theorem run_refs (call : Callable) (hc : NeverRaises call) (owned : Nat) (as : List Action) :
    ∀ (s : State) (n : Nat), s.refs = ⟨s.live, s.live, s.live, owned + s.live⟩ → liveAfter s.live as = some n →
      ∃ t rs, run call s as = some (t, rs) ∧ t.live = n ∧ t.refs = ⟨n, n, n, owned + n⟩ := by
  induction as with
  | nil =>
    rintro ⟨r, live, b⟩ n hr hn
    simp only at hr hn
    simp only [liveAfter, Option.some.injEq] at hn
    subst hn
    exact ⟨_, _, rfl, rfl, hr⟩
  | cons a as ih =>
    rintro ⟨r, live, b⟩ n hr hn
    simp only at hr hn
    subst hr
    cases live with
    | zero => cases a <;> simp [liveAfter] at hn
    | succ k =>
      cases a with
      | copy =>
        have hs : step call ⟨⟨k + 1, k + 1, k + 1, owned + (k + 1)⟩, k + 1, b⟩ .copy =
            some (⟨⟨k + 2, k + 2, k + 2, owned + (k + 2)⟩, k + 2, b⟩, .done) := by
          simp only [step, onAll]
          rw [if_neg (by omega), incref_pos _ (by omega), incref_pos _ (by omega)]
          rfl
        obtain ⟨t, rs, h1, h2⟩ := ih ⟨⟨k + 2, k + 2, k + 2, owned + (k + 2)⟩, k + 2, b⟩ n rfl hn
        exact ⟨t, .done :: rs, by rw [run, hs, Option.bind_some, h1]; rfl, h2⟩
      | destroy =>
        have hs : step call ⟨⟨k + 1, k + 1, k + 1, owned + (k + 1)⟩, k + 1, b⟩ .destroy =
            some (⟨⟨k, k, k, owned + k⟩, k, b⟩, .done) := by
          simp only [step, onAll]
          rw [if_neg (by omega), decref_pos _ (by omega), decref_pos _ (by omega)]
          rfl
        obtain ⟨t, rs, h1, h2⟩ := ih ⟨⟨k, k, k, owned + k⟩, k, b⟩ n rfl hn
        exact ⟨t, .done :: rs, by rw [run, hs, Option.bind_some, h1]; rfl, h2⟩
      | evaluate X m d =>
        obtain ⟨b', hb⟩ := hc X m d b
        have hs : step call ⟨⟨k + 1, k + 1, k + 1, owned + (k + 1)⟩, k + 1, b⟩ (.evaluate X m d) =
            some (⟨⟨k + 1, k + 1, k + 1, owned + (k + 1)⟩, k + 1, b'⟩, .values b') := by
          simp only [step]
          rw [if_neg (by omega), hb]
          rfl
        obtain ⟨t, rs, h1, h2⟩ := ih ⟨⟨k + 1, k + 1, k + 1, owned + (k + 1)⟩, k + 1, b'⟩ n rfl hn
        exact ⟨t, .values b' :: rs, by rw [run, hs, Option.bind_some, h1]; rfl, h2⟩

/-- **C78 (references)** For a callable that never raises an exception: whatever copies are made, used and destroyed in whatever order,
nothing is touched after it has been freed; as long as one of the objects exists the arrays exist and the callable is kept alive, and when
the last one is destroyed the arrays are freed and the callable has as many references as before. -/
theorem C78_references_partial (call : Callable) (hc : NeverRaises call) (owned : Nat) (ho : 0 < owned) (as : List Action) (n : Nat)
    (hn : liveAfter 1 as = some n) :
    ∃ s t rs, construct owned = some s ∧ run call s as = some (t, rs) ∧ t.live = n ∧ t.refs = ⟨n, n, n, owned + n⟩ := by
  refine ⟨⟨⟨1, 1, 1, owned + 1⟩, 1, fun _ => 0⟩, ?_⟩
  obtain ⟨t, rs, h1, h2, h3⟩ := run_refs call hc owned as ⟨⟨1, 1, 1, owned + 1⟩, 1, fun _ => 0⟩ n rfl hn
  exact ⟨t, rs, by rw [construct, incref_pos _ (by omega)]; rfl, h1, h2, h3⟩

/-- **C78 (a callable that raises)** If with `n` objects alive the callable raises an exception, then `evaluate` throws; afterwards
destroying the objects frees the arrays one object too early: destroying all of them is undefined behaviour.  (If copies are left,
the callable has lost one of the references of its owner.) -/
theorem C78_counterexample_exception (call : Callable) (X N : P3 ℝ) (d : Int) (owned n : Nat) (b : Nat → ℂ)
    (hr : call X N d b = .raises) (hn : 0 < n) :
    (∃ t, step call ⟨⟨n, n, n, owned + n⟩, n, b⟩ (.evaluate X N d) = some (t, .throws) ∧ t.refs = ⟨n - 1, n - 1, n - 1, owned + n - 1⟩ ∧ t.live = n) ∧
    run call ⟨⟨n, n, n, owned + n⟩, n, b⟩ (.evaluate X N d :: List.replicate n .destroy) = none := by
  obtain ⟨k, rfl⟩ : ∃ k, n = k + 1 := ⟨n - 1, by omega⟩
  have hs : step call ⟨⟨k + 1, k + 1, k + 1, owned + (k + 1)⟩, k + 1, b⟩ (.evaluate X N d) =
      some (⟨⟨k, k, k, owned + k⟩, k + 1, b⟩, .throws) := by
    simp only [step]
    rw [if_neg (by omega), hr]
    simp only [onAll]
    rw [decref_pos _ (by omega), decref_pos _ (by omega)]
    rfl
  refine ⟨⟨_, hs, rfl, rfl⟩, ?_⟩
  rw [run, hs, Option.bind_some]
  have key : ∀ k, run call ⟨⟨k, k, k, owned + k⟩, k + 1, b⟩ (List.replicate (k + 1) .destroy) = none := by
    intro k
    induction k with
    | zero => rfl
    | succ k ih =>
      rw [List.replicate_succ, run]
      have h : step call ⟨⟨k + 1, k + 1, k + 1, owned + (k + 1)⟩, k + 2, b⟩ .destroy = some (⟨⟨k, k, k, owned + k⟩, k + 1, b⟩, .done) := by
        simp only [step, onAll]
        rw [if_neg (by omega), decref_pos _ (by omega), decref_pos _ (by omega)]
        rfl
      rw [h, Option.bind_some, ih]
      rfl
  rw [key]
  rfl

theorem run_values (call : Callable) (dim : Nat) (f : P3 ℝ → P3 ℝ → Int → Nat → ℂ) (hc : Computes call dim f) (as : List Action) :
    ∀ (s t : State) (rs : List Reply), run call s as = some (t, rs) →
      (returned rs).length = (evaluations as).length ∧
      ∀ (k : Nat) (v : Nat → ℂ) (X n : P3 ℝ) (d : Int), (returned rs)[k]? = some v → (evaluations as)[k]? = some (X, n, d) → ∀ i < dim, v i = f X n d i := by
  induction as with
  | nil =>
    intro s t rs h
    simp only [run, Option.some.injEq, Prod.mk.injEq] at h
    obtain ⟨-, rfl⟩ := h
    exact ⟨rfl, by simp [returned]⟩
  | cons a as ih =>
    intro s t rs h
    rw [run, Option.bind_eq_some_iff] at h
    obtain ⟨⟨s', r⟩, hs, h⟩ := h
    rw [Option.map_eq_some_iff] at h
    obtain ⟨⟨t', rs'⟩, h, heq⟩ := h
    simp only [Prod.mk.injEq] at heq
    obtain ⟨rfl, rfl⟩ := heq
    obtain ⟨h1, h2⟩ := ih _ _ _ h
    cases a with
    | copy =>
      simp only [step] at hs
      split at hs
      · exact absurd hs (by simp)
      · rw [Option.map_eq_some_iff] at hs
        obtain ⟨_, -, hs⟩ := hs
        simp only [Prod.mk.injEq] at hs
        obtain ⟨-, rfl⟩ := hs
        exact ⟨h1, h2⟩
    | destroy =>
      simp only [step] at hs
      split at hs
      · exact absurd hs (by simp)
      · rw [Option.map_eq_some_iff] at hs
        obtain ⟨_, -, hs⟩ := hs
        simp only [Prod.mk.injEq] at hs
        obtain ⟨-, rfl⟩ := hs
        exact ⟨h1, h2⟩
    | evaluate X n d =>
      obtain ⟨b', hb, hf⟩ := hc X n d s.buffer
      simp only [step, hb] at hs
      split at hs
      · exact absurd hs (by simp)
      · simp only [Option.some.injEq, Prod.mk.injEq] at hs
        obtain ⟨-, rfl⟩ := hs
        refine ⟨by simp [returned, evaluations, h1], ?_⟩
        intro k v Y m e hv he
        cases k with
        | zero =>
          simp only [returned, evaluations, List.getElem?_cons_zero, Option.some.injEq, Prod.mk.injEq] at hv he
          obtain ⟨rfl, rfl, rfl⟩ := he
          subst hv
          exact hf
        | succ k =>
          simp only [returned, evaluations, List.getElem?_cons_succ] at hv he
          exact h2 k v Y m e hv he

/-- **C78 (values)** If the callable assigns all components, the functors (however they are copied) return at each point what the callable
computes there, independently of earlier evaluations. -/
theorem C78_values (call : Callable) (dim : Nat) (f : P3 ℝ → P3 ℝ → Int → Nat → ℂ) (hc : Computes call dim f) (owned : Nat) (ho : 0 < owned)
    (as : List Action) (n : Nat) (hn : liveAfter 1 as = some n) :
    ∃ s t rs, construct owned = some s ∧ run call s as = some (t, rs) ∧ (returned rs).length = (evaluations as).length ∧
      ∀ (k : Nat) (v : Nat → ℂ) (X m : P3 ℝ) (d : Int), (returned rs)[k]? = some v → (evaluations as)[k]? = some (X, m, d) → ∀ i < dim, v i = f X m d i := by
  obtain ⟨s, t, rs, h1, h2, -⟩ := C78_references_partial call (fun X n d b => by
    obtain ⟨b', hb, -⟩ := hc X n d b; exact ⟨b', hb⟩) owned ho as n hn
  exact ⟨s, t, rs, h1, h2, run_values call dim f hc as s t rs h2⟩

/-- A callable that assigns its value only at the origin. -/
noncomputable def lazyCallable : Callable := fun X _ _ b =>
  open Classical in if X = ⟨0, 0, 0⟩ then .returns ⟨0, 0, 0, 0⟩ fun _ => 1 else .returns ⟨0, 0, 0, 0⟩ b

/-- **C78 (stale values)** The array is not cleared between evaluations: a callable that does not assign a component returns there what it
assigned at an earlier point, so its values depend on the order of the evaluations. -/
theorem C78_counterexample_stale (X : P3 ℝ) (hX : X ≠ ⟨0, 0, 0⟩) : ∃ s t t' rs rs', construct 1 = some s ∧
    run lazyCallable s [.evaluate ⟨0, 0, 0⟩ ⟨0, 0, 1⟩ 0, .evaluate X ⟨0, 0, 1⟩ 0] = some (t, rs) ∧
    run lazyCallable s [.evaluate X ⟨0, 0, 1⟩ 0, .evaluate ⟨0, 0, 0⟩ ⟨0, 0, 1⟩ 0] = some (t', rs') ∧
    returned rs = [fun _ => 1, fun _ => 1] ∧ returned rs' = [fun _ => 0, fun _ => 1] := by
  have h0 : ∀ b, lazyCallable ⟨0, 0, 0⟩ ⟨0, 0, 1⟩ 0 b = .returns ⟨0, 0, 0, 0⟩ fun _ => 1 := fun b => if_pos rfl
  have h1 : ∀ b, lazyCallable X ⟨0, 0, 1⟩ 0 b = .returns ⟨0, 0, 0, 0⟩ b := fun b => if_neg hX
  refine ⟨⟨⟨1, 1, 1, 2⟩, 1, fun _ => 0⟩, ⟨⟨1, 1, 1, 2⟩, 1, fun _ => 1⟩, ⟨⟨1, 1, 1, 2⟩, 1, fun _ => 1⟩,
    [.values fun _ => 1, .values fun _ => 1], [.values fun _ => 0, .values fun _ => 1], rfl, ?_, ?_, rfl, rfl⟩
  · simp [run, step, h0, h1]
  · simp [run, step, h0, h1]

/-- The history of a projection: the functor is made, copied into the function object, the temporary is destroyed, and the function is
evaluated at some points. -/
example : liveAfter 1 [.copy, .destroy, .evaluate ⟨0, 0, 0⟩ ⟨0, 0, 1⟩ 0, .evaluate ⟨1, 0, 0⟩ ⟨0, 0, 1⟩ 0, .destroy] = some 0 := rfl

/-- A callable that computes something, and one that raises. -/
example : Computes (fun X _ _ _ => .returns ⟨0, 0, 0, 0⟩ fun _ => (X.x : ℂ)) 1 (fun X _ _ _ => (X.x : ℂ)) ∧
    (fun (_ _ : P3 ℝ) (_ : Int) (_ : Nat → ℂ) => Answer.raises) ⟨0, 0, 0⟩ ⟨0, 0, 1⟩ 0 (fun _ => 0) = .raises :=
  ⟨fun _ _ _ _ => ⟨_, rfl, fun _ _ => rfl⟩, rfl⟩

end Verif.PyFun
