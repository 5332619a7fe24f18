import Verif.Lemmas.PyBoundary2
import Verif.Props.PyDiscrete
/-
C84: boundary operators of the Python layer.
-/
namespace Verif.PyOp
noncomputable section

/-- What a request returned: the formula of the operator with the parameters of the times `τ`. -/
def Returned (core : Core) (nodes : Nat → Node) (τ : Nat → Nat) : Action → Option (Res Op) → Prop
  | .weakForm _ i, r => ∃ s, r = some s ∧ ∃ e, Formula core nodes τ i e ∧ Agree s e.eval
  | .strongForm _ i, r => ∃ s, r = some s ∧ ∃ e, Formula core nodes τ i e ∧ Agree s (strongFormula core (nodes i) e).eval
  | .wait, r => r = none

/-- Weak and strong forms requested in any order, while parameters change: every elementary operator is assembled at most once, and all
results are those of the formulas with the parameters of the one time `τ j ≤` now at which operator `j` was assembled. -/
theorem C84_histories (core : Core) (nodes : Nat → Node) (hc : Constructed core nodes)
    (ha : ∀ k t, ∃ op, (core.form k t).eval = .ok op) (l : List Action) (hl : ∀ a ∈ l, a.Cached) :
    (∀ i, (run core nodes l World.fresh).2.assemblies i ≤ 1) ∧
    ∃ τ : Nat → Nat, (∀ j, τ j ≤ (run core nodes l World.fresh).2.time) ∧
      (∀ j t, (run core nodes l World.fresh).2.stamp j = some t → τ j = t) ∧
      List.Forall₂ (Returned core nodes τ) l (run core nodes l World.fresh).1 := by
  have key : ∀ (l : List Action), (∀ a ∈ l, a.Cached) → ∀ w, CacheInv core nodes w →
      CacheInv core nodes (run core nodes l w).2 ∧ (∀ j t, w.stamp j = some t → (run core nodes l w).2.stamp j = some t) ∧
      ∀ τ, (∀ j t, (run core nodes l w).2.stamp j = some t → τ j = t) →
        List.Forall₂ (Returned core nodes τ) l (run core nodes l w).1 := by
    intro l
    induction l with
    | nil => intro _ w hw; exact ⟨hw, fun _ _ h => h, fun _ _ => .nil⟩
    | cons a l ih =>
      intro hl w hw
      have hstep : CacheInv core nodes (step core nodes a w).2 ∧
          (∀ j t, w.stamp j = some t → (step core nodes a w).2.stamp j = some t) ∧
          ∀ τ, (∀ j t, (step core nodes a w).2.stamp j = some t → τ j = t) → Returned core nodes τ a (step core nodes a w).1 := by
        have hca := hl a (by simp)
        cases a with
        | weakForm r i =>
          change r = false at hca
          subst hca
          obtain ⟨h1, h2, h3⟩ := sat_weakForm ha hc (i + 1) i (by omega) w hw
          refine ⟨h1, h2.1, fun τ ht => ?_⟩
          obtain ⟨e, he⟩ := formula_exists hc τ i
          exact ⟨_, rfl, e, he, h3 τ ht e he⟩
        | strongForm r i =>
          change r = false at hca
          subst hca
          obtain ⟨h1, h2, h3⟩ := sat_strong _ (sat_weakForm ha hc (i + 1) i (by omega)) w hw
          refine ⟨h1, h2.1, fun τ ht => ?_⟩
          obtain ⟨e, he⟩ := formula_exists hc τ i
          exact ⟨_, rfl, e, he, h3 τ ht e he⟩
        | wait =>
          refine ⟨⟨hw.weak, hw.range, hw.fresh, hw.once, fun i t h => ?_⟩, fun _ _ h => h, fun _ _ => rfl⟩
          have := hw.past i t h
          show t ≤ w.time + 1
          omega
      obtain ⟨h1, h2, h3⟩ := ih (fun b hb => hl b (by simp [hb])) _ hstep.1
      refine ⟨h1, fun j t hj => h2 j t (hstep.2.1 j t hj), fun τ ht => ?_⟩
      exact .cons (hstep.2.2 τ (fun j t hj => ht j t (h2 j t hj))) (h3 τ ht)
  have h0 : CacheInv core nodes World.fresh :=
    ⟨fun _ _ h => (by cases h), fun _ _ h => (by cases h), fun _ _ => ⟨rfl, rfl⟩, fun _ => by simp [World.fresh],
      fun _ _ h => (by cases h)⟩
  obtain ⟨h1, -, h3⟩ := key l hl _ h0
  have he : ∀ j t, (run core nodes l World.fresh).2.stamp j = some t → ((run core nodes l World.fresh).2.stamp j).getD 0 = t :=
    fun j t hj => by rw [hj]; rfl
  refine ⟨h1.once, fun j => ((run core nodes l World.fresh).2.stamp j).getD 0, fun j => ?_, he, h3 _ he⟩
  cases hj : (run core nodes l World.fresh).2.stamp j with
  | none => dsimp only; rw [hj]; exact Nat.zero_le _
  | some t => dsimp only; rw [hj]; exact h1.past j t hj

/-- Programs without `transpose`, `adjoint` and `dual_product`: the formula of every operator evaluates to a discrete operator that
acts as a matrix with a row for each dof of the dual space and a column for each dof of the domain, and the strong form to one with a
row for each dof of the range. -/
theorem C84_matrices (core : Core) (nodes : Nat → Node) (hc : Constructed core nodes) (hs : core.Sound nodes)
    (hi : core.Invertible nodes) (hp : ∀ k t, (core.form k t).Plain)
    (hn : ∀ i a, (nodes i).kind ≠ .transpose a ∧ (nodes i).kind ≠ .adjoint a ∧ ∀ b, (nodes i).kind ≠ .dualProduct a b)
    (τ : Nat → Nat) (i : Nat) (e : Expr) (he : Formula core nodes τ i e) :
    (∃ op, e.eval = .ok op ∧ ∃ M : Matrix (Fin (core.dofs (nodes i).dualToRange)) (Fin (core.dofs (nodes i).domain)) ℂ,
      Denotes e _ _ M ∧ Acts op M) ∧
    (∃ op, (strongFormula core (nodes i) e).eval = .ok op ∧
      ∃ M : Matrix (Fin (core.dofs (nodes i).range)) (Fin (core.dofs (nodes i).domain)) ℂ,
      Denotes (strongFormula core (nodes i) e) _ _ M ∧ Acts op M) := by
  have h1 := formula_sized hc hs hi he
  have h2 := formula_plain hp hn he
  constructor
  · obtain ⟨hw, M, hM⟩ := h1
    obtain ⟨op, ho, hA⟩ := C81_expressions e hw h2 M hM
    exact ⟨op, ho, M, hM, hA⟩
  · obtain ⟨hw, M, hM⟩ := sized_strong hs hi h1
    obtain ⟨op, ho, hA⟩ := C81_expressions _ hw
      ⟨⟨fun _ h => (by cases h), fun _ h => (by cases h)⟩, ⟨fun _ h => (by cases h), fun _ h => (by cases h)⟩, h2⟩ M hM
    exact ⟨op, ho, M, hM, hA⟩

/-- The same for all programs whose formulas contain only permitted transposes and adjoints.  Missing: the others (see C82). -/
theorem C84_matrices_partial (core : Core) (nodes : Nat → Node) (hc : Constructed core nodes) (hs : core.Sound nodes)
    (hi : core.Invertible nodes) (τ : Nat → Nat) (i : Nat) (e : Expr) (he : Formula core nodes τ i e) (hp : e.Permitted) :
    ∃ op, e.eval = .ok op ∧ ∃ M : Matrix (Fin (core.dofs (nodes i).dualToRange)) (Fin (core.dofs (nodes i).domain)) ℂ,
      Denotes e _ _ M ∧ Acts op M := by
  obtain ⟨hw, M, hM⟩ := formula_sized hc hs hi he
  obtain ⟨op, ho, hA⟩ := C82_expressions_partial e hw hp M hM
  exact ⟨op, ho, M, hM, hA⟩

/-- Every operator has exactly one formula for given times. -/
theorem C84_formula_unique (core : Core) (nodes : Nat → Node) (hc : Constructed core nodes) (τ : Nat → Nat) (i : Nat) :
    ∃! e, Formula core nodes τ i e := by
  obtain ⟨e, he⟩ := formula_exists hc τ i
  refine ⟨e, he, ?_⟩
  have key : ∀ {i : Nat} {e : Expr}, Formula core nodes τ i e → ∀ e', Formula core nodes τ i e' → e' = e := by
    intro i e h
    induction h with
    | elementary h | zero h =>
      intro e' h'
      have := formula_inv h'
      simp only [h] at this
      exact this
    | sum h ha hb iha ihb | product h ha hb iha ihb | dualProduct h ha hb iha ihb =>
      intro e' h'
      have := formula_inv h'
      simp only [h] at this
      obtain ⟨u, v, hu, hv, rfl⟩ := this
      rw [iha u hu, ihb v hv]
    | scaled h ha iha | transpose h ha iha | adjoint h ha iha =>
      intro e' h'
      have := formula_inv h'
      simp only [h] at this
      obtain ⟨u, hu, rfl⟩ := this
      rw [iha u hu]
    | reinterpret h ha iha =>
      intro e' h'
      have := formula_inv h'
      simp only [h] at this
      exact iha e' this
    | projectDual h h1 h2 ha iha | projectDomain h h1 h2 ha iha | projectBoth h h1 h2 ha iha =>
      intro e' h'
      have := formula_inv h'
      simp only [h] at this
      obtain ⟨u, hu, -, rfl⟩ := this
      rw [iha u hu]
      simp [projected, h1, h2]
  exact fun e' h' => key he e' h'

/-- After any history: recomputing the weak forms of operators 0, …, n in this order returns the forms with the parameters of the
present, and so do requests without recomputation afterwards.  Missing: recomputing only operator n (see the counterexample). -/
theorem C84_recompute_partial (core : Core) (nodes : Nat → Node) (hc : Constructed core nodes) (l : List Action) (n : Nat) :
    let w := (run core nodes l World.fresh).2
    let q := run core nodes ((List.range (n + 1)).map fun i => Action.weakForm true i) w
    List.Forall₂ (Returned core nodes fun _ => w.time) ((List.range (n + 1)).map fun i => Action.weakForm true i) q.1 ∧
    ∀ i ≤ n, Returned core nodes (fun _ => w.time) (.weakForm false i) (step core nodes (.weakForm false i) q.2).1 ∧
      Returned core nodes (fun _ => w.time) (.strongForm false i) (step core nodes (.strongForm false i) q.2).1 := by
  intro w
  have hw : RangeOk core nodes w := range_run hc l _ (fun _ _ h => (by cases h))
  have key : ∀ m i (v : World), (nowFrame core nodes w.time i).inv v →
      (nowFrame core nodes w.time (i + m)).inv
        (run core nodes ((List.range' i m).map fun i => Action.weakForm true i) v).2 ∧
      List.Forall₂ (Returned core nodes fun _ => w.time) ((List.range' i m).map fun i => Action.weakForm true i)
        (run core nodes ((List.range' i m).map fun i => Action.weakForm true i) v).1 := by
    intro m
    induction m with
    | zero => intro i v hv; exact ⟨hv, .nil⟩
    | succ m ih =>
      intro i v hv
      obtain ⟨h1, h2⟩ := recompute_step hc w.time i v hv
      obtain ⟨h3, h4⟩ := ih (i + 1) _ h1
      rw [List.range'_succ, List.map_cons]
      refine ⟨?_, .cons ?_ h4⟩
      · rw [show i + (m + 1) = i + 1 + m by omega]
        exact h3
      · obtain ⟨e, he⟩ := formula_exists hc (fun _ => w.time) i
        exact ⟨_, rfl, e, he, h2 e he⟩
  have h := key (n + 1) 0 w ⟨hw, rfl, fun j hj => by omega⟩
  rw [List.range_eq_range']
  refine ⟨h.2, fun i hi => ?_⟩
  have hinv := h.1
  have hs := sat_now hc w.time (0 + (n + 1)) (i + 1) i (by omega) (by omega)
  obtain ⟨e, he⟩ := formula_exists hc (fun _ => w.time) i
  constructor
  · exact ⟨_, rfl, e, he, (hs _ hinv).2.2 _ rfl e he⟩
  · exact ⟨_, rfl, e, he, (sat_strong _ hs _ hinv).2.2 _ rfl e he⟩

/-- Recomputing an elementary operator assembles it with the parameters of the present. -/
theorem C84_recompute_elementary (core : Core) (nodes : Nat → Node) (i k : Nat) (hk : (nodes i).kind = .elementary k) (w : World) :
    (step core nodes (.weakForm true i) w).1 = some (core.form k w.time).eval ∧
    (step core nodes (.weakForm true i) w).2.assemblies i = w.assemblies i + 1 := by
  have h2 : weakFormImpl core nodes (weakForm core nodes i false) (strongOf core nodes (weakForm core nodes i false)) i =
      assemble core i k := by
    unfold weakFormImpl
    rw [hk]
  unfold step
  simp only [weakForm, if_true, h2, assemble]
  cases (core.form k w.time).eval with
  | error x => exact ⟨rfl, by simp⟩
  | ok op => exact ⟨rfl, by simp⟩

/-! ### Examples -/

/-- A library with one space of two dofs, the mass matrix `2 I`, and two operators with the matrices `t I` and `I`. -/
def exampleCore : Core where
  dofs _ := 2
  compatible _ _ := true
  form k t := .dense ⟨true, 2, 2, false, fun i j => if i = j then (if k = 0 then (t : ℂ) else 1) else 0⟩
  mass _ _ := exampleMass

/-- Operators `A`, `B`, `A + B`, `(A + B) * A`, then only `B`. -/
def exampleNodes : Nat → Node := fun i =>
  if i = 0 then ⟨.elementary 0, 0, 0, 0⟩
  else if i = 2 then ⟨.sum 0 1, 0, 0, 0⟩
  else if i = 3 then ⟨.product 2 0, 0, 0, 0⟩
  else ⟨.elementary 1, 0, 0, 0⟩

theorem exampleNodes_constructed : Constructed exampleCore exampleNodes := by
  intro i
  by_cases h0 : i = 0
  · subst h0; exact Or.inl ⟨0, rfl⟩
  · by_cases h2 : i = 2
    · subst h2
      exact Or.inr (Or.inr (Or.inl ⟨0, 1, by omega, by omega, rfl⟩))
    · by_cases h3 : i = 3
      · subst h3
        exact Or.inr (Or.inr (Or.inr (Or.inr (Or.inl ⟨2, 0, by omega, by omega, rfl⟩))))
      · exact Or.inl ⟨1, by simp [exampleNodes, h0, h2, h3]⟩

/-- The hypotheses of the theorems are met. -/
theorem example_operators : Constructed exampleCore exampleNodes ∧ exampleCore.Sound exampleNodes ∧ exampleCore.Invertible exampleNodes ∧
    (∀ k t, (exampleCore.form k t).Plain) ∧ (∀ k t, ∃ op, (exampleCore.form k t).eval = .ok op) := by
  refine ⟨exampleNodes_constructed, ⟨fun _ _ _ => rfl, fun _ _ => rfl, fun _ _ => rfl, fun _ _ => ⟨rfl, fun _ i j => ?_⟩,
    fun i k t _ => ⟨⟨rfl, fun _ i j => ?_⟩, _, .dense (Arr.mk true 2 2 false _)⟩⟩, ⟨fun _ => ⟨exampleMass_fullRank,
      exampleMass_fullRank, exampleMass_fullRank⟩, fun _ => (by simp [exampleCore])⟩, fun k t => ⟨fun _ h => (by cases h),
      fun _ h => (by cases h)⟩, fun k t => ⟨_, rfl⟩⟩
  · simp only [exampleCore, exampleMass]
    split
    · exact Complex.conj_ofReal 2
    · exact star_zero _
  · dsimp only
    split
    · split
      · exact Complex.conj_natCast t
      · exact star_one ℂ
    · exact star_zero _

/-- Recomputing the sum does not recompute its operands: after the parameters changed, `weak_form(recompute=True)` of `A + B` still
returns the old matrix `I + 0` instead of `I + 1 I`. -/
theorem C84_counterexample_recompute : ∃ A : Arr,
    (run exampleCore exampleNodes [.weakForm false 2, .wait, .weakForm true 2] World.fresh).1 =
      [some (.ok (.dense A)), none, some (.ok (.dense A))] ∧ A.e 0 0 = 1 ∧
    (run exampleCore exampleNodes [.weakForm false 2, .wait, .weakForm true 2] World.fresh).2.time = 1 ∧
    ∃ B, Formula exampleCore exampleNodes (fun _ => 1) 2 (.add (exampleCore.form 0 1) (exampleCore.form 1 1)) ∧
      (Expr.add (exampleCore.form 0 1) (exampleCore.form 1 1)).eval = .ok (.dense B) ∧ B.e 0 0 = 2 := by
  refine ⟨_, rfl, ?_, rfl, _, .sum (a := 0) (b := 1) rfl (.elementary rfl) (.elementary rfl), rfl, ?_⟩
  · simp [World.fresh]
  · simp; norm_num

end

end Verif.PyOp
