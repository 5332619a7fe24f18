import Verif.Lemmas.PyBlockedLists
import Verif.Props.PyBlocked
import Verif.Props.PyBoundary
/-
C87: blocked boundary operators of the Python layer.
-/
namespace Verif.PyOp
noncomputable section

/-- A sequence of assignments to `BlockedOperator(m, n)` is accepted exactly if it is consistent, and otherwise raises IndexError or
ValueError.  Afterwards each position holds what was assigned last, each row has the range and dual space and each column the domain of
its operators. -/
theorem C87_assignments (comp : Components) (m n : Nat) (l : List (Nat × Nat × Nat)) :
    ((∃ b, assign comp l (BNode.new m n) = .ok b) ↔ Consistent comp m n l) ∧
    (∀ x, assign comp l (BNode.new m n) = .error x → x = .IndexError ∨ x = .ValueError) ∧
    ∀ b, assign comp l (BNode.new m n) = .ok b → b.kind = .base (lastAssigned l) ∧ b.range.length = m ∧ b.dualToRange.length = m ∧
      b.domain.length = n ∧
      (∀ a ∈ l, b.range.getD a.1 none = some (comp.range a.2.2) ∧ b.dualToRange.getD a.1 none = some (comp.dualToRange a.2.2) ∧
        b.domain.getD a.2.1 none = some (comp.domain a.2.2)) ∧
      (b.fillComplete = true ↔ Filled m n l) := by
  have hr := reached_assign (comp := comp) l [] _ (reached_new m n)
  rw [List.nil_append] at hr
  refine ⟨⟨fun ⟨b, hb⟩ => (hr.1 b hb).ok, fun hc => ?_⟩, fun x hx => (hr.2 x hx).2, fun b hb => ?_⟩
  · cases ha : assign comp l (BNode.new m n) with
    | ok b => exact ⟨b, rfl⟩
    | error x => exact absurd hc (hr.2 x ha).1
  · have h := hr.1 b hb
    refine ⟨h.kind, h.rangeLen, h.dualLen, h.domainLen, fun a ha => ⟨(h.row a ha).1, (h.row a ha).2, h.col a ha⟩, fun hf => ?_,
      fun hf => ?_⟩
    · unfold BNode.fillComplete at hf
      rw [Bool.and_eq_true, List.all_eq_true, List.all_eq_true] at hf
      constructor
      · intro i hi
        by_contra hh
        push Not at hh
        have h1 := (h.noRow i hh).1
        have hi' : i < b.range.length := by rw [h.rangeLen]; exact hi
        have h2 := hf.2 b.range[i] (List.getElem_mem hi')
        rw [List.getD_eq_getElem?_getD, List.getElem?_eq_getElem hi'] at h1
        simp only [Option.getD_some] at h1
        rw [h1] at h2
        cases h2
      · intro j hj
        by_contra hh
        push Not at hh
        have h1 := h.noCol j hh
        have hj' : j < b.domain.length := by rw [h.domainLen]; exact hj
        have h2 := hf.1 b.domain[j] (List.getElem_mem hj')
        rw [List.getD_eq_getElem?_getD, List.getElem?_eq_getElem hj'] at h1
        simp only [Option.getD_some] at h1
        rw [h1] at h2
        cases h2
    · obtain ⟨rs, ds, cs, hsp⟩ := reached_spaced h hf
      exact fillComplete_of_spaced hsp

/-- A request of a form of a `BlockedOperator` with an empty row or column raises ValueError unless an old weak form is cached. -/
theorem C87_incomplete (core : Core) (comp : Components) (m n : Nat) (l : List (Nat × Nat × Nat)) (w : BWorld) (i : Nat)
    (ha : assign comp l (BNode.new m n) = .ok (w.node i)) (hf : ¬ Filled m n l) (r : Bool) :
    (bstep core comp (.strongForm r i) w).1 = .error .ValueError ∧
    (w.weak i = none ∨ r = true → (bstep core comp (.weakForm r i) w).1 = .error .ValueError) := by
  obtain ⟨hk, -, -, -, -, hfc⟩ := (C87_assignments comp m n l).2.2 _ ha
  have hfc : (w.node i).fillComplete = false := by
    rw [Bool.eq_false_iff]; exact fun h => hf (hfc.mp h)
  constructor
  · show (blockedStrong core r (blockedWeak core comp (i + 1) r i) i w).1.map some = _
    unfold blockedStrong strongCheck
    rw [hk]
    dsimp only
    rw [if_pos hfc]
    rfl
  · intro h
    show (blockedWeak core comp (i + 1) r i w).1.map some = _
    rw [blockedWeak]
    dsimp only
    have hv : ∀ v : BWorld, v.node = w.node → v.weak i = none → (match v.weak i with
        | some op => (Except.ok op, v)
        | none =>
          match blockedWeakImpl comp (blockedWeak core comp i false)
            (fun b => blockedStrong core false (blockedWeak core comp i false b) b) i v with
          | (.ok op, w') => (.ok op, { w' with weak := fun j => if j = i then some op else w'.weak j })
          | (.error e, w') => (.error e, w') : Res BOp × BWorld).1.map some = Except.error Exn.ValueError := by
      intro v h1 h2
      rw [h2]
      have : blockedWeakImpl comp (blockedWeak core comp i false)
            (fun b => blockedStrong core false (blockedWeak core comp i false b) b) i v = (.error .ValueError, v) := by
        unfold blockedWeakImpl
        rw [h1, hk]
        dsimp only
        rw [if_pos hfc]
      dsimp only
      rw [this]
      rfl
    cases r with
    | false =>
      rcases h with h | h
      · exact hv w rfl h
      · cases h
    | true => exact hv { w with weak := fun j => if j = i then none else w.weak j } rfl (if_pos rfl)

/-- What a request returned: the discrete blocked operator of the formula. -/
def BReturned (core : Core) (comp : Components) (nodes : Nat → BNode) : BAction → Res (Option BOp) → Prop
  | .setItem .., _ => False
  | .weakForm _ i, r => ∃ e, BFormula core comp nodes i e ∧ ∃ op, e.eval = .ok op ∧ r = .ok (some op)
  | .strongForm _ i, r => ∃ e, BFormula core comp nodes i e ∧
      ((nodes i).Square → ∃ op, (blockedStrongFormula core (nodes i) e).eval = .ok op ∧ r = .ok (some op)) ∧
      (¬ (nodes i).Square → r = .error .IndexError ∨ r = .error .ValueError)

/-- Weak and strong forms requested in any order, with or without recomputation: every request returns the discrete blocked operator of
the formula, except that the strong form of an operator that is not square is refused.  Missing: products whose second operand is not
square (`C87_product_nonsquare`). -/
theorem C87_histories_partial (core : Core) (comp : Components) (nodes : Nat → BNode) (hc : BConstructed comp nodes)
    (hs : BlockedSound core comp) (hq : SquareProducts nodes) (l : List BAction) (hl : ∀ a ∈ l, a.Request) :
    List.Forall₂ (BReturned core comp nodes) l (brun core comp l (BWorld.fresh nodes)).1 := by
  have ho := constructed_ordered hc
  have key : ∀ (l : List BAction), (∀ a ∈ l, a.Request) → ∀ w, BInv core comp nodes w →
      List.Forall₂ (BReturned core comp nodes) l (brun core comp l w).1 := by
    intro l
    induction l with
    | nil => intro _ w _; exact .nil
    | cons a l ih =>
      intro hl w hw
      obtain ⟨h1, h2⟩ := bstep_request ho (hl a (by simp)) hw
      refine .cons ?_ (ih (fun b hb => hl b (by simp [hb])) _ h1)
      rw [h2]
      have ha := hl a (by simp)
      cases a with
      | setItem b i j k => exact ha
      | weakForm r i =>
        obtain ⟨e, he⟩ := bformula_exists (core := core) hc i
        obtain ⟨rs, ds, cs, hsp⟩ := constructed_spaced hc i
        obtain ⟨M, hM⟩ := bformula_denotes hc hs he hsp
        obtain ⟨op, ho1, -⟩ := bdenotes_brep hM
        refine ⟨e, he, op, ho1, ?_⟩
        dsimp only
        rw [pureWeak_formula hc hs hq he (i + 1) (by omega), ho1]
        rfl
      | strongForm r i =>
        obtain ⟨e, he⟩ := bformula_exists (core := core) hc i
        obtain ⟨rs, ds, cs, hsp⟩ := constructed_spaced hc i
        obtain ⟨M, hM⟩ := bformula_denotes hc hs he hsp
        obtain ⟨N, hN⟩ := strong_denotes hs hsp hM
        obtain ⟨op, ho1, -⟩ := bdenotes_brep hN
        refine ⟨e, he, fun hsq => ⟨op, ho1, ?_⟩, fun hns => ?_⟩
        · dsimp only
          rw [pureWeak_formula hc hs hq he (i + 1) (by omega), pureStrong_square hs hsp hsq, ho1]
          rfl
        · dsimp only
          obtain ⟨x, hx, hx2⟩ := pureStrong_nonsquare hs hsp hns (pureWeak core comp nodes (i + 1) i)
          rw [hx]
          rcases hx2 with rfl | rfl
          · exact Or.inl rfl
          · exact Or.inr rfl
  exact key l hl _ ⟨rfl, fun _ _ h => (by cases h), fun _ _ h => (by cases h)⟩

/-- Also the weak form of a product whose second operand is not square is never returned, although the formula has a value. -/
theorem C87_product_nonsquare (core : Core) (comp : Components) (nodes : Nat → BNode) (hc : BConstructed comp nodes)
    (hs : BlockedSound core comp) (i a b : Nat) (hk : (nodes i).kind = .product a b) (hq : ¬ (nodes b).Square) (l : List BAction)
    (hl : ∀ a ∈ l, a.Request) (r : Bool) :
    (∃ x, (bstep core comp (.weakForm r i) (brun core comp l (BWorld.fresh nodes)).2).1 = .error x) ∧
    ∃ e op, BFormula core comp nodes i e ∧ e.eval = .ok op := by
  have ho := constructed_ordered hc
  have key : ∀ (l : List BAction), (∀ a ∈ l, a.Request) → ∀ w, BInv core comp nodes w → BInv core comp nodes (brun core comp l w).2 := by
    intro l
    induction l with
    | nil => intro _ w hw; exact hw
    | cons a l ih =>
      intro hl w hw
      exact ih (fun b hb => hl b (by simp [hb])) _ (bstep_request ho (hl a (by simp)) hw).1
  have hinv := key l hl (BWorld.fresh nodes) ⟨rfl, fun _ _ h => (by cases h), fun _ _ h => (by cases h)⟩
  constructor
  · obtain ⟨-, h2⟩ := bstep_request ho (a := .weakForm r i) trivial hinv
    rw [h2]
    dsimp only
    rw [pureWeak, pureImpl, hk]
    dsimp only
    obtain ⟨rs, ds, cs, hsp⟩ := constructed_spaced hc b
    obtain ⟨x, hx, -⟩ := pureStrong_nonsquare hs hsp hq (pureWeak core comp nodes i b)
    rw [hx]
    cases pureWeak core comp nodes i a with
    | error y => exact ⟨y, rfl⟩
    | ok u => exact ⟨x, rfl⟩
  · obtain ⟨e, he⟩ := bformula_exists (core := core) hc i
    obtain ⟨rs, ds, cs, hsp⟩ := constructed_spaced hc i
    obtain ⟨M, hM⟩ := bformula_denotes hc hs he hsp
    obtain ⟨op, ho1, -⟩ := bdenotes_brep hM
    exact ⟨e, op, he, ho1⟩

/-- The weak form of every operator acts as a block matrix with a block row for each dual space and a block column for each domain, the
one given by matrix algebra from the matrices of the components; the strong form has a block row for each range space. -/
theorem C87_matrices (core : Core) (comp : Components) (nodes : Nat → BNode) (hc : BConstructed comp nodes) (hs : BlockedSound core comp)
    (i : Nat) (e : BExpr) (he : BFormula core comp nodes i e) : ∃ rs ds cs : List Space, (nodes i).range = rs.map some ∧
      (nodes i).dualToRange = ds.map some ∧ (nodes i).domain = cs.map some ∧
      (∃ M op, BDenotes e (ds.map core.dofs) (cs.map core.dofs) M ∧ e.eval = .ok op ∧ BActs op M) ∧
      (∃ M op, BDenotes (blockedStrongFormula core (nodes i) e) (rs.map core.dofs) (cs.map core.dofs) M ∧
        (blockedStrongFormula core (nodes i) e).eval = .ok op ∧ BActs op M) := by
  obtain ⟨rs, ds, cs, hsp⟩ := constructed_spaced hc i
  obtain ⟨M, hM⟩ := bformula_denotes hc hs he hsp
  obtain ⟨N, hN⟩ := strong_denotes hs hsp hM
  obtain ⟨op, h1, h2⟩ := bdenotes_brep hM
  obtain ⟨op', h3, h4⟩ := bdenotes_brep hN
  exact ⟨rs, ds, cs, hsp.range, hsp.dual, hsp.domain, ⟨M, op, hM, h1, h2.acts⟩, N, op', hN, h3, h4.acts⟩

/-- `op * [f₀, f₁, …]` for functions in the domain spaces with coefficients `v j`: the result is a list of functions in the range
spaces whose projections to the dual spaces are the blocks of the matrix-vector product. -/
theorem C87_apply (core : Core) (comp : Components) (nodes : Nat → BNode) (hc : BConstructed comp nodes) (hs : BlockedSound core comp)
    (i : Nat) (e : BExpr) (he : BFormula core comp nodes i e) (weak : BOp) (hw : e.eval = .ok weak) (rs ds cs : List Space)
    (h1 : (nodes i).range = rs.map some) (h2 : (nodes i).dualToRange = ds.map some) (h3 : (nodes i).domain = cs.map some) (h0 : cs ≠ [])
    (fs : List (Space × Arr)) (hf : fs.map (·.1) = cs) (hfr : ∀ f ∈ fs, f.2.rows = core.dofs f.1) (v : Nat → Nat → ℂ)
    (hv : ∀ (j : Nat) f, fs[j]? = some f → ∀ q < core.dofs f.1, f.2.e q 0 = v j q) :
    ∃ M, BDenotes e (ds.map core.dofs) (cs.map core.dofs) M ∧ ∃ gs, applyList (nodes i) weak fs = .ok gs ∧ gs.length = rs.length ∧
      ∀ (a : Nat) g, gs[a]? = some g → g.space = rs.getD a 0 ∧ g.dual = ds.getD a 0 ∧ ∃ p, (g.projections core none).1 = .ok p ∧
        p.twoD = false ∧ p.rows = core.dofs (ds.getD a 0) ∧ ∀ k < core.dofs (ds.getD a 0), p.e k 0 = ∑ j ∈ Finset.range cs.length,
          ∑ q ∈ Finset.range (core.dofs (cs.getD j 0)),
            tableOf M (offset (ds.map core.dofs) a + k) (offset (cs.map core.dofs) j + q) * v j q := by
  obtain ⟨rs', ds', cs', hsp⟩ := constructed_spaced hc i
  have hi : Function.Injective (some : Space → Option Space) := Option.some_injective _
  have e1 : rs' = rs := List.map_injective_iff.mpr hi (hsp.range.symm.trans h1)
  have e2 : ds' = ds := List.map_injective_iff.mpr hi (hsp.dual.symm.trans h2)
  have e3 : cs' = cs := List.map_injective_iff.mpr hi (hsp.domain.symm.trans h3)
  subst e1 e2 e3
  obtain ⟨M, hM⟩ := bformula_denotes hc hs he hsp
  refine ⟨M, hM, ?_⟩
  obtain ⟨op, ho, hr⟩ := bdenotes_brep hM
  rw [hw] at ho
  cases ho
  obtain ⟨gs, hg1, hg2, hg3⟩ := applyList_ok hsp.range hsp.dual hsp.domain hsp.len h0 hr.dims.1 hr.dims.2.1 hr.acts fs (by
    rw [← hf, List.map_map]
    exact List.map_congr_left fun f hf' => hfr f hf') v (fun j f hj q hq => hv j f hj q (by
      rw [← hfr f (List.mem_of_getElem? hj)]; exact hq))
  refine ⟨gs, hg1, hg2, fun a g hg => ?_⟩
  obtain ⟨q1, q2, q3, q4, p, q5, q6, -, q7, q8⟩ := hg3 a g hg
  refine ⟨q1, q2, p, ?_, q6, q7, q8⟩
  unfold GF.projections
  rw [q5]
  simp

/-- Lists of the wrong length are refused. -/
theorem C87_apply_length (b : BNode) (weak : BOp) (fs : List (Space × Arr)) (h : fs.length ≠ b.domain.length) :
    applyList b weak fs = .error .ValueError := by
  unfold applyList
  rw [if_pos h]

/-! ### Examples and counterexamples -/

/-- One space of two dofs with the mass matrix `2 I`; operator `k` has the matrix with all entries `k`. -/
def exampleComponents : Components := ⟨fun _ => 0, fun _ => 0, fun _ => 0, fun k => denseOp 2 2 fun _ _ => (k : ℂ)⟩

theorem exampleComponents_sound : BlockedSound exampleCore exampleComponents where
  massRows _ _ := rfl
  massCols _ _ := rfl
  massTyped d t := ⟨rfl, fun h i j => by
    simp only [exampleCore, exampleMass]
    split
    · exact Complex.conj_ofReal 2
    · exact star_zero _⟩
  invertible _ := exampleMass_fullRank
  dofs _ := by simp [exampleCore]
  form k := ⟨_, denseOp_built 2 2 fun _ _ => (k : ℂ)⟩

/-- A `2 × 2` operator without block `(1, 0)` in which `(0, 0)` was assigned twice. -/
def exampleAssignments : List (Nat × Nat × Nat) := [(0, 0, 5), (0, 1, 1), (1, 1, 3), (0, 0, 2)]

theorem exampleAssignments_ok : ∃ b, assign exampleComponents exampleAssignments (BNode.new 2 2) = .ok b :=
  (C87_assignments exampleComponents 2 2 exampleAssignments).1.mpr ⟨by decide, fun _ _ _ _ => ⟨fun _ => ⟨rfl, rfl⟩, fun _ => rfl⟩⟩

/-- The example, and from operator 1 on its square. -/
def exampleBlocked : BNode := exampleAssignments_ok.choose

def exampleBlockedNodes : Nat → BNode := fun i => if i = 0 then exampleBlocked else
  ⟨.product 0 0, exampleBlocked.range, exampleBlocked.dualToRange, exampleBlocked.domain⟩

theorem exampleAssignments_filled : Filled 2 2 exampleAssignments :=
  ⟨fun i hi => by interval_cases i <;> decide, fun j hj => by interval_cases j <;> decide⟩

theorem exampleBlocked_spec : assign exampleComponents exampleAssignments (BNode.new 2 2) = .ok exampleBlocked :=
  exampleAssignments_ok.choose_spec

/-- The hypotheses of the theorems are met by a program with a product. -/
theorem C87_example : BConstructed exampleComponents exampleBlockedNodes ∧ BlockedSound exampleCore exampleComponents ∧
    SquareProducts exampleBlockedNodes ∧ lastAssigned exampleAssignments 0 0 = some 2 ∧ lastAssigned exampleAssignments 1 0 = none := by
  obtain ⟨h1, h2, h3, h4, h5, -⟩ := (C87_assignments exampleComponents 2 2 exampleAssignments).2.2 _ exampleBlocked_spec
  have hd : exampleBlocked.domain = exampleBlocked.range := by
    obtain ⟨rs, ds, cs, hsp⟩ := reached_spaced (reached_of_ok exampleBlocked_spec) exampleAssignments_filled
    have hr : ∀ i < 2, exampleBlocked.range.getD i none = some 0 := by
      intro i hi
      interval_cases i
      · exact (h5 (0, 0, 5) (by decide)).1
      · exact (h5 (1, 1, 3) (by decide)).1
    have hc : ∀ i < 2, exampleBlocked.domain.getD i none = some 0 := by
      intro i hi
      interval_cases i
      · exact (h5 (0, 0, 5) (by decide)).2.2
      · exact (h5 (1, 1, 3) (by decide)).2.2
    refine List.ext_getElem (by omega) fun i hi1 hi2 => ?_
    have q1 := hr i (by omega)
    have q2 := hc i (by omega)
    rw [List.getD_eq_getElem?_getD, List.getElem?_eq_getElem hi2] at q1
    rw [List.getD_eq_getElem?_getD, List.getElem?_eq_getElem hi1] at q2
    simp only [Option.getD_some] at q1 q2
    rw [q1, q2]
  refine ⟨fun i => ?_, exampleComponents_sound, fun i a b hk => ?_, by decide, by decide⟩
  · by_cases hi : i = 0
    · subst hi
      exact Or.inl ⟨2, 2, exampleAssignments, exampleAssignments_filled, exampleBlocked_spec⟩
    · refine Or.inr (Or.inr (Or.inl ⟨0, 0, by omega, by omega, ?_⟩))
      unfold mkBlockedProduct exampleBlockedNodes
      simp only [if_true, if_neg hi]
      rw [if_neg (by rw [hd]; simp), if_neg (by rw [hd]; simp)]
  · unfold BNode.Square
    unfold exampleBlockedNodes
    split
    · omega
    · dsimp only; omega

/-- The operator with the only block `k`. -/
def singleNode (k : Nat) : BNode := ⟨.base fun a c => if a = 0 ∧ c = 0 then some k else none, [some 0], [some 0], [some 0]⟩

/-- The discrete operator with the only block `k`. -/
def singleOp (k : Nat) : BOp := .blocks [2] [2] fun i j =>
  ((if i = 0 ∧ j = 0 then some k else none).map exampleComponents.form).getD (.zero ([2].getD i 0) ([2].getD j 0))

theorem singleOp_made (k : Nat) : mkBlocks 1 1 (fun a c => (if a = 0 ∧ c = 0 then some k else none).map exampleComponents.form) =
    .ok (singleOp k) :=
  mkBlocks_exists (rd := [2]) (cd := [2]) rfl rfl ⟨fun i hi => ⟨0, by decide, by interval_cases i; rfl⟩,
    fun j hj => ⟨0, by decide, by interval_cases j; rfl⟩⟩ (fun i hi j hj o ho => by
      interval_cases i
      interval_cases j
      cases ho
      rfl)

/-- Assignments do not invalidate the cached weak form: after `b[0, 0] = A`, `b.weak_form()`, `b[0, 0] = B`, `b.weak_form()` still is
the weak form of `A`. -/
theorem C87_counterexample_stale :
    assign exampleComponents [(0, 0, 1)] (BNode.new 1 1) = .ok (singleNode 1) ∧
    (∃ w, brun exampleCore exampleComponents [.weakForm false 0, .setItem 0 0 0 2, .weakForm false 0] (BWorld.fresh fun _ => singleNode 1) =
      ([.ok (some (singleOp 1)), .ok none, .ok (some (singleOp 1))], w) ∧ ∃ e, BFormula exampleCore exampleComponents w.node 0 e ∧
        e.eval = .ok (singleOp 2)) ∧
    (singleOp 1).getItem 0 0 = .ok (denseOp 2 2 fun _ _ => (1 : Nat)) ∧ (singleOp 2).getItem 0 0 = .ok (denseOp 2 2 fun _ _ => (2 : Nat)) := by
  refine ⟨rfl, ?_, rfl, rfl⟩
  have h1 : ∀ w : BWorld, w.node 0 = singleNode 1 → w.weak 0 = none → blockedWeak exampleCore exampleComponents 1 false 0 w =
      (.ok (singleOp 1), { w with weak := fun j => if j = 0 then some (singleOp 1) else w.weak j }) := by
    intro w hn hw
    rw [blockedWeak]
    simp only [Bool.false_eq_true, if_false, hw]
    have : ∀ f g, blockedWeakImpl exampleComponents f g 0 w = (.ok (singleOp 1), w) := by
      intro f g
      unfold blockedWeakImpl
      rw [hn]
      exact Prod.ext (singleOp_made 1) rfl
    rw [this]
  have h2 : ∀ w : BWorld, w.weak 0 = some (singleOp 1) → blockedWeak exampleCore exampleComponents 1 false 0 w =
      (.ok (singleOp 1), w) := by
    intro w hw
    rw [blockedWeak]
    simp only [Bool.false_eq_true, if_false, hw]
  have s1 : bstep exampleCore exampleComponents (.weakForm false 0) (BWorld.fresh fun _ => singleNode 1) = (.ok (some (singleOp 1)),
      { (BWorld.fresh fun _ => singleNode 1) with weak := fun j => if j = 0 then some (singleOp 1) else none }) := by
    unfold bstep
    dsimp only
    rw [h1 _ rfl rfl]
    rfl
  have s2 : ∃ w, bstep exampleCore exampleComponents (.setItem 0 0 0 2)
      { (BWorld.fresh fun _ => singleNode 1) with weak := fun j => if j = 0 then some (singleOp 1) else none } = (.ok none, w) ∧
      w.weak 0 = some (singleOp 1) ∧ assign exampleComponents [(0, 0, 1), (0, 0, 2)] (BNode.new 1 1) = .ok (w.node 0) := ⟨_, rfl, rfl, rfl⟩
  obtain ⟨w, hs2, hw, ha⟩ := s2
  refine ⟨w, ?_, ?_⟩
  · rw [brun, s1]
    dsimp only
    rw [brun, hs2]
    dsimp only
    rw [brun]
    have : bstep exampleCore exampleComponents (.weakForm false 0) w = (.ok (some (singleOp 1)), w) := by
      unfold bstep
      dsimp only
      rw [h2 w hw]
      rfl
    rw [this]
    rfl
  · obtain ⟨hk, hr, -, hd, -, -⟩ := (C87_assignments exampleComponents 1 1 _).2.2 _ ha
    refine ⟨_, .base hk, ?_⟩
    rw [hr, hd, BExpr.eval]
    rw [← singleOp_made 2]
    congr 1
    funext a c
    congr 1
    unfold lastAssigned
    by_cases h : a = 0 ∧ c = 0
    · rw [if_pos h, h.1, h.2]; rfl
    · rw [if_neg h, Option.map_eq_none_iff, List.find?_eq_none]
      intro x hx
      simp only [List.reverse_cons, List.reverse_nil, List.nil_append, List.cons_append, List.mem_cons, List.not_mem_nil, or_false] at hx
      rcases hx with rfl | rfl <;> simp <;> omega

/-- The spaces of the functions are not checked: the operator with two dofs is applied to a function of a space with one dof, whose
coefficient is used for both. -/
theorem C87_counterexample_spaces : ∃ gs, applyList (singleNode 1) (singleOp 1) [(7, ⟨false, 1, 1, true, fun _ _ => 3⟩)] = .ok gs ∧
    ∃ g, gs = [g] ∧ ∃ p, g.duals = some p ∧ p.e 0 0 = 6 := by
  have hb : BActs (singleOp 1) (toM [2].sum [2].sum fun _ _ => 1) := by
    have hE : IsBlockTable [2] [2] (fun _ _ _ _ => (1 : ℂ)) fun _ _ => 1 := fun _ _ _ _ _ _ _ _ => rfl
    have : BDenotes (.blocks 1 1 fun a c => (if a = 0 ∧ c = 0 then some 1 else none).map exampleComponents.form) [2] [2]
        (toM [2].sum [2].sum fun _ _ => 1) := by
      refine BDenotes.blocks (B := fun _ _ _ _ => 1) rfl rfl (fun i hi j hj => ?_) ⟨fun i hi => ⟨0, by decide, by interval_cases i; rfl⟩,
        fun j hj => ⟨0, by decide, by interval_cases j; rfl⟩⟩ hE
      have hi : i < 1 := hi
      have hj : j < 1 := hj
      interval_cases i
      interval_cases j
      refine ⟨fun op ho => ?_, fun ho => (by cases ho)⟩
      cases ho
      have := denseOp_built 2 2 fun _ _ => ((1 : Nat) : ℂ)
      rw [Nat.cast_one] at this
      unfold exampleComponents
      dsimp only
      rw [Nat.cast_one]
      exact this
    obtain ⟨op, h1, h2⟩ := bdenotes_brep this
    rw [BExpr.eval, singleOp_made] at h1
    cases h1
    exact h2.acts
  obtain ⟨y, hy1, hy2⟩ := (hb.2 ⟨false, 2, 1, true, fun p k => if 0 ≤ p ∧ p < 0 + 2 then 3 else 0⟩ rfl (le_refl _) (fun _ => rfl)).1
  unfold applyList
  rw [if_neg (by decide), if_neg (by decide)]
  have : assignAll ⟨false, (singleOp 1).shape.2, 1, [((7 : Space), (⟨false, 1, 1, true, fun _ _ => 3⟩ : Arr))].any (·.2.complex), fun _ _ => 0⟩ 0
      (singleOp 1).colDims ([((7 : Space), (⟨false, 1, 1, true, fun _ _ => 3⟩ : Arr))].map (·.2)) =
      .ok ⟨false, 2, 1, true, fun p k => if 0 ≤ p ∧ p < 0 + 2 then 3 else 0⟩ := rfl
  rw [this, ok_bind, hy1, ok_bind]
  refine ⟨_, rfl, _, rfl, _, rfl, ?_⟩
  show y.e (0 + 0) 0 = 6
  rw [hy2.entry (p := 0) (k := 0) (by decide) (by decide)]
  simp [Finset.sum_range_succ]
  norm_num

end

end Verif.PyOp
