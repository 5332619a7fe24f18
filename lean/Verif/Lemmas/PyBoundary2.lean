import Verif.Lemmas.PyBoundary
/-
Lemmas for C84: recomputation; the matrices of the formulas.
-/
namespace Verif.PyOp
noncomputable section

variable {core : Core} {nodes : Nat → Node}

/-- The cached range maps are right. -/
def RangeOk (core : Core) (nodes : Nat → Node) (w : World) : Prop :=
  ∀ i op, w.rangeMap i = some op → mkInverse (core.mass (nodes i).range (nodes i).dualToRange) = .ok op

theorem RangeOk.set {w : World} {i : Nat} {op : Op} (h : RangeOk core nodes w)
    (hi : mkInverse (core.mass (nodes i).range (nodes i).dualToRange) = .ok op) :
    RangeOk core nodes { w with rangeMap := fun j => if j = i then some op else w.rangeMap j } := by
  intro j op' hj
  dsimp only at hj
  split at hj
  · rename_i hji
    subst hji
    cases hj
    exact hi
  · exact h j op' hj

/-- The range maps of arbitrary histories. -/
def rangeFrame (core : Core) (nodes : Nat → Node) : Frame core nodes where
  inv := RangeOk core nodes
  le := fun _ _ => True
  ext := fun _ _ => False
  refl := fun _ => trivial
  trans := fun _ _ _ _ _ => trivial
  mono := fun _ _ _ _ h => h
  range := fun w i op h hi => h i op hi
  setRange := fun w i op h hi => ⟨h.set hi, trivial⟩

/-- The operators before `n` are cached with the parameters of the present. -/
def nowFrame (core : Core) (nodes : Nat → Node) (t n : Nat) : Frame core nodes where
  inv := fun w => RangeOk core nodes w ∧ w.time = t ∧ ∀ j < n, ∀ op, w.weak j = some op → ∀ e, Formula core nodes (fun _ => t) j e →
    e.eval = .ok op
  le := fun _ _ => True
  ext := fun τ _ => τ = fun _ => t
  refl := fun _ => trivial
  trans := fun _ _ _ _ _ => trivial
  mono := fun _ _ _ _ h => h
  range := fun w i op h hi => h.1 i op hi
  setRange := fun w i op h hi => ⟨⟨h.1.set hi, h.2.1, h.2.2⟩, trivial⟩

theorem operand_weak (hc : Constructed core nodes) {i a : Nat}
    (h : (∃ b, (nodes i).kind = .sum a b ∨ (nodes i).kind = .sum b a ∨ (nodes i).kind = .product a b ∨
      (nodes i).kind = .dualProduct b a) ∨ (∃ c, (nodes i).kind = .scaled a c) ∨ (nodes i).kind = .transpose a ∨
      (nodes i).kind = .adjoint a ∨ (nodes i).kind = .reinterpret a ∨ (nodes i).kind = .projection a) : a < i := by
  obtain ⟨o1, o2⟩ := hc.operands i
  rcases h with ⟨b, h | h | h | h⟩ | h
  · exact (o1 a b (Or.inl h)).1
  · exact (o1 b a (Or.inl h)).2
  · exact (o1 a b (Or.inr (Or.inl h))).1
  · exact (o1 b a (Or.inr (Or.inr h))).2
  · exact o2 a h

theorem operand_strong (hc : Constructed core nodes) {i a b : Nat}
    (h : (nodes i).kind = .product b a ∨ (nodes i).kind = .dualProduct a b) : a < i := by
  obtain ⟨o1, o2⟩ := hc.operands i
  rcases h with h | h
  · exact (o1 b a (Or.inr (Or.inl h))).2
  · exact (o1 a b (Or.inr (Or.inr h))).1

theorem sat_range_weak (hc : Constructed core nodes) (n : Nat) : ∀ (r : Bool), ∀ i < n,
    Sat (rangeFrame core nodes) (weakForm core nodes n r i) (fun _ _ => True) := by
  induction n with
  | zero => intro r i hi; omega
  | succ n ih =>
    intro r i hi w hw
    refine ⟨?_, trivial, fun _ h => h.elim⟩
    simp only [weakForm]
    generalize hv : (if r = true then ({ w with weak := fun j => if j = i then none else w.weak j } : World) else w) = v
    have hv' : RangeOk core nodes v := by
      rw [← hv]
      split
      · exact hw
      · exact hw
    cases hwi : v.weak i with
    | some op => exact hv'
    | none =>
      dsimp only
      have : RangeOk core nodes (weakFormImpl core nodes (weakForm core nodes n false)
          (strongOf core nodes (weakForm core nodes n false)) i v).2 := by
        by_cases hk : ∃ k, (nodes i).kind = .elementary k
        · obtain ⟨k, hk⟩ := hk
          unfold weakFormImpl
          rw [hk]
          exact hv'
        · refine (sat_impl (rangeFrame core nodes) (fun k h => hk ⟨k, h⟩) ?_ ?_ v hv').1
          · intro a ha
            have := operand_weak hc ha
            exact fun w hw => ⟨(ih false a (by omega) w hw).1, trivial, fun _ h => h.elim⟩
          · intro a b hab
            have := operand_strong hc hab
            unfold strongOf
            exact sat_strong _ (fun w hw => ⟨(ih false a (by omega) w hw).1, trivial, fun _ h => h.elim⟩)
      generalize weakFormImpl core nodes (weakForm core nodes n false) (strongOf core nodes (weakForm core nodes n false)) i v = p
        at this ⊢
      obtain ⟨s, w'⟩ := p
      cases s with
      | error x => exact this
      | ok op => exact this

theorem range_strong (hc : Constructed core nodes) (r : Bool) (i : Nat) (w : World) (hw : RangeOk core nodes w) :
    RangeOk core nodes (strongForm core nodes r i w).2 := by
  unfold strongForm
  dsimp only
  have h1 : Sat (rangeFrame core nodes) (PyM.bind (getRangeMap core nodes i) (fun m =>
    PyM.bind (weakForm core nodes (i + 1) r i) fun u => PyM.lift (m.mul u))) (IsStrong core nodes i) :=
    sat_strong _ (fun w hw => ⟨(sat_range_weak hc (i + 1) r i (by omega) w hw).1, trivial, fun _ h => h.elim⟩)
  refine (h1 _ ?_).1
  show RangeOk core nodes _
  split
  · intro j op hj
    dsimp only at hj
    split at hj
    · cases hj
    · exact hw j op hj
  · exact hw

theorem range_run (hc : Constructed core nodes) (l : List Action) : ∀ w, RangeOk core nodes w →
    RangeOk core nodes (run core nodes l w).2 := by
  induction l with
  | nil => intro w hw; exact hw
  | cons a l ih =>
    intro w hw
    refine ih _ ?_
    cases a with
    | weakForm r i => exact (sat_range_weak hc (i + 1) r i (by omega) w hw).1
    | strongForm r i => exact range_strong hc r i w hw
    | wait => exact hw

theorem sat_now (hc : Constructed core nodes) (t m : Nat) (n : Nat) : ∀ i < n, i < m →
    Sat (nowFrame core nodes t m) (weakForm core nodes n false i) (IsWeak core nodes i) := by
  induction n with
  | zero => intro i hi; omega
  | succ n ih =>
    intro i hi hm w hw
    simp only [weakForm, Bool.false_eq_true, if_false]
    cases hwi : w.weak i with
    | some op =>
      dsimp only
      refine ⟨hw, trivial, fun τ ht e he => ?_⟩
      change τ = fun _ => t at ht
      subst ht
      rw [hw.2.2 i hm op hwi e he]
      exact agree_refl _
    | none =>
      dsimp only
      have hs : (nowFrame core nodes t m).inv (weakFormImpl core nodes (weakForm core nodes n false)
          (strongOf core nodes (weakForm core nodes n false)) i w).2 ∧
          ∀ e, Formula core nodes (fun _ => t) i e → Agree (weakFormImpl core nodes (weakForm core nodes n false)
          (strongOf core nodes (weakForm core nodes n false)) i w).1 e.eval := by
        by_cases hk : ∃ k, (nodes i).kind = .elementary k
        · obtain ⟨k, hk⟩ := hk
          unfold weakFormImpl
          rw [hk]
          refine ⟨⟨hw.1, hw.2.1, hw.2.2⟩, fun e he => ?_⟩
          have := formula_inv he
          simp only [hk] at this
          subst this
          show Agree (core.form k w.time).eval _
          rw [hw.2.1]; exact agree_refl _
        · have := sat_impl (nowFrame core nodes t m) (fun k h => hk ⟨k, h⟩) (weak := weakForm core nodes n false)
            (strong := strongOf core nodes (weakForm core nodes n false)) (by
            intro a ha
            have := operand_weak hc ha
            exact ih a (by omega) (by omega)) (by
            intro a b hab
            have := operand_strong hc hab
            unfold strongOf
            exact sat_strong _ (ih a (by omega) (by omega))) w hw
          exact ⟨this.1, this.2.2 _ rfl⟩
      generalize weakFormImpl core nodes (weakForm core nodes n false) (strongOf core nodes (weakForm core nodes n false)) i w = p
        at hs ⊢
      obtain ⟨r, w'⟩ := p
      obtain ⟨h1, h3⟩ := hs
      cases r with
      | error x =>
        refine ⟨h1, trivial, fun τ ht => ?_⟩
        change τ = fun _ => t at ht
        subst ht
        exact h3
      | ok op =>
        dsimp only
        refine ⟨⟨h1.1, h1.2.1, ?_⟩, trivial, fun τ ht => ?_⟩
        · intro j hj op' hop e he
          dsimp only at hop
          split at hop
          · rename_i hji
            subst hji
            cases hop
            exact (h3 e he).ok
          · exact h1.2.2 j hj op' hop e he
        · change τ = fun _ => t at ht
          subst ht
          exact h3

theorem recompute_step (hc : Constructed core nodes) (t i : Nat) (w : World) (hw : (nowFrame core nodes t i).inv w) :
    (nowFrame core nodes t (i + 1)).inv (weakForm core nodes (i + 1) true i w).2 ∧
    IsWeak core nodes i (fun _ => t) (weakForm core nodes (i + 1) true i w).1 := by
  have : weakForm core nodes (i + 1) true i w =
      weakForm core nodes (i + 1) false i { w with weak := fun j => if j = i then none else w.weak j } := by
    simp only [weakForm, if_true, Bool.false_eq_true, if_false]
  rw [this]
  have hs := sat_now hc t (i + 1) (i + 1) i (by omega) (by omega) { w with weak := fun j => if j = i then none else w.weak j } (by
    refine ⟨hw.1, hw.2.1, ?_⟩
    intro j hj op hop e he
    dsimp only at hop
    split at hop
    · cases hop
    · exact hw.2.2 j (by omega) op hop e he)
  exact ⟨hs.1, hs.2.2 _ rfl⟩

/-! ### Matrices -/

theorem formula_exists (hc : Constructed core nodes) (τ : Nat → Nat) (i : Nat) : ∃ e, Formula core nodes τ i e := by
  induction i using Nat.strong_induction_on with
  | _ i ih =>
    obtain ⟨o1, o2⟩ := hc.operands i
    cases hk : (nodes i).kind with
    | elementary k => exact ⟨_, .elementary hk⟩
    | zero => exact ⟨_, .zero hk⟩
    | sum a b =>
      obtain ⟨u, hu⟩ := ih a (o1 a b (Or.inl hk)).1
      obtain ⟨v, hv⟩ := ih b (o1 a b (Or.inl hk)).2
      exact ⟨_, .sum hk hu hv⟩
    | scaled a c =>
      obtain ⟨u, hu⟩ := ih a (o2 a (Or.inl ⟨c, hk⟩))
      exact ⟨_, .scaled hk hu⟩
    | product a b =>
      obtain ⟨u, hu⟩ := ih a (o1 a b (Or.inr (Or.inl hk))).1
      obtain ⟨v, hv⟩ := ih b (o1 a b (Or.inr (Or.inl hk))).2
      exact ⟨_, .product hk hu hv⟩
    | dualProduct a b =>
      obtain ⟨u, hu⟩ := ih a (o1 a b (Or.inr (Or.inr hk))).1
      obtain ⟨v, hv⟩ := ih b (o1 a b (Or.inr (Or.inr hk))).2
      exact ⟨_, .dualProduct hk hu hv⟩
    | transpose a =>
      obtain ⟨u, hu⟩ := ih a (o2 a (Or.inr (Or.inl hk)))
      exact ⟨_, .transpose hk hu⟩
    | adjoint a =>
      obtain ⟨u, hu⟩ := ih a (o2 a (Or.inr (Or.inr (Or.inl hk))))
      exact ⟨_, .adjoint hk hu⟩
    | reinterpret a =>
      obtain ⟨u, hu⟩ := ih a (o2 a (Or.inr (Or.inr (Or.inr (Or.inl hk)))))
      exact ⟨_, .reinterpret hk hu⟩
    | projection a =>
      obtain ⟨u, hu⟩ := ih a (o2 a (Or.inr (Or.inr (Or.inr (Or.inr hk)))))
      by_cases h1 : (nodes i).dualToRange = (nodes a).dualToRange
      · by_cases h2 : (nodes i).domain = (nodes a).domain
        · exfalso
          rcases hc i with ⟨k, h⟩ | h | ⟨a', b, -, -, h⟩ | ⟨a', c, -, -, h⟩ | ⟨a', b, -, -, h⟩ | ⟨a', b, -, -, h⟩ | ⟨a', r, -, h⟩ |
            ⟨a', r, -, h⟩ | ⟨a', d, r, t, -, h⟩ | ⟨a', d, r, t, -, -, -, h⟩
          · rw [h] at hk; cases hk
          · rw [h] at hk; cases hk
          · unfold mkSum at h
            split at h
            · cases h
            · rw [← Except.ok.inj h] at hk; cases hk
          · rw [← h] at hk; cases hk
          · unfold mkProduct at h
            split at h
            · cases h
            · rw [← Except.ok.inj h] at hk; cases hk
          · unfold mkDualProduct at h
            split at h
            · cases h
            · rw [← Except.ok.inj h] at hk; cases hk
          · rw [← h] at hk; cases hk
          · rw [← h] at hk; cases hk
          · unfold mkProjection at h
            dsimp only at h
            split at h
            · split at h
              · cases h
              · rw [← Option.some.inj h] at hk; cases hk
            · rename_i hne
              have hk' := hk
              rw [← Option.some.inj h] at hk'
              cases hk'
              rw [← Option.some.inj h] at h1 h2
              exact hne ⟨h2.symm, h1.symm⟩
          · rw [← h] at hk; cases hk
        · exact ⟨_, .projectDomain hk h1 h2 hu⟩
      · by_cases h2 : (nodes i).domain = (nodes a).domain
        · exact ⟨_, .projectDual hk h1 h2 hu⟩
        · exact ⟨_, .projectBoth hk h1 h2 hu⟩

/-- What the constructors check and set. -/
def SpacesOk (core : Core) (nodes : Nat → Node) (n : Node) : Prop :=
  match n.kind with
  | .elementary _ => True
  | .zero => True
  | .sum a b => n.domain = (nodes a).domain ∧ n.range = (nodes a).range ∧ n.dualToRange = (nodes a).dualToRange ∧
      core.compatible (nodes a).domain (nodes b).domain = true ∧ core.compatible (nodes a).dualToRange (nodes b).dualToRange = true
  | .scaled a c => n.domain = (nodes a).domain ∧ n.range = (nodes a).range ∧ n.dualToRange = (nodes a).dualToRange ∧
      (c.complex = false → star c.value = c.value)
  | .product a b => n.domain = (nodes b).domain ∧ n.dualToRange = (nodes a).dualToRange ∧
      core.compatible (nodes b).range (nodes a).domain = true
  | .dualProduct a b => n.domain = (nodes b).domain ∧ n.dualToRange = (nodes a).domain ∧
      core.compatible (nodes b).dualToRange (nodes a).range = true
  | .transpose a => n.domain = (nodes a).dualToRange ∧ n.dualToRange = (nodes a).domain
  | .adjoint a => n.domain = (nodes a).dualToRange ∧ n.dualToRange = (nodes a).domain
  | .reinterpret a => core.dofs n.domain = core.dofs (nodes a).domain ∧ core.dofs n.dualToRange = core.dofs (nodes a).dualToRange
  | .projection _ => True

theorem Constructed.spaces (hc : Constructed core nodes) (i : Nat) : SpacesOk core nodes (nodes i) := by
  rcases hc i with ⟨k, h⟩ | h | ⟨a, b, -, -, h⟩ | ⟨a, c, -, hs, h⟩ | ⟨a, b, -, -, h⟩ | ⟨a, b, -, -, h⟩ | ⟨a, r, -, h⟩ |
    ⟨a, r, -, h⟩ | ⟨a, d, r, t, -, h⟩ | ⟨a, d, r, t, -, h1, h2, h⟩
  · unfold SpacesOk; rw [h]; trivial
  · unfold SpacesOk; rw [h]; trivial
  · unfold mkSum at h
    split at h
    · cases h
    · rename_i hn
      rw [← Except.ok.inj h]
      simp only [not_or, not_not] at hn
      exact ⟨rfl, rfl, rfl, hn.1, hn.2.2⟩
  · rw [← h]
    exact ⟨rfl, rfl, rfl, hs⟩
  · unfold mkProduct at h
    split at h
    · cases h
    · rename_i hn
      rw [← Except.ok.inj h]
      simp only [not_not] at hn
      exact ⟨rfl, rfl, hn⟩
  · unfold mkDualProduct at h
    split at h
    · cases h
    · rename_i hn
      rw [← Except.ok.inj h]
      simp only [not_not] at hn
      exact ⟨rfl, rfl, hn⟩
  · rw [← h]; exact ⟨rfl, rfl⟩
  · rw [← h]; exact ⟨rfl, rfl⟩
  · unfold mkProjection at h
    dsimp only at h
    split at h
    · rename_i hd
      split at h
      · cases h
      · rw [← Option.some.inj h]
        exact ⟨congrArg _ hd.1.symm, congrArg _ hd.2.symm⟩
    · rw [← Option.some.inj h]
      trivial
  · rw [← h]; exact ⟨h1, h2⟩

/-- The expression is well-formed and stands for an `r × c` matrix. -/
def Sized (e : Expr) (r c : Nat) : Prop := e.Wellformed ∧ ∃ M : Matrix (Fin r) (Fin c) ℂ, Denotes e r c M

theorem Sized.cast {e : Expr} {r c r' c' : Nat} (h : Sized e r c) (hr : r = r') (hc : c = c') : Sized e r' c' := by
  subst hr; subst hc; exact h

theorem Sized.mul {a b : Expr} {r k c : Nat} (ha : Sized a r k) (hb : Sized b k c) : Sized (.mul a b) r c := by
  obtain ⟨wa, A, hA⟩ := ha
  obtain ⟨wb, B, hB⟩ := hb
  exact ⟨⟨wa, wb⟩, _, .mul hA hB⟩

theorem sized_sparse (hso : core.Sound nodes) (d t : Space) : Sized (.sparse (core.mass d t)) (core.dofs t) (core.dofs d) :=
  Sized.cast ⟨hso.massTyped d t, _, .sparse _⟩ (hso.massRows d t) (hso.massCols d t)

theorem sized_inverse (hso : core.Sound nodes) {d t : Space} (h1 : ∀ s, core.dofs s ≠ 1) (hf : FullRank (core.mass d t)) :
    Sized (.inverse (core.mass d t)) (core.dofs d) (core.dofs t) := by
  obtain ⟨X, hX, -, -⟩ := mp_exists _ hf
  refine Sized.cast ⟨⟨hso.massTyped d t, hf, ?_, ?_⟩, _, .inverse _ X hX⟩ (hso.massCols d t) (hso.massRows d t)
  · rw [hso.massRows]; exact h1 _
  · rw [hso.massCols]; exact h1 _

theorem sized_strong (hso : core.Sound nodes) (hi : core.Invertible nodes) {i : Nat} {e : Expr} {c : Nat}
    (h : Sized e (core.dofs (nodes i).dualToRange) c) : Sized (strongFormula core (nodes i) e) (core.dofs (nodes i).range) c :=
  (sized_inverse hso hi.2 (hi.1 i).1).mul h

theorem formula_sized (hc : Constructed core nodes) (hso : core.Sound nodes) (hi : core.Invertible nodes) {τ : Nat → Nat} {i : Nat}
    {e : Expr} (h : Formula core nodes τ i e) : Sized e (core.dofs (nodes i).dualToRange) (core.dofs (nodes i).domain) := by
  induction h with
  | elementary h => exact hso.form _ _ _ h
  | zero h => exact ⟨trivial, _, .zero _ _⟩
  | @sum i a b u v h ha hb iha ihb =>
    have hs := hc.spaces i
    unfold SpacesOk at hs
    rw [h] at hs
    obtain ⟨h1, -, h2, h3, h4⟩ := hs
    rw [h1, h2]
    obtain ⟨wa, A, hA⟩ := iha
    obtain ⟨wb, B, hB⟩ := ihb.cast (hso.compatible _ _ h4).symm (hso.compatible _ _ h3).symm
    exact ⟨⟨wa, wb⟩, _, .add hA hB⟩
  | @scaled i a c u h ha iha =>
    have hs := hc.spaces i
    unfold SpacesOk at hs
    rw [h] at hs
    obtain ⟨h1, -, h2, h3⟩ := hs
    rw [h1, h2]
    obtain ⟨wa, A, hA⟩ := iha
    exact ⟨⟨h3, wa⟩, _, .smul c hA⟩
  | @product i a b u v h ha hb iha ihb =>
    have hs := hc.spaces i
    unfold SpacesOk at hs
    rw [h] at hs
    obtain ⟨h1, h2, h3⟩ := hs
    rw [h1, h2]
    exact iha.mul ((sized_strong hso hi ihb).cast (hso.compatible _ _ h3) rfl)
  | @dualProduct i a b u v h ha hb iha ihb =>
    have hs := hc.spaces i
    unfold SpacesOk at hs
    rw [h] at hs
    obtain ⟨h1, h2, h3⟩ := hs
    rw [h1, h2]
    obtain ⟨wa, A, hA⟩ := sized_strong hso hi iha
    have : Sized (.adjoint (strongFormula core (nodes a) u)) (core.dofs (nodes a).domain) (core.dofs (nodes a).range) :=
      ⟨wa, _, .adjoint hA⟩
    exact this.mul (ihb.cast (hso.compatible _ _ h3) rfl)
  | @transpose i a u h ha iha =>
    have hs := hc.spaces i
    unfold SpacesOk at hs
    rw [h] at hs
    obtain ⟨h1, h2⟩ := hs
    rw [h1, h2]
    obtain ⟨wa, A, hA⟩ := iha
    exact ⟨wa, _, .transpose hA⟩
  | @adjoint i a u h ha iha =>
    have hs := hc.spaces i
    unfold SpacesOk at hs
    rw [h] at hs
    obtain ⟨h1, h2⟩ := hs
    rw [h1, h2]
    obtain ⟨wa, A, hA⟩ := iha
    exact ⟨wa, _, .adjoint hA⟩
  | @reinterpret i a u h ha iha =>
    have hs := hc.spaces i
    unfold SpacesOk at hs
    rw [h] at hs
    obtain ⟨h1, h2⟩ := hs
    exact iha.cast h2.symm h1.symm
  | @projectDual i a u h h1 h2 ha iha =>
    rw [h2]
    exact ((sized_sparse hso _ _).mul (sized_inverse hso hi.2 (hi.1 a).2.1)).mul iha
  | @projectDomain i a u h h1 h2 ha iha =>
    rw [h1]
    exact iha.mul ((sized_inverse hso hi.2 (hi.1 a).2.2).mul (sized_sparse hso _ _))
  | @projectBoth i a u h h1 h2 ha iha =>
    exact (((sized_sparse hso _ _).mul (sized_inverse hso hi.2 (hi.1 a).2.1)).mul iha).mul
      ((sized_inverse hso hi.2 (hi.1 a).2.2).mul (sized_sparse hso _ _))

theorem formula_plain {τ : Nat → Nat} (hp : ∀ k t, (core.form k t).Plain)
    (hn : ∀ i a, (nodes i).kind ≠ .transpose a ∧ (nodes i).kind ≠ .adjoint a ∧ ∀ b, (nodes i).kind ≠ .dualProduct a b) {i : Nat}
    {e : Expr} (h : Formula core nodes τ i e) : e.Plain := by
  induction h with
  | elementary h => exact hp _ _
  | zero h => exact ⟨fun _ h => (by cases h), fun _ h => (by cases h)⟩
  | sum h ha hb iha ihb => exact ⟨⟨fun _ h => (by cases h), fun _ h => (by cases h)⟩, iha, ihb⟩
  | scaled h ha iha => exact ⟨⟨fun _ h => (by cases h), fun _ h => (by cases h)⟩, iha⟩
  | product h ha hb iha ihb =>
    exact ⟨⟨fun _ h => (by cases h), fun _ h => (by cases h)⟩, iha, ⟨fun _ h => (by cases h), fun _ h => (by cases h)⟩,
      ⟨fun _ h => (by cases h), fun _ h => (by cases h)⟩, ihb⟩
  | @dualProduct i a b u v h ha hb iha ihb => exact ((hn i a).2.2 b h).elim
  | @transpose i a u h ha iha => exact ((hn i a).1 h).elim
  | @adjoint i a u h ha iha => exact ((hn i a).2.1 h).elim
  | reinterpret h ha iha => exact iha
  | projectDual h h1 h2 ha iha =>
    exact ⟨⟨fun _ h => (by cases h), fun _ h => (by cases h)⟩, ⟨⟨fun _ h => (by cases h), fun _ h => (by cases h)⟩,
      ⟨fun _ h => (by cases h), fun _ h => (by cases h)⟩, ⟨fun _ h => (by cases h), fun _ h => (by cases h)⟩⟩, iha⟩
  | projectDomain h h1 h2 ha iha =>
    exact ⟨⟨fun _ h => (by cases h), fun _ h => (by cases h)⟩, iha, ⟨⟨fun _ h => (by cases h), fun _ h => (by cases h)⟩,
      ⟨fun _ h => (by cases h), fun _ h => (by cases h)⟩, ⟨fun _ h => (by cases h), fun _ h => (by cases h)⟩⟩⟩
  | projectBoth h h1 h2 ha iha =>
    exact ⟨⟨fun _ h => (by cases h), fun _ h => (by cases h)⟩, ⟨⟨fun _ h => (by cases h), fun _ h => (by cases h)⟩,
      ⟨⟨fun _ h => (by cases h), fun _ h => (by cases h)⟩,
      ⟨fun _ h => (by cases h), fun _ h => (by cases h)⟩, ⟨fun _ h => (by cases h), fun _ h => (by cases h)⟩⟩, iha⟩,
      ⟨⟨fun _ h => (by cases h), fun _ h => (by cases h)⟩,
      ⟨fun _ h => (by cases h), fun _ h => (by cases h)⟩, ⟨fun _ h => (by cases h), fun _ h => (by cases h)⟩⟩⟩

end

end Verif.PyOp
