import Verif.Spec.PyBoundary
import Verif.Lemmas.PyDiscrete2
/-
Lemmas for C84: what the caches contain.
-/
namespace Verif.PyOp
noncomputable section

/-- An invariant of the caches under which they are used. -/
structure Frame (core : Core) (nodes : Nat → Node) where
  inv : World → Prop
  le : World → World → Prop
  ext : (Nat → Nat) → World → Prop
  refl : ∀ w, le w w
  trans : ∀ u v w, le u v → le v w → le u w
  mono : ∀ τ v w, le v w → ext τ w → ext τ v
  range : ∀ w i op, inv w → w.rangeMap i = some op → mkInverse (core.mass (nodes i).range (nodes i).dualToRange) = .ok op
  setRange : ∀ w i op, inv w → mkInverse (core.mass (nodes i).range (nodes i).dualToRange) = .ok op →
    inv { w with rangeMap := fun j => if j = i then some op else w.rangeMap j } ∧
    le w { w with rangeMap := fun j => if j = i then some op else w.rangeMap j }

variable {core : Core} {nodes : Nat → Node}

/-- The computation keeps the invariant, and its result is as described by `Q`. -/
def Sat (F : Frame core nodes) {α : Type} (m : PyM α) (Q : (Nat → Nat) → Res α → Prop) : Prop :=
  ∀ w, F.inv w → F.inv (m w).2 ∧ F.le w (m w).2 ∧ ∀ τ, F.ext τ (m w).2 → Q τ (m w).1

theorem sat_lift (F : Frame core nodes) {α : Type} (r : Res α) : Sat F (PyM.lift r) (fun _ s => s = r) :=
  fun w hw => ⟨hw, F.refl w, fun _ _ => rfl⟩

theorem sat_mono (F : Frame core nodes) {α : Type} {m : PyM α} {Q R : (Nat → Nat) → Res α → Prop} (h : Sat F m Q)
    (hQ : ∀ τ r, Q τ r → R τ r) : Sat F m R :=
  fun w hw => ⟨(h w hw).1, (h w hw).2.1, fun τ ht => hQ τ _ ((h w hw).2.2 τ ht)⟩

theorem sat_bind (F : Frame core nodes) {α β : Type} {m : PyM α} {g : α → PyM β} {Q : (Nat → Nat) → Res α → Prop}
    {R : α → (Nat → Nat) → Res β → Prop} (h : Sat F m Q) (hg : ∀ a, Sat F (g a) (R a)) :
    Sat F (PyM.bind m g) (fun τ r => ∃ s, Q τ s ∧ ((∃ a, s = .ok a ∧ R a τ r) ∨ ∃ x, s = .error x ∧ r = .error x)) := by
  intro w hw
  obtain ⟨h1, h2, h3⟩ := h w hw
  unfold PyM.bind
  generalize hp : m w = p at h1 h2 h3 ⊢
  obtain ⟨s, w'⟩ := p
  cases s with
  | error x => exact ⟨h1, h2, fun τ ht => ⟨_, h3 τ ht, Or.inr ⟨x, rfl, rfl⟩⟩⟩
  | ok a =>
    obtain ⟨g1, g2, g3⟩ := hg a w' h1
    exact ⟨g1, F.trans _ _ _ h2 g2, fun τ ht => ⟨_, h3 τ (F.mono _ _ _ g2 ht), Or.inl ⟨a, rfl, g3 τ ht⟩⟩⟩

theorem agree_refl (r : Res Op) : Agree r r := fun _ => Iff.rfl

theorem agree_errors (x y : Exn) : Agree (.error x) (.error y) := fun op => ⟨fun h => (by cases h), fun h => (by cases h)⟩

theorem Agree.ok {op : Op} {s : Res Op} (h : Agree (.ok op) s) : s = .ok op := (h op).mp rfl

theorem Agree.error {x : Exn} {s : Res Op} (h : Agree (.error x) s) : ∃ y, s = .error y := by
  cases s with
  | error y => exact ⟨y, rfl⟩
  | ok op => exact absurd ((h op).mpr rfl) (fun h => (by cases h))

/-- The result is the evaluated formula of operator `i`. -/
def IsWeak (core : Core) (nodes : Nat → Node) (i : Nat) (τ : Nat → Nat) (r : Res Op) : Prop :=
  ∀ e, Formula core nodes τ i e → Agree r e.eval

/-- The result is the strong form of operator `i`. -/
def IsStrong (core : Core) (nodes : Nat → Node) (i : Nat) (τ : Nat → Nat) (r : Res Op) : Prop :=
  ∀ e, Formula core nodes τ i e → Agree r (strongFormula core (nodes i) e).eval

theorem sat_rangeMap (F : Frame core nodes) (i : Nat) :
    Sat F (getRangeMap core nodes i) (fun _ r => r = mkInverse (core.mass (nodes i).range (nodes i).dualToRange)) := by
  intro w hw
  unfold getRangeMap
  cases hr : w.rangeMap i with
  | some op =>
    refine ⟨hw, F.refl _, fun _ _ => ?_⟩
    exact (F.range w i op hw hr).symm
  | none =>
    dsimp only
    cases hm : mkInverse (core.mass (nodes i).range (nodes i).dualToRange) with
    | error x => exact ⟨hw, F.refl _, fun _ _ => rfl⟩
    | ok op =>
      obtain ⟨h1, h2⟩ := F.setRange w i op hw hm
      exact ⟨h1, h2, fun _ _ => rfl⟩

theorem sat_strong (F : Frame core nodes) {weak : PyM Op} {i : Nat} (h : Sat F weak (IsWeak core nodes i)) :
    Sat F (PyM.bind (getRangeMap core nodes i) fun m => PyM.bind weak fun u => PyM.lift (m.mul u)) (IsStrong core nodes i) := by
  refine sat_mono F (sat_bind F (sat_rangeMap F i) (fun m => sat_bind F h (fun u => sat_lift F _))) ?_
  rintro τ r ⟨s, rfl, hs⟩ e he
  show Agree r (Expr.mul (.inverse _) e).eval
  simp only [Expr.eval]
  rcases hs with ⟨m, hm, s', hs', hr⟩ | ⟨x, hx, rfl⟩
  · rw [hm, ok_bind]
    have ha := hs' e he
    rcases hr with ⟨u, rfl, rfl⟩ | ⟨x, rfl, rfl⟩
    · rw [ha.ok]; exact agree_refl _
    · obtain ⟨y, hy⟩ := ha.error
      rw [hy]; exact agree_errors _ _
  · rw [hx]; exact agree_errors _ _

theorem eval_mul (a b : Expr) : (Expr.mul a b).eval = (a.eval >>= fun u => b.eval >>= fun v => u.mul v) := rfl

/-- The projections of an operator as expressions. -/
def projected (core : Core) (nodes : Nat → Node) (i a : Nat) (u : Expr) : Expr :=
  let v := if (nodes i).dualToRange ≠ (nodes a).dualToRange then
    .mul (.mul (.sparse (core.mass (nodes a).dualToRange (nodes i).dualToRange))
        (.inverse (core.mass (nodes a).dualToRange (nodes a).dualToRange))) u else u
  if (nodes i).domain ≠ (nodes a).domain then .mul v (.mul (.inverse (core.mass (nodes a).domain (nodes a).domain))
        (.sparse (core.mass (nodes i).domain (nodes a).domain))) else v

theorem formula_inv {τ : Nat → Nat} {i : Nat} {e : Expr} (h : Formula core nodes τ i e) :
    match (nodes i).kind with
    | .elementary k => e = core.form k (τ i)
    | .zero => e = .zero (core.dofs (nodes i).dualToRange) (core.dofs (nodes i).domain)
    | .sum a b => ∃ u v, Formula core nodes τ a u ∧ Formula core nodes τ b v ∧ e = .add u v
    | .scaled a c => ∃ u, Formula core nodes τ a u ∧ e = .smul c u
    | .product a b => ∃ u v, Formula core nodes τ a u ∧ Formula core nodes τ b v ∧ e = .mul u (strongFormula core (nodes b) v)
    | .dualProduct a b => ∃ u v, Formula core nodes τ a u ∧ Formula core nodes τ b v ∧
        e = .mul (.adjoint (strongFormula core (nodes a) u)) v
    | .transpose a => ∃ u, Formula core nodes τ a u ∧ e = .transpose u
    | .adjoint a => ∃ u, Formula core nodes τ a u ∧ e = .adjoint u
    | .reinterpret a => Formula core nodes τ a e
    | .projection a => ∃ u, Formula core nodes τ a u ∧ (((nodes i).dualToRange ≠ (nodes a).dualToRange ∨
        (nodes i).domain ≠ (nodes a).domain) ∧ e = projected core nodes i a u) := by
  cases h with
  | elementary h => simp only [h]
  | zero h => simp only [h]
  | sum h ha hb => simp only [h]; exact ⟨_, _, ha, hb, rfl⟩
  | scaled h ha => simp only [h]; exact ⟨_, ha, rfl⟩
  | product h ha hb => simp only [h]; exact ⟨_, _, ha, hb, rfl⟩
  | dualProduct h ha hb => simp only [h]; exact ⟨_, _, ha, hb, rfl⟩
  | transpose h ha => simp only [h]; exact ⟨_, ha, rfl⟩
  | adjoint h ha => simp only [h]; exact ⟨_, ha, rfl⟩
  | reinterpret h ha => simp only [h]; exact ha
  | projectDual h h1 h2 ha => simp only [h]; exact ⟨_, ha, Or.inl h1, by simp [projected, h1, h2]⟩
  | projectDomain h h1 h2 ha => simp only [h]; exact ⟨_, ha, Or.inr h2, by simp [projected, h1, h2]⟩
  | projectBoth h h1 h2 ha => simp only [h]; exact ⟨_, ha, Or.inl h1, by simp [projected, h1, h2]⟩

theorem projected_eval (core : Core) (nodes : Nat → Node) (i a : Nat) (u : Expr) : 
    (∀ x, u.eval = .error x → ∃ y, (projected core nodes i a u).eval = .error y) ∧
    ∀ o, u.eval = .ok o → Agree (projectDual core (nodes a).dualToRange (nodes i).dualToRange o >>= fun v =>
      projectDomain core (nodes a).domain (nodes i).domain v) (projected core nodes i a u).eval := by
  have hd : ∀ v : Expr, (∀ x, v.eval = .error x → ∃ y, (if (nodes i).domain ≠ (nodes a).domain then
      Expr.mul v (.mul (.inverse (core.mass (nodes a).domain (nodes a).domain))
        (.sparse (core.mass (nodes i).domain (nodes a).domain))) else v).eval = .error y) ∧
      ∀ o, v.eval = .ok o → projectDomain core (nodes a).domain (nodes i).domain o = (if (nodes i).domain ≠ (nodes a).domain then
      Expr.mul v (.mul (.inverse (core.mass (nodes a).domain (nodes a).domain))
        (.sparse (core.mass (nodes i).domain (nodes a).domain))) else v).eval := by
    intro v
    constructor
    · intro x hx
      split
      · rw [eval_mul, hx]; exact ⟨x, rfl⟩
      · exact ⟨x, hx⟩
    · intro o ho
      unfold projectDomain coefficientProjection
      split
      · rw [eval_mul, ho, ok_bind]; rfl
      · exact ho.symm
  unfold projected
  dsimp only
  constructor
  · intro x hx
    refine (?_ : ∃ y, _)
    have : ∃ y, (if (nodes i).dualToRange ≠ (nodes a).dualToRange then
      Expr.mul (.mul (.sparse (core.mass (nodes a).dualToRange (nodes i).dualToRange))
        (.inverse (core.mass (nodes a).dualToRange (nodes a).dualToRange))) u else u).eval = .error y := by
      split
      · rw [eval_mul]
        cases (Expr.mul (.sparse (core.mass (nodes a).dualToRange (nodes i).dualToRange))
          (.inverse (core.mass (nodes a).dualToRange (nodes a).dualToRange))).eval with
        | error y => exact ⟨y, rfl⟩
        | ok o => rw [hx]; exact ⟨x, rfl⟩
      · exact ⟨x, hx⟩
    obtain ⟨y, hy⟩ := this
    exact (hd _).1 y hy
  · intro o ho
    have : Agree (projectDual core (nodes a).dualToRange (nodes i).dualToRange o) (if (nodes i).dualToRange ≠ (nodes a).dualToRange then
      Expr.mul (.mul (.sparse (core.mass (nodes a).dualToRange (nodes i).dualToRange))
        (.inverse (core.mass (nodes a).dualToRange (nodes a).dualToRange))) u else u).eval := by
      unfold projectDual
      split
      · rw [eval_mul, eval_mul, ho]
        show Agree (mkInverse (core.mass (nodes a).dualToRange (nodes a).dualToRange) >>= fun inv => _)
          ((mkInverse (core.mass (nodes a).dualToRange (nodes a).dualToRange) >>= fun inv => _) >>= fun _ => _)
        cases mkInverse (core.mass (nodes a).dualToRange (nodes a).dualToRange) with
        | error x => exact agree_refl _
        | ok inv => exact agree_refl _
      · rw [ho]; exact agree_refl _
    cases hp : projectDual core (nodes a).dualToRange (nodes i).dualToRange o with
    | error x =>
      rw [hp] at this
      obtain ⟨y, hy⟩ := this.error
      obtain ⟨z, hz⟩ := (hd _).1 y hy
      rw [hz]; exact agree_errors _ _
    | ok v =>
      rw [hp] at this
      rw [← (hd _).2 v this.ok]; exact agree_refl _

theorem agree_bind {r s t : Res Op} {R : Op → Prop} {g : Op → Res Op}
    (h : (∃ a, s = .ok a ∧ R a) ∨ ∃ x, s = .error x ∧ r = .error x) (hs : Agree s t) (hg : ∀ a, R a → Agree r (g a)) :
    Agree r (t >>= g) := by
  rcases h with ⟨a, rfl, ha⟩ | ⟨x, rfl, rfl⟩
  · rw [hs.ok, ok_bind]; exact hg a ha
  · obtain ⟨y, hy⟩ := hs.error
    rw [hy]; exact agree_errors _ _

/-- The weak form of a composite operator, given those of its operands. -/
theorem sat_impl (F : Frame core nodes) {weak strong : Nat → PyM Op} {i : Nat} (hk : ∀ k, (nodes i).kind ≠ .elementary k)
    (hw : ∀ a, (∃ b, (nodes i).kind = .sum a b ∨ (nodes i).kind = .sum b a ∨ (nodes i).kind = .product a b ∨
      (nodes i).kind = .dualProduct b a) ∨ (∃ c, (nodes i).kind = .scaled a c) ∨ (nodes i).kind = .transpose a ∨
      (nodes i).kind = .adjoint a ∨ (nodes i).kind = .reinterpret a ∨ (nodes i).kind = .projection a →
      Sat F (weak a) (IsWeak core nodes a))
    (hs : ∀ a b, (nodes i).kind = .product b a ∨ (nodes i).kind = .dualProduct a b → Sat F (strong a) (IsStrong core nodes a)) :
    Sat F (weakFormImpl core nodes weak strong i) (IsWeak core nodes i) := by
  unfold weakFormImpl
  cases hn : (nodes i).kind with
  | elementary k => exact (hk k hn).elim
  | zero =>
    refine sat_mono F (sat_lift F _) ?_
    rintro τ r rfl e he
    have := formula_inv he
    simp only [hn] at this
    subst this; exact agree_refl _
  | sum a b =>
    refine sat_mono F (sat_bind F (hw a (Or.inl ⟨b, Or.inl hn⟩)) (fun u => sat_bind F (hw b (Or.inl ⟨a, Or.inr (Or.inl hn)⟩))
      (fun v => sat_lift F _))) ?_
    rintro τ r ⟨s, hs', h⟩ e he
    have := formula_inv he
    simp only [hn] at this
    obtain ⟨u, v, hu, hv, rfl⟩ := this
    simp only [Expr.eval]
    refine agree_bind h (hs' u hu) ?_
    rintro a' ⟨s', hs2, h⟩
    refine agree_bind h (hs2 v hv) ?_
    rintro b' rfl
    exact agree_refl _
  | scaled a c =>
    refine sat_mono F (sat_bind F (hw a (Or.inr (Or.inl ⟨c, hn⟩))) (fun u => sat_lift F _)) ?_
    rintro τ r ⟨s, hs', h⟩ e he
    have := formula_inv he
    simp only [hn] at this
    obtain ⟨u, hu, rfl⟩ := this
    simp only [Expr.eval]
    refine agree_bind h (hs' u hu) ?_
    rintro b' rfl
    exact agree_refl _
  | product a b =>
    refine sat_mono F (sat_bind F (hw a (Or.inl ⟨b, Or.inr (Or.inr (Or.inl hn))⟩)) (fun u => sat_bind F (hs b a (Or.inl hn))
      (fun v => sat_lift F _))) ?_
    rintro τ r ⟨s, hs', h⟩ e he
    have := formula_inv he
    simp only [hn] at this
    obtain ⟨u, v, hu, hv, rfl⟩ := this
    rw [eval_mul]
    refine agree_bind h (hs' u hu) ?_
    rintro a' ⟨s', hs2, h⟩
    refine agree_bind h (hs2 v hv) ?_
    rintro b' rfl
    exact agree_refl _
  | dualProduct a b =>
    refine sat_mono F (sat_bind F (hs a b (Or.inr hn)) (fun u => sat_bind F (sat_lift F _) (fun u' =>
      sat_bind F (hw b (Or.inl ⟨a, Or.inr (Or.inr (Or.inr hn))⟩)) (fun v => sat_lift F _)))) ?_
    rintro τ r ⟨s, hs', h⟩ e he
    have := formula_inv he
    simp only [hn] at this
    obtain ⟨u, v, hu, hv, rfl⟩ := this
    rw [eval_mul, Expr.eval]
    have hb : ∀ (t : Res Op) (f g : Op → Res Op), ((t >>= f) >>= g) = (t >>= fun a => f a >>= g) := by
      intro t f g; cases t <;> rfl
    rw [hb]
    refine agree_bind h (hs' u hu) ?_
    rintro a' ⟨s', hs2, h⟩
    refine agree_bind h (by rw [hs2]; exact agree_refl _) ?_
    rintro b' ⟨s2, hs3, h⟩
    refine agree_bind h (hs3 v hv) ?_
    rintro c' rfl
    exact agree_refl _
  | transpose a =>
    refine sat_mono F (sat_bind F (hw a (Or.inr (Or.inr (Or.inl hn)))) (fun u => sat_lift F _)) ?_
    rintro τ r ⟨s, hs', h⟩ e he
    have := formula_inv he
    simp only [hn] at this
    obtain ⟨u, hu, rfl⟩ := this
    simp only [Expr.eval]
    refine agree_bind h (hs' u hu) ?_
    rintro b' rfl
    exact agree_refl _
  | adjoint a =>
    refine sat_mono F (sat_bind F (hw a (Or.inr (Or.inr (Or.inr (Or.inl hn))))) (fun u => sat_lift F _)) ?_
    rintro τ r ⟨s, hs', h⟩ e he
    have := formula_inv he
    simp only [hn] at this
    obtain ⟨u, hu, rfl⟩ := this
    simp only [Expr.eval]
    refine agree_bind h (hs' u hu) ?_
    rintro b' rfl
    exact agree_refl _
  | reinterpret a =>
    refine sat_mono F (hw a (Or.inr (Or.inr (Or.inr (Or.inr (Or.inl hn)))))) ?_
    intro τ r hr e he
    have := formula_inv he
    simp only [hn] at this
    exact hr e this
  | projection a =>
    refine sat_mono F (sat_bind F (hw a (Or.inr (Or.inr (Or.inr (Or.inr (Or.inr hn)))))) (fun u => sat_bind F (sat_lift F _)
      (fun v => sat_lift F _))) ?_
    rintro τ r ⟨s, hs', h⟩ e he
    have := formula_inv he
    simp only [hn] at this
    obtain ⟨u, hu, -, rfl⟩ := this
    have ha := hs' u hu
    rcases h with ⟨a', rfl, s', rfl, h⟩ | ⟨x, rfl, rfl⟩
    · have := (projected_eval core nodes i a u).2 a' ha.ok
      rcases h with ⟨b', hb', rfl⟩ | ⟨x, hx, rfl⟩
      · rw [hb', ok_bind] at this; exact this
      · rw [hx] at this; exact this
    · obtain ⟨y, hy⟩ := ha.error
      obtain ⟨z, hz⟩ := (projected_eval core nodes i a u).1 y hy
      rw [hz]; exact agree_errors _ _

/-! ### Histories without recomputation -/

/-- Every elementary operator can be assembled. -/
def Assembles (core : Core) : Prop := ∀ k t, ∃ op, (core.form k t).eval = .ok op

/-- The caches are as if everything had been computed with the times recorded. -/
structure CacheInv (core : Core) (nodes : Nat → Node) (w : World) : Prop where
  weak : ∀ i op, w.weak i = some op → ∀ τ, (∀ j t, w.stamp j = some t → τ j = t) → ∀ e, Formula core nodes τ i e → e.eval = .ok op
  range : ∀ i op, w.rangeMap i = some op → mkInverse (core.mass (nodes i).range (nodes i).dualToRange) = .ok op
  fresh : ∀ i, w.weak i = none → w.stamp i = none ∧ w.assemblies i = 0
  once : ∀ i, w.assemblies i ≤ 1
  past : ∀ i t, w.stamp i = some t → t ≤ w.time

/-- The frame of histories without recomputation. -/
def cacheFrame (core : Core) (nodes : Nat → Node) : Frame core nodes where
  inv := CacheInv core nodes
  le := fun v w => (∀ j t, v.stamp j = some t → w.stamp j = some t) ∧ v.time = w.time
  ext := fun τ w => ∀ j t, w.stamp j = some t → τ j = t
  refl := fun w => ⟨fun _ _ h => h, rfl⟩
  trans := fun u v w h1 h2 => ⟨fun j t h => h2.1 j t (h1.1 j t h), h1.2.trans h2.2⟩
  mono := fun τ v w h1 h2 j t h => h2 j t (h1.1 j t h)
  range := fun w i op h hi => h.range i op hi
  setRange := fun w i op h hi => by
    refine ⟨⟨h.weak, ?_, h.fresh, h.once, h.past⟩, ⟨fun _ _ h => h, rfl⟩⟩
    intro j op' hj
    dsimp only at hj
    split at hj
    · rename_i hji
      subst hji
      cases hj
      exact hi
    · exact h.range j op' hj

/-- Operands are constructed before the operators that use them. -/
theorem Constructed.operands (hc : Constructed core nodes) (i : Nat) :
    (∀ a b, (nodes i).kind = .sum a b ∨ (nodes i).kind = .product a b ∨ (nodes i).kind = .dualProduct a b → a < i ∧ b < i) ∧
    (∀ a, (∃ c, (nodes i).kind = .scaled a c) ∨ (nodes i).kind = .transpose a ∨ (nodes i).kind = .adjoint a ∨
      (nodes i).kind = .reinterpret a ∨ (nodes i).kind = .projection a → a < i) := by
  rcases hc i with ⟨k, h⟩ | h | ⟨a, b, ha, hb, h⟩ | ⟨a, c, ha, -, h⟩ | ⟨a, b, ha, hb, h⟩ | ⟨a, b, ha, hb, h⟩ | ⟨a, r, ha, h⟩ |
    ⟨a, r, ha, h⟩ | ⟨a, d, r, t, ha, h⟩ | ⟨a, d, r, t, ha, -, -, h⟩
  · simp [h]
  · simp [h]
  · unfold mkSum at h
    split at h
    · cases h
    · cases h' : nodes i with
      | mk k d r t =>
        rw [h'] at h
        cases h
        simp [ha, hb]
  · rw [← h]; simp [mkScaled, ha]
  · unfold mkProduct at h
    split at h
    · cases h
    · cases h' : nodes i with
      | mk k d r t =>
        rw [h'] at h
        cases h
        simp [ha, hb]
  · unfold mkDualProduct at h
    split at h
    · cases h
    · cases h' : nodes i with
      | mk k d r t =>
        rw [h'] at h
        cases h
        simp [ha, hb]
  · rw [← h]; simp [mkTranspose, ha]
  · rw [← h]; simp [mkAdjoint, ha]
  · unfold mkProjection at h
    dsimp only at h
    split at h
    · split at h
      · cases h
      · cases h' : nodes i with
        | mk k d r t =>
          rw [h'] at h
          cases h
          simp [ha]
    · cases h' : nodes i with
        | mk k d r t =>
          rw [h'] at h
          cases h
          simp [ha]
  · rw [← h]; simp [mkRewrite, ha]

theorem sat_weakForm (ha : Assembles core) (hc : Constructed core nodes) (n : Nat) : ∀ i < n,
    Sat (cacheFrame core nodes) (weakForm core nodes n false i) (IsWeak core nodes i) := by
  induction n with
  | zero => intro i hi; omega
  | succ n ih =>
    intro i hi w hw
    simp only [weakForm, Bool.false_eq_true, if_false]
    cases hwi : w.weak i with
    | some op =>
      dsimp only
      refine ⟨hw, (cacheFrame core nodes).refl w, fun τ ht e he => ?_⟩
      rw [hw.weak i op hwi τ ht e he]
      exact agree_refl _
    | none =>
      dsimp only
      by_cases hk : ∃ k, (nodes i).kind = .elementary k
      · obtain ⟨k, hk⟩ := hk
        have : weakFormImpl core nodes (weakForm core nodes n false) (strongOf core nodes (weakForm core nodes n false)) i w =
            assemble core i k w := by
          unfold weakFormImpl
          rw [hk]
        rw [this]
        unfold assemble
        obtain ⟨op, hop⟩ := ha k w.time
        rw [hop]
        dsimp only
        obtain ⟨f1, f2⟩ := hw.fresh i hwi
        have hle : ∀ j t, w.stamp j = some t → (if j = i then some w.time else w.stamp j) = some t := by
          intro j t hj
          split
          · rename_i hji
            subst hji
            rw [f1] at hj; cases hj
          · exact hj
        have hel : ∀ τ, (∀ j t, (if j = i then some w.time else w.stamp j) = some t → τ j = t) → ∀ e, Formula core nodes τ i e →
            e.eval = .ok op := by
          intro τ ht e he
          have := formula_inv he
          simp only [hk] at this
          rw [this, ht i w.time (by simp), hop]
        refine ⟨⟨?_, hw.range, ?_, ?_, ?_⟩, ⟨hle, rfl⟩, ?_⟩
        · intro j op' hj τ ht e he
          dsimp only at hj ht
          split at hj
          · rename_i hji
            subst hji
            cases hj
            exact hel τ ht e he
          · exact hw.weak j op' hj τ (fun j' t' h' => ht j' t' (hle j' t' h')) e he
        · intro j hj
          dsimp only at hj ⊢
          split at hj
          · cases hj
          · rename_i hji
            rw [if_neg hji, if_neg hji]
            exact hw.fresh j hj
        · intro j
          dsimp only
          split
          · rename_i hji
            subst hji
            rw [f2]
          · exact hw.once j
        · intro j t hj
          dsimp only at hj ⊢
          split at hj
          · cases hj; exact le_refl _
          · exact hw.past j t hj
        · intro τ ht e he
          rw [hel τ ht e he]; exact agree_refl _
      · have hk' : ∀ k, (nodes i).kind ≠ .elementary k := fun k h => hk ⟨k, h⟩
        obtain ⟨o1, o2⟩ := hc.operands i
        have hs := sat_impl (cacheFrame core nodes) (weak := weakForm core nodes n false)
          (strong := strongOf core nodes (weakForm core nodes n false)) hk' (by
            intro a h
            refine ih a ?_
            have : a < i := by
              rcases h with ⟨b, h | h | h | h⟩ | h
              · exact (o1 a b (Or.inl h)).1
              · exact (o1 b a (Or.inl h)).2
              · exact (o1 a b (Or.inr (Or.inl h))).1
              · exact (o1 b a (Or.inr (Or.inr h))).2
              · exact o2 a h
            omega) (by
            intro a b h
            unfold strongOf
            refine sat_strong _ (ih a ?_)
            have : a < i := by
              rcases h with h | h
              · exact (o1 b a (Or.inr (Or.inl h))).2
              · exact (o1 a b (Or.inr (Or.inr h))).1
            omega) w hw
        generalize weakFormImpl core nodes (weakForm core nodes n false) (strongOf core nodes (weakForm core nodes n false)) i w = p
          at hs ⊢
        obtain ⟨r, w'⟩ := p
        obtain ⟨h1, h2, h3⟩ := hs
        cases r with
        | error x => exact ⟨h1, h2, h3⟩
        | ok op =>
          dsimp only
          refine ⟨⟨?_, h1.range, ?_, h1.once, h1.past⟩, h2, h3⟩
          · intro j op' hj τ ht e he
            dsimp only at hj ht
            split at hj
            · rename_i hji
              subst hji
              cases hj
              exact (h3 τ ht e he).ok
            · exact h1.weak j op' hj τ ht e he
          · intro j hj
            dsimp only at hj ⊢
            split at hj
            · cases hj
            · exact h1.fresh j hj

end

end Verif.PyOp
