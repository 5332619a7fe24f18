import Verif.Model.IntegratorMap
/-
Property C65: integrators are created once per descriptor and shared by all threads.
-/
namespace Verif.Conc

variable {D : Type} [DecidableEq D] {want : Nat → D}

/-- The call holds the lock. -/
def GPC.holds : GPC → Prop
  | .locked | .creating | .created _ | .unlocking _ => True
  | _ => False

structure GInv (want : Nat → D) (s : GState D) : Prop where
  lock : ∀ i, s.lock = some i ↔ (s.pc i).holds
  map_kind : ∀ d o, s.map d = some o → s.kind o = some d
  kind_lt : ∀ o d, s.kind o = some d → o < s.made
  created : ∀ i o, s.pc i = .created o → s.kind o = some (want i) ∧ s.map (want i) = none
  creating : ∀ i, s.pc i = .creating → s.map (want i) = none
  found : ∀ i o, s.pc i = .unlocking o ∨ s.pc i = .done o → s.map (want i) = some o
  kept : ∀ o d, s.kind o = some d → s.map d = some o ∨ ∃ i, s.pc i = .created o ∧ want i = d
  deleted : s.deleted = []

theorem GInv.init : GInv want (GState.init (D := D)) := by
  constructor <;> intros <;> simp_all [GState.init, GPC.holds]

/-- Two calls that hold the lock are the same. -/
theorem GInv.unique {s : GState D} (h : GInv want s) {i j : Nat} (hi : (s.pc i).holds) (hj : (s.pc j).holds) : i = j := by
  have a := (h.lock i).mpr hi
  have b := (h.lock j).mpr hj
  rw [a] at b
  exact Option.some.inj b

theorem GInv.step {s s' : GState D} {i : Nat} (h : GInv want s) (hs : GStep want s i s') : GInv want s' := by
  have upd : ∀ (p : GPC) (j : Nat), Function.update s.pc i p j = if j = i then p else s.pc j := by
    intro p j; by_cases e : j = i <;> simp [e]
  have other : (s.pc i).holds → ∀ j, j ≠ i → ¬ (s.pc j).holds := fun hi j hj hh => hj (h.unique hh hi)
  cases hs with
  | find1Hit o hp hm =>
    constructor
    · intro j; simp only [GState.goto, upd]; split
      · rename_i e; subst e; have := h.lock j; rw [hp] at this; simpa [GPC.holds] using this
      · exact h.lock j
    · exact h.map_kind
    · exact h.kind_lt
    · intro j o' hj; simp only [GState.goto, upd] at hj; split at hj
      · cases hj
      · exact h.created j o' hj
    · intro j hj; simp only [GState.goto, upd] at hj; split at hj
      · cases hj
      · exact h.creating j hj
    · intro j o' hj; simp only [GState.goto, upd] at hj; split at hj
      · rename_i e; subst e
        rcases hj with hj | hj
        · cases hj
        · cases hj; exact hm
      · exact h.found j o' hj
    · intro o' d hk
      rcases h.kept o' d hk with hk | ⟨j, hj, hw⟩
      · exact Or.inl hk
      · refine Or.inr ⟨j, ?_, hw⟩
        simp only [GState.goto, upd]
        rw [if_neg (by rintro rfl; rw [hp] at hj; cases hj)]; exact hj
    · exact h.deleted
  | find1Miss hp hm =>
    constructor
    · intro j; simp only [GState.goto, upd]; split
      · rename_i e; subst e; have := h.lock j; rw [hp] at this; simpa [GPC.holds] using this
      · exact h.lock j
    · exact h.map_kind
    · exact h.kind_lt
    · intro j o' hj; simp only [GState.goto, upd] at hj; split at hj
      · cases hj
      · exact h.created j o' hj
    · intro j hj; simp only [GState.goto, upd] at hj; split at hj
      · cases hj
      · exact h.creating j hj
    · intro j o' hj; simp only [GState.goto, upd] at hj; split at hj
      · rcases hj with hj | hj <;> cases hj
      · exact h.found j o' hj
    · intro o' d hk
      rcases h.kept o' d hk with hk | ⟨j, hj, hw⟩
      · exact Or.inl hk
      · refine Or.inr ⟨j, ?_, hw⟩
        simp only [GState.goto, upd]
        rw [if_neg (by rintro rfl; rw [hp] at hj; cases hj)]; exact hj
    · exact h.deleted
  | acquire hp hl =>
    have hno : ∀ j, ¬ (s.pc j).holds := fun j hj => by
      have := (h.lock j).mpr hj; rw [hl] at this; cases this
    constructor
    · intro j; simp only [GState.goto, upd]; split
      · rename_i e; subst e; simp [GPC.holds]
      · rename_i e
        constructor
        · intro he; cases he; exact absurd rfl e
        · intro hh; exact absurd hh (hno j)
    · exact h.map_kind
    · exact h.kind_lt
    · intro j o' hj; simp only [GState.goto, upd] at hj; split at hj
      · cases hj
      · exact h.created j o' hj
    · intro j hj; simp only [GState.goto, upd] at hj; split at hj
      · cases hj
      · exact h.creating j hj
    · intro j o' hj; simp only [GState.goto, upd] at hj; split at hj
      · rcases hj with hj | hj <;> cases hj
      · exact h.found j o' hj
    · intro o' d hk
      rcases h.kept o' d hk with hk | ⟨j, hj, hw⟩
      · exact Or.inl hk
      · refine Or.inr ⟨j, ?_, hw⟩
        simp only [GState.goto, upd]
        rw [if_neg (by rintro rfl; rw [hp] at hj; cases hj)]; exact hj
    · exact h.deleted
  | find2Hit o hp hm =>
    constructor
    · intro j; simp only [GState.goto, upd]; split
      · rename_i e; subst e; have := h.lock j; rw [hp] at this; simpa [GPC.holds] using this
      · exact h.lock j
    · exact h.map_kind
    · exact h.kind_lt
    · intro j o' hj; simp only [GState.goto, upd] at hj; split at hj
      · cases hj
      · exact h.created j o' hj
    · intro j hj; simp only [GState.goto, upd] at hj; split at hj
      · cases hj
      · exact h.creating j hj
    · intro j o' hj; simp only [GState.goto, upd] at hj; split at hj
      · rename_i e; subst e
        rcases hj with hj | hj
        · cases hj; exact hm
        · cases hj
      · exact h.found j o' hj
    · intro o' d hk
      rcases h.kept o' d hk with hk | ⟨j, hj, hw⟩
      · exact Or.inl hk
      · refine Or.inr ⟨j, ?_, hw⟩
        simp only [GState.goto, upd]
        rw [if_neg (by rintro rfl; rw [hp] at hj; cases hj)]; exact hj
    · exact h.deleted
  | find2Miss hp hm =>
    constructor
    · intro j; simp only [GState.goto, upd]; split
      · rename_i e; subst e; have := h.lock j; rw [hp] at this; simpa [GPC.holds] using this
      · exact h.lock j
    · exact h.map_kind
    · exact h.kind_lt
    · intro j o' hj; simp only [GState.goto, upd] at hj; split at hj
      · cases hj
      · exact h.created j o' hj
    · intro j hj; simp only [GState.goto, upd] at hj; split at hj
      · rename_i e; subst e; exact hm
      · exact h.creating j hj
    · intro j o' hj; simp only [GState.goto, upd] at hj; split at hj
      · rcases hj with hj | hj <;> cases hj
      · exact h.found j o' hj
    · intro o' d hk
      rcases h.kept o' d hk with hk | ⟨j, hj, hw⟩
      · exact Or.inl hk
      · refine Or.inr ⟨j, ?_, hw⟩
        simp only [GState.goto, upd]
        rw [if_neg (by rintro rfl; rw [hp] at hj; cases hj)]; exact hj
    · exact h.deleted
  | create hp =>
    have hi : (s.pc i).holds := by rw [hp]; trivial
    have fresh : s.kind s.made = none := by
      cases hk : s.kind s.made with
      | none => rfl
      | some d => exact absurd (h.kind_lt _ _ hk) (Nat.lt_irrefl _)
    have kupd : ∀ o, Function.update s.kind s.made (some (want i)) o = if o = s.made then some (want i) else s.kind o := by
      intro o; by_cases e : o = s.made <;> simp [e]
    constructor
    · intro j; simp only [GState.goto, upd]; split
      · rename_i e; subst e; have := h.lock j; rw [hp] at this; simpa [GPC.holds] using this
      · exact h.lock j
    · intro d o hm
      show Function.update _ _ _ _ = _
      rw [kupd, if_neg]
      · exact h.map_kind d o hm
      · rintro rfl
        have := h.map_kind d _ hm
        rw [fresh] at this; cases this
    · intro o d hk
      have hk : Function.update s.kind s.made (some (want i)) o = some d := hk
      rw [kupd] at hk
      show o < s.made + 1
      split at hk
      · omega
      · have := h.kind_lt o d hk; omega
    · intro j o' hj; simp only [GState.goto, upd] at hj
      show Function.update s.kind s.made (some (want i)) o' = some (want j) ∧ s.map (want j) = none
      split at hj
      · rename_i e; subst e; cases hj
        exact ⟨by rw [kupd, if_pos rfl], h.creating j hp⟩
      · rename_i e
        exact absurd (by rw [hj]; trivial) (other hi j e)
    · intro j hj; simp only [GState.goto, upd] at hj; split at hj
      · cases hj
      · exact h.creating j hj
    · intro j o' hj; simp only [GState.goto, upd] at hj; split at hj
      · rcases hj with hj | hj <;> cases hj
      · exact h.found j o' hj
    · intro o' d hk0
      have hk : Function.update s.kind s.made (some (want i)) o' = some d := hk0
      clear hk0
      rw [kupd] at hk
      split at hk
      · rename_i e; subst e; cases hk
        exact Or.inr ⟨i, by simp [GState.goto], rfl⟩
      · rcases h.kept o' d hk with hk | ⟨j, hj, hw⟩
        · exact Or.inl hk
        · refine Or.inr ⟨j, ?_, hw⟩
          simp only [GState.goto, upd]
          rw [if_neg (by rintro rfl; rw [hp] at hj; cases hj)]; exact hj
    · exact h.deleted
  | throws hp =>
    have hi : (s.pc i).holds := by rw [hp]; trivial
    constructor
    · intro j; simp only [GState.goto, upd]; split
      · simp [GPC.holds]
      · rename_i e
        have := other hi j e
        simp [this]
    · exact h.map_kind
    · exact h.kind_lt
    · intro j o' hj; simp only [GState.goto, upd] at hj; split at hj
      · cases hj
      · exact h.created j o' hj
    · intro j hj; simp only [GState.goto, upd] at hj; split at hj
      · cases hj
      · exact h.creating j hj
    · intro j o' hj; simp only [GState.goto, upd] at hj; split at hj
      · rcases hj with hj | hj <;> cases hj
      · exact h.found j o' hj
    · intro o' d hk
      rcases h.kept o' d hk with hk | ⟨j, hj, hw⟩
      · exact Or.inl hk
      · refine Or.inr ⟨j, ?_, hw⟩
        simp only [GState.goto, upd]
        rw [if_neg (by rintro rfl; rw [hp] at hj; cases hj)]; exact hj
    · exact h.deleted
  | insertNew o hp hm =>
    have hi : (s.pc i).holds := by rw [hp]; trivial
    have mupd : ∀ d, Function.update s.map (want i) (some o) d = if d = want i then some o else s.map d := by
      intro d; by_cases e : d = want i <;> simp [e]
    constructor
    · intro j; simp only [GState.goto, upd]; split
      · rename_i e; subst e; have := h.lock j; rw [hp] at this; simpa [GPC.holds] using this
      · exact h.lock j
    · intro d o' hd0
      have hd : Function.update s.map (want i) (some o) d = some o' := hd0
      clear hd0
      rw [mupd] at hd
      split at hd
      · rename_i e; subst e; cases hd; exact (h.created i o hp).1
      · exact h.map_kind d o' hd
    · exact h.kind_lt
    · intro j o' hj; simp only [GState.goto, upd] at hj; split at hj
      · cases hj
      · rename_i e
        exact absurd (by rw [hj]; trivial) (other hi j e)
    · intro j hj; simp only [GState.goto, upd] at hj; split at hj
      · cases hj
      · rename_i e
        exact absurd (by rw [hj]; trivial) (other hi j e)
    · intro j o' hj; simp only [GState.goto, upd] at hj
      show Function.update s.map (want i) (some o) (want j) = some o'
      rw [mupd]
      split at hj
      · rename_i e; subst e
        rcases hj with hj | hj
        · cases hj; rw [if_pos rfl]
        · cases hj
      · have := h.found j o' hj
        rw [if_neg (by intro e; rw [e, hm] at this; cases this)]
        exact this
    · intro o' d hk
      show Function.update s.map (want i) (some o) d = some o' ∨ _
      rw [mupd]
      rcases h.kept o' d hk with hk | ⟨j, hj, hw⟩
      · left
        rw [if_neg (by rintro rfl; rw [hm] at hk; cases hk)]; exact hk
      · left
        have : j = i := h.unique (by rw [hj]; trivial) hi
        subst this
        rw [hp] at hj
        cases hj
        rw [if_pos hw.symm]
    · exact h.deleted
  | insertOld o o' hp hm =>
    have := (h.created i o hp).2
    rw [hm] at this
    cases this
  | release o hp =>
    have hi : (s.pc i).holds := by rw [hp]; trivial
    constructor
    · intro j; simp only [GState.goto, upd]; split
      · simp [GPC.holds]
      · rename_i e
        have := other hi j e
        simp [this]
    · exact h.map_kind
    · exact h.kind_lt
    · intro j o' hj; simp only [GState.goto, upd] at hj; split at hj
      · cases hj
      · exact h.created j o' hj
    · intro j hj; simp only [GState.goto, upd] at hj; split at hj
      · cases hj
      · exact h.creating j hj
    · intro j o' hj; simp only [GState.goto, upd] at hj; split at hj
      · rename_i e; subst e
        rcases hj with hj | hj
        · cases hj
        · cases hj; exact h.found j o (Or.inl hp)
      · exact h.found j o' hj
    · intro o' d hk
      rcases h.kept o' d hk with hk | ⟨j, hj, hw⟩
      · exact Or.inl hk
      · refine Or.inr ⟨j, ?_, hw⟩
        simp only [GState.goto, upd]
        rw [if_neg (by rintro rfl; rw [hp] at hj; cases hj)]; exact hj
    · exact h.deleted

theorem GReach.inv {s : GState D} (h : GReach want s) : GInv want s := by
  induction h with
  | init => exact GInv.init
  | step s i s' _ hs ih => exact ih.step hs

/-- **C65 (sharing).**  In every reachable state, under any interleaving of any number of calls: a call that has returned
has returned an integrator made for the descriptor it asked for; two calls have returned the same integrator exactly if they
asked for the same descriptor; at most one integrator was ever made for each descriptor; none was deleted. -/
theorem C65_shared (s : GState D) (h : GReach want s) :
    (∀ i o, s.pc i = .done o → s.kind o = some (want i)) ∧
    (∀ i j o o', s.pc i = .done o → s.pc j = .done o' → (o = o' ↔ want i = want j)) ∧
    (∀ o o' d, s.kind o = some d → s.kind o' = some d → o = o') ∧
    s.deleted = [] := by
  have I := h.inv
  have k : ∀ i o, s.pc i = .done o → s.kind o = some (want i) := fun i o hi =>
    I.map_kind _ _ (I.found i o (Or.inr hi))
  refine ⟨k, ?_, ?_, I.deleted⟩
  · intro i j o o' hi hj
    constructor
    · rintro rfl
      have := k i o hi
      rw [k j o hj] at this
      exact (Option.some.inj this).symm
    · intro e
      have h1 := I.found i o (Or.inr hi)
      rw [e, I.found j o' (Or.inr hj)] at h1
      exact (Option.some.inj h1).symm
  · intro o o' d ho ho'
    rcases I.kept o d ho with h1 | ⟨i, hi, wi⟩ <;> rcases I.kept o' d ho' with h2 | ⟨j, hj, wj⟩
    · rw [h1] at h2; exact Option.some.inj h2
    · have := (I.created j o' hj).2; rw [wj, h1] at this; cases this
    · have := (I.created i o hi).2; rw [wi, h2] at this; cases this
    · have : i = j := I.unique (by rw [hi]; trivial) (by rw [hj]; trivial)
      subst this
      rw [hi] at hj
      cases hj; rfl

/-- **C65 (nothing is lost).**  When no call is running, every integrator that was made is in the map, so that the
destructor deletes each exactly once. -/
theorem C65_no_leak (s : GState D) (h : GReach want s)
    (hidle : ∀ i, s.pc i = .start ∨ s.pc i = .failed ∨ ∃ o, s.pc i = .done o) (o : Nat) (d : D) :
    s.kind o = some d ↔ s.map d = some o := by
  refine ⟨fun ho => ?_, h.inv.map_kind d o⟩
  rcases h.inv.kept o d ho with h1 | ⟨i, hi, -⟩
  · exact h1
  · rcases hidle i with h | h | ⟨o', h⟩ <;> rw [hi] at h <;> cases h

/-- **C65 (progress).**  A call that has neither returned nor failed can go on, or waits for a call that can. -/
theorem C65_progress (s : GState D) (h : GReach want s) (i : Nat) (h1 : ∀ o, s.pc i ≠ .done o) (h2 : s.pc i ≠ .failed) :
    ∃ j s', GStep want s j s' ∧ (j = i ∨ s.lock = some j) := by
  have run : ∀ j, s.pc j ≠ .acquiring → (∀ o, s.pc j ≠ .done o) → s.pc j ≠ .failed → ∃ s', GStep want s j s' := by
    intro j a b c
    cases hp : s.pc j with
    | start =>
      cases hm : s.map (want j) with
      | none => exact ⟨_, .find1Miss s j hp hm⟩
      | some o => exact ⟨_, .find1Hit s j o hp hm⟩
    | acquiring => exact absurd hp a
    | locked =>
      cases hm : s.map (want j) with
      | none => exact ⟨_, .find2Miss s j hp hm⟩
      | some o => exact ⟨_, .find2Hit s j o hp hm⟩
    | creating => exact ⟨_, .create s j hp⟩
    | created o =>
      cases hm : s.map (want j) with
      | none => exact ⟨_, .insertNew s j o hp hm⟩
      | some o' => exact ⟨_, .insertOld s j o o' hp hm⟩
    | unlocking o => exact ⟨_, .release s j o hp⟩
    | done o => exact absurd hp (b o)
    | failed => exact absurd hp c
  by_cases ha : s.pc i = .acquiring
  · cases hl : s.lock with
    | none => exact ⟨i, _, .acquire s i ha hl, Or.inl rfl⟩
    | some j =>
      have hj := (h.inv.lock j).mp hl
      obtain ⟨s', hs'⟩ := run j (by intro e; rw [e] at hj; exact hj) (by intro o e; rw [e] at hj; exact hj)
        (by intro e; rw [e] at hj; exact hj)
      exact ⟨j, s', hs', Or.inr rfl⟩
  · obtain ⟨s', hs'⟩ := run i ha h1 h2
    exact ⟨i, s', hs', Or.inl rfl⟩

/-- **C65 (stability).**  Once a call has returned an integrator, every later step leaves it in the map for its
descriptor, so that later calls return the same one. -/
theorem C65_stable (s s' : GState D) (h : GReach want s) (i : Nat) (hs : GStep want s i s') (d : D) (o : Nat)
    (hm : s.map d = some o) : s'.map d = some o := by
  have I := h.inv
  cases hs with
  | insertNew o' hp hn =>
    show Function.update s.map (want i) (some o') d = some o
    rw [Function.update_of_ne]
    · exact hm
    · rintro rfl; rw [hn] at hm; cases hm
  | _ => exact hm

/-! ### Example: two calls that race for one descriptor -/

example : ∃ s : GState Nat, GReach (fun _ => 5) s ∧ s.pc 0 = .done 0 ∧ s.pc 1 = .done 0 ∧ s.made = 1 := by
  refine ⟨_, .step _ 1 _ (.step _ 1 _ (.step _ 1 _ (.step _ 0 _ (.step _ 0 _ (.step _ 0 _ (.step _ 0 _ (.step _ 0 _
    (.step _ 1 _ (.step _ 0 _ .init (.find1Miss _ 0 rfl rfl)) (.find1Miss _ 1 rfl rfl))
    (.acquire _ 0 rfl rfl)) (.find2Miss _ 0 rfl rfl)) (.create _ 0 rfl)) (.insertNew _ 0 0 rfl rfl))
    (.release _ 0 0 rfl)) (.acquire _ 1 rfl rfl)) (.find2Hit _ 1 0 rfl rfl)) (.release _ 1 0 rfl), rfl, rfl, rfl⟩

end Verif.Conc
