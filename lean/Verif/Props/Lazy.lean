import Verif.Model.Lazy
/-
Properties C35 and C36: double-checked initialisation.
-/
namespace Verif.Conc

/-! ### C36: Lazy::get -/

/-- What holds of a call at each point. -/
def LLocal (s : LState) (i : Nat) : Prop :=
  match s.pc i with
  | .start => s.lock ≠ some i
  | .acquiring => s.lock ≠ some i
  | .locked => s.lock = some i ∧ (s.value = none → s.created = 0)
  | .initialising => s.lock = some i ∧ s.value = none ∧ s.created = 0
  | .created o => s.lock = some i ∧ s.value = none ∧ s.created = 1 ∧ o = 0
  | .unlocking => s.lock = some i ∧ s.value = some 0
  | .reading => s.lock ≠ some i ∧ s.value = some 0
  | .done o => s.lock ≠ some i ∧ s.value = some 0 ∧ o = some 0
  | .failed => s.lock ≠ some i

/-- The invariant of the reachable states. -/
structure LInv (s : LState) : Prop where
  val : s.value = none ∨ s.value = some 0
  cre : s.value = some 0 → s.created = 1
  free : s.value = none → s.lock = none → s.created = 0
  le : s.created ≤ 1
  loc : ∀ i, LLocal s i

theorem linv_init : LInv .init := by
  constructor <;> simp [LState.init, LLocal]

theorem lupd (s : LState) (i : Nat) (p : LPC) (j : Nat) :
    (s.goto i p).pc j = if j = i then p else s.pc j := by
  unfold LState.goto
  simp only [Function.update_apply]

theorem linv_step (s : LState) (i : Nat) (s' : LState) (h : LInv s) (hs : LStep s i s') : LInv s' := by
  obtain ⟨h1, h2, h3, h4, h5⟩ := h
  have hi := h5 i
  cases hs
  all_goals
    (constructor <;> try (intro j; have hj := h5 j; by_cases hji : j = i)) <;>
    simp_all [LLocal, lupd, LState.goto, Function.update_apply] <;>
    try (cases hp : s.pc j <;> have hj' := h5 j <;> simp_all) <;> try omega

theorem linv_reach (s : LState) (h : LReach s) : LInv s := by
  induction h with
  | init => exact linv_init
  | step s i s' _ hs ih => exact linv_step s i s' ih hs

/-- **C36** In every state reachable by any interleaving of any number of threads, at most one object has
been built; every call that has returned got that object, fully constructed, and it is still the stored
value; no call dereferences a null pointer. -/
theorem C36_once (s : LState) (h : LReach s) :
    s.created ≤ 1 ∧ ∀ i o, s.pc i = .done o → o = some 0 ∧ s.value = some 0 ∧ s.created = 1 := by
  have hi := linv_reach s h
  refine ⟨hi.le, ?_⟩
  intro i o hd
  have := hi.loc i
  simp only [LLocal, hd] at this
  exact ⟨this.2.2, this.2.1, hi.cre this.2.1⟩

/-- **C36** All callers receive the same object. -/
theorem C36_same (s : LState) (h : LReach s) (i j : Nat) (o o' : Option Nat)
    (hi : s.pc i = .done o) (hj : s.pc j = .done o') : o = o' ∧ o ≠ none := by
  obtain ⟨-, hall⟩ := C36_once s h
  rw [(hall i o hi).1, (hall j o' hj).1]
  simp

/-- A call is over. -/
def LPC.finished : LPC → Prop
  | .done _ => True
  | .failed => True
  | _ => False

/-- Number of steps a call may still take. -/
def LPC.rank : LPC → Nat
  | .start => 7
  | .acquiring => 6
  | .locked => 5
  | .initialising => 4
  | .created _ => 3
  | .unlocking => 2
  | .reading => 1
  | .done _ => 0
  | .failed => 0

/-- **C36** No deadlock and no livelock: in a reachable state a call that is not over can take a step, or it
waits for the lock and the owner of the lock can take a step; every step brings the stepping call closer
to its end and does not move any other call. -/
theorem C36_progress (s : LState) (h : LReach s) :
    (∀ i, ¬ (s.pc i).finished → (∃ s', LStep s i s') ∨ ∃ j s', s.lock = some j ∧ LStep s j s') ∧
    (∀ i s', LStep s i s' → (s'.pc i).rank < (s.pc i).rank ∧ ∀ j, j ≠ i → s'.pc j = s.pc j) := by
  have hinv := linv_reach s h
  have free : ∀ i, s.pc i ≠ .acquiring → ¬ (s.pc i).finished → ∃ s', LStep s i s' := by
    intro i hne hf
    cases hp : s.pc i with
    | start =>
      by_cases hv : s.value = none
      · exact ⟨_, .test1Null s i hp hv⟩
      · exact ⟨_, .test1Set s i hp hv⟩
    | acquiring => exact absurd hp hne
    | locked =>
      by_cases hv : s.value = none
      · exact ⟨_, .test2Null s i hp hv⟩
      · exact ⟨_, .test2Set s i hp hv⟩
    | initialising => exact ⟨_, .create s i hp⟩
    | created o => exact ⟨_, .publish s i o hp⟩
    | unlocking => exact ⟨_, .release s i hp⟩
    | reading => exact ⟨_, .read s i hp⟩
    | done o => simp [hp, LPC.finished] at hf
    | failed => simp [hp, LPC.finished] at hf
  constructor
  · intro i hf
    by_cases hp : s.pc i = .acquiring
    · cases hl : s.lock with
      | none => exact Or.inl ⟨_, .acquire s i hp hl⟩
      | some j =>
        right
        have hj := hinv.loc j
        obtain ⟨s', hs'⟩ := free j (by
          intro hc; simp only [LLocal, hc] at hj; exact hj hl) (by
          intro hc
          cases hq : s.pc j <;> simp [hq, LPC.finished] at hc <;> simp only [LLocal, hq] at hj
          · exact hj.1 hl
          · exact hj hl)
        exact ⟨j, s', rfl, hs'⟩
    · exact Or.inl (free i hp hf)
  · intro i s' hs
    cases hs <;> rename_i h0 <;>
      simp_all [LState.goto, Function.update_apply, LPC.rank]

/-- Non-vacuity of C36: a state where two threads have returned, one of which built the object while the
other was waiting. -/
example : ∃ s, LReach s ∧ s.pc 0 = .done (some 0) ∧ s.pc 1 = .done (some 0) := by
  have r := LReach.init
  have r1 := LReach.step _ 0 _ r (.test1Null _ 0 rfl rfl)
  have r2 := LReach.step _ 1 _ r1 (.test1Null _ 1 rfl rfl)
  have r3 := LReach.step _ 0 _ r2 (.acquire _ 0 rfl rfl)
  have r4 := LReach.step _ 0 _ r3 (.test2Null _ 0 rfl rfl)
  have r5 := LReach.step _ 0 _ r4 (.create _ 0 rfl)
  have r6 := LReach.step _ 0 _ r5 (.publish _ 0 0 rfl)
  have r7 := LReach.step _ 0 _ r6 (.release _ 0 rfl)
  have r8 := LReach.step _ 1 _ r7 (.acquire _ 1 rfl rfl)
  have r9 := LReach.step _ 1 _ r8 (.test2Set _ 1 rfl (by simp [LState.goto]))
  have r10 := LReach.step _ 1 _ r9 (.release _ 1 rfl)
  have r11 := LReach.step _ 0 _ r10 (.read _ 0 rfl)
  have r12 := LReach.step _ 1 _ r11 (.read _ 1 rfl)
  exact ⟨_, r12, rfl, rfl⟩

/-! ### C35: barycentricGridSonPair -/

/-- **C35 is false**: a call that starts after the grid was published but before the son map was filled
returns a grid with an incomplete (here: empty) son map. -/
theorem C35_counterexample_early_publication (entries : Nat) :
    ∃ s i g, BReach entries s ∧ s.pc i = .done false false ⟨some g, none⟩ := by
  have r := BReach.init (entries := entries)
  have r1 := BReach.step _ 0 _ r (.test1Null _ 0 rfl rfl)
  have r2 := BReach.step _ 0 _ r1 (.acquire _ 0 _ rfl rfl)
  have r3 := BReach.step _ 0 _ r2 (.test2Null _ 0 _ rfl rfl)
  have r4 := BReach.step _ 0 _ r3 (.build _ 0 _ rfl)
  have r5 := BReach.step _ 0 _ r4 (.publish _ 0 _ 0 rfl)
  have r6 := BReach.step _ 1 _ r5 (.test1Set _ 1 rfl (by simp [BState.goto]))
  have r7 := BReach.step _ 1 _ r6 (.read _ 1 _ _ rfl)
  exact ⟨_, 1, 0, r7, rfl⟩

/-- What holds of a call at each point. -/
def BLocal (entries : Nat) (s : BState) (i : Nat) : Prop :=
  match s.pc i with
  | .start => s.lock ≠ some i
  | .acquiring l => s.lock ≠ some i ∧ l = false
  | .locked l => s.lock = some i ∧ l = false ∧ (s.grid = none → s.built = 0) ∧
      (s.grid ≠ none → s.sonMap = some entries)
  | .building l => s.lock = some i ∧ l = false ∧ s.grid = none ∧ s.built = 0
  | .built l g => s.lock = some i ∧ l = false ∧ s.grid = none ∧ s.built = 1 ∧ g = 0
  | .published l => s.lock = some i ∧ l = false ∧ s.grid = some 0 ∧ s.sonMap = none
  | .filling l => s.lock = some i ∧ l = false ∧ s.grid = some 0 ∧ ∃ m, s.sonMap = some m ∧ m ≤ entries
  | .unlocking l => s.lock = some i ∧ l = false ∧ s.grid = some 0 ∧ s.sonMap = some entries
  | .reading l v => s.lock ≠ some i ∧ s.grid = some 0 ∧ (l = true ∨ v = true → s.sonMap = some entries)
  | .done l v r => s.lock ≠ some i ∧ s.grid = some 0 ∧ r.grid = some 0 ∧
      (l = true ∨ v = true → s.sonMap = some entries ∧ r.sonMap = some entries)

/-- The invariant of the reachable states. -/
structure BInv (entries : Nat) (s : BState) : Prop where
  val : s.grid = none ∨ s.grid = some 0
  cre : s.grid = some 0 → s.built = 1
  free : s.grid = none → s.lock = none → s.built = 0
  son : s.grid = none → s.sonMap = none
  unl : s.grid ≠ none → s.lock = none → s.sonMap = some entries
  le : s.built ≤ 1
  loc : ∀ i, BLocal entries s i

theorem bupd (s : BState) (i : Nat) (p : BPC) (j : Nat) :
    (s.goto i p).pc j = if j = i then p else s.pc j := by
  unfold BState.goto
  simp only [Function.update_apply]

theorem binv_init (entries : Nat) : BInv entries .init := by
  constructor <;> simp [BState.init, BLocal]

theorem binv_step (entries : Nat) (s : BState) (i : Nat) (s' : BState) (h : BInv entries s)
    (hs : BStep entries s i s') : BInv entries s' := by
  obtain ⟨h1, h2, h3, h4, h5, h6, h7⟩ := h
  have hi := h7 i
  cases hs
  all_goals
    (constructor <;> try (intro j; have hj := h7 j; by_cases hji : j = i)) <;>
    simp_all [BLocal, bupd, BState.goto, BState.complete, Function.update_apply] <;>
    try (cases hp : s.pc j <;> have hj' := h7 j <;> simp_all) <;> try omega
  all_goals
    clear h7
    have hne := Nat.ne_of_lt (by assumption)
    grind

theorem binv_reach (entries : Nat) (s : BState) (h : BReach entries s) : BInv entries s := by
  induction h with
  | init => exact binv_init entries
  | step s i s' _ hs ih => exact binv_step entries s i s' ih hs

/-- **C35 (partial)** For any number of threads and any interleaving: the refined grid is built at most once,
every call returns that grid, and the son map is complete for every call that went through the lock
(`viaLock`) and for every call that started after the initialisation was complete (`late`).  Missing: calls
that start between the publication of the grid and the filling of the son map, see the counterexample. -/
theorem C35_partial (entries : Nat) (s : BState) (h : BReach entries s) :
    s.built ≤ 1 ∧ ∀ i late viaLock r, s.pc i = .done late viaLock r →
      r.grid = some 0 ∧ s.built = 1 ∧ (late = true ∨ viaLock = true → r.sonMap = some entries) := by
  have hi := binv_reach entries s h
  refine ⟨hi.le, ?_⟩
  intro i l v r hd
  have := hi.loc i
  simp only [BLocal, hd] at this
  exact ⟨this.2.2.1, hi.cre this.2.1, fun hlv => (this.2.2.2 hlv).2⟩

/-- **C35 (partial)** In particular a single thread, or threads whose calls do not overlap with the first
one, always get the complete pair: if no call is between its first test and its return in the state where a call
starts, and the call finds the grid present, then the initialisation is complete. -/
theorem C35_sequential_partial (entries : Nat) (s : BState) (h : BReach entries s)
    (hidle : ∀ j, s.pc j = .start ∨ ∃ l v r, s.pc j = .done l v r) :
    s.grid ≠ none → s.complete entries = true := by
  intro hg
  have hi := binv_reach entries s h
  have hl : s.lock = none := by
    cases hl : s.lock with
    | none => rfl
    | some j =>
      have hj := hi.loc j
      rcases hidle j with hp | ⟨l, v, r, hp⟩
      · simp only [BLocal, hp] at hj; exact absurd hl hj
      · simp only [BLocal, hp] at hj; exact absurd hl hj.1
  unfold BState.complete
  rw [hi.unl hg hl]
  rcases hi.val with hv | hv
  · exact absurd hv hg
  · simp [hv]

/-- Non-vacuity of the partial C35: two threads, both through the lock, son map with two entries. -/
example : ∃ s, BReach 2 s ∧ s.pc 0 = .done false true ⟨some 0, some 2⟩ ∧
    s.pc 1 = .done false true ⟨some 0, some 2⟩ ∧ s.pc 2 = .done true false ⟨some 0, some 2⟩ := by
  have r := BReach.init (entries := 2)
  have r1 := BReach.step _ 0 _ r (.test1Null _ 0 rfl rfl)
  have r2 := BReach.step _ 1 _ r1 (.test1Null _ 1 rfl rfl)
  have r3 := BReach.step _ 0 _ r2 (.acquire _ 0 _ rfl rfl)
  have r4 := BReach.step _ 0 _ r3 (.test2Null _ 0 _ rfl rfl)
  have r5 := BReach.step _ 0 _ r4 (.build _ 0 _ rfl)
  have r6 := BReach.step _ 0 _ r5 (.publish _ 0 _ 0 rfl)
  have r7 := BReach.step _ 0 _ r6 (.resize _ 0 _ rfl)
  have r8 := BReach.step _ 0 _ r7 (.fill _ 0 _ 0 rfl rfl (by omega))
  have r9 := BReach.step _ 0 _ r8 (.fill _ 0 _ 1 rfl rfl (by omega))
  have r10 := BReach.step _ 0 _ r9 (.filled _ 0 _ rfl rfl)
  have r11 := BReach.step _ 0 _ r10 (.release _ 0 _ rfl)
  have r12 := BReach.step _ 1 _ r11 (.acquire _ 1 _ rfl rfl)
  have r13 := BReach.step _ 1 _ r12 (.test2Set _ 1 _ rfl (by simp [BState.goto]))
  have r14 := BReach.step _ 1 _ r13 (.release _ 1 _ rfl)
  have r15 := BReach.step _ 0 _ r14 (.read _ 0 _ _ rfl)
  have r16 := BReach.step _ 1 _ r15 (.read _ 1 _ _ rfl)
  have r17 := BReach.step _ 2 _ r16 (.test1Set _ 2 rfl (by simp [BState.goto]))
  have r18 := BReach.step _ 2 _ r17 (.read _ 2 _ _ rfl)
  exact ⟨_, r18, rfl, rfl, rfl⟩

end Verif.Conc
